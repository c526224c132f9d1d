import Verif.GenericProps
/-!
# Text round trip of the extension lists (C36)
-/

namespace Osl

namespace Util

/-- A name `osl_util_read_tag` accepts: letters and underscores, not empty. -/
def TagName (u : Str) : Prop := u ≠ [] ∧ ∀ c ∈ u, tagChar false c = true

instance (u : Str) : Decidable (TagName u) := by unfold TagName; infer_instance

theorem tagChar_ne {b : Bool} {c d : Char} (hc : tagChar b c = true) (hd : tagChar b d = false) : c ≠ d := by
  rintro rfl; rw [hc] at hd; cases hd

theorem tagChar_any {c : Char} (h : tagChar false c = true) (b : Bool) : tagChar b c = true := by
  unfold tagChar at *
  simp only [Bool.or_eq_true, Bool.and_eq_true, Bool.and_false, Bool.false_eq_true, or_false] at *
  rcases h with (h | h) | h
  · exact .inl (.inl (.inl h))
  · exact .inl (.inl (.inr h))
  · exact .inr h

theorem tagLoop_ok (u res rest : Str) (hu : ∀ c ∈ u, tagChar false c = true) (hl : res.length + u.length ≤ MAX_STRING) :
    tagLoop res (u ++ '>' :: rest) = .ok (res ++ u, rest) := by
  induction u generalizing res with
  | nil => simp [tagLoop]
  | cons c u ih =>
    have hc := hu c (by simp)
    have hne : c ≠ '>' := tagChar_ne hc (by decide)
    simp only [List.cons_append, tagLoop, if_neg hne]
    rw [if_pos (tagChar_any hc _), if_neg (by simp at hl; omega), ih _ (fun d hd => hu d (by simp [hd])) (by simp at hl ⊢; omega)]
    simp

/-- Reading an opening tag, after blanks. -/
theorem read_tag_ok {u : Str} (hu : TagName u) (hl : u.length ≤ MAX_STRING) {sp : Str} (hs : ∀ c ∈ sp, isSpace c = true) (rest : Str) :
    read_tag (sp ++ (startTag u ++ rest)) = .ok (some u, rest) := by
  unfold read_tag
  rw [sskip_spaces hs, sskip_starts (by intro c hc; simp [startTag] at hc; subst hc; decide)]
  have := tagLoop_ok u [] rest hu.2 (by simpa using hl)
  simp only [startTag, List.cons_append, List.append_assoc, List.nil_append, if_true] at this ⊢
  rw [this]

/-- The end tag of a name which does not occur in a content is found after it. -/
theorem endTag_first {u content : Str} (hu : '>' ∉ u) (hc : ¬ endTag u <:+: content) (rest : Str) :
    IsFirst (endTag u) (content ++ endTag u ++ rest) content rest := by
  refine ⟨rfl, ?_⟩
  intro pre post e
  apply Classical.byContradiction
  intro hlt
  have hlt : pre.length < content.length := by omega
  have hlen := congrArg List.length e
  simp only [List.length_append] at hlen
  by_cases hle : (pre ++ endTag u).length ≤ content.length
  · apply hc
    refine ⟨pre, content.drop (pre ++ endTag u).length, ?_⟩
    have h4 := congrArg (List.take (pre ++ endTag u).length) e
    rw [List.take_left, List.append_assoc, List.take_append_of_le_length hle] at h4
    conv => rhs; rw [← List.take_append_drop (pre ++ endTag u).length content, h4]
  · simp only [List.length_append] at hle
    -- the last character of the occurrence is inside the real end tag
    have hL : (endTag u).length = u.length + 3 := by simp [endTag]
    have h5 := congrArg (fun s => s[pre.length + (endTag u).length - 1]?) e
    rw [List.append_assoc, List.getElem?_append_right (by omega), List.getElem?_append_left (by omega),
      List.append_assoc, List.getElem?_append_right (by omega), List.getElem?_append_left (by omega)] at h5
    have e1 : (endTag u)[pre.length + (endTag u).length - 1 - pre.length]? = some '>' := by
      have : pre.length + (endTag u).length - 1 - pre.length = u.length + 2 := by omega
      rw [this]; simp [endTag]
    rw [e1] at h5
    have hk : pre.length + (endTag u).length - 1 - content.length < u.length + 2 := by omega
    have : (endTag u) = ('<' :: '/' :: u) ++ ['>'] := by simp [endTag]
    rw [this, List.getElem?_append_left (by simp; omega)] at h5
    have hm := List.mem_of_getElem? h5
    simp at hm
    exact hu hm

end Util

namespace GList

variable {D : Type}

/-- What is needed of a generic to be written and read back: its interface is the one registered under its URI, a tag
name; its printed content does not contain the end tag; the reader, given an end of line and the content, gives
data equal to the data. -/
def Textable (E : Env D) (registry : Ifaces) (g : Generic D) : Prop :=
  ∃ i u t d, g.interface = some i ∧ i.URI = some u ∧ Util.TagName u ∧ u.length + 4 < MAX_STRING ∧
    Ifaces.lookup registry (some u) = some i ∧ E.sprint i.fns.sprint g.data = .ok (some t) ∧ ¬ Util.endTag u <:+: t ∧
    E.sread i.fns.sread (some ('\n' :: t)) = .ok (some d) ∧ E.equal i.fns.equal g.data (some d) = .ok true

/-- The tags around the content of an extension. -/
theorem tags_text (u : Str) : Util.startTag u = "<".toList ++ u ++ ">".toList ∧ Util.endTag u = "</".toList ++ u ++ ">".toList := ⟨rfl, rfl⟩

/-- The text of a list of extensions (specification): for each one a line `<URI>`, the content, a line `</URI>`, and an
empty line between two of them. -/
inductive ExtText (E : Env D) : GList D → Str → Prop
  | nil : ExtText E [] []
  | one {g i u t} : g.interface = some i → i.URI = some u → E.sprint i.fns.sprint g.data = .ok (some t) →
      ExtText E [g] (Util.startTag u ++ "\n".toList ++ t ++ Util.endTag u ++ "\n".toList)
  | cons {g i u t h l s} : g.interface = some i → i.URI = some u → E.sprint i.fns.sprint g.data = .ok (some t) →
      ExtText E (h :: l) s →
      ExtText E (g :: h :: l) (Util.startTag u ++ "\n".toList ++ t ++ Util.endTag u ++ "\n".toList ++ "\n".toList ++ s)

theorem piecesLoop_text {E : Env D} {registry : Ifaces} {l : GList D} (h : ∀ g ∈ l, Textable E registry g) :
    ∃ ps, piecesLoop E l = .ok ps ∧ ExtText E l ps.flatten := by
  induction l with
  | nil => exact ⟨[], rfl, .nil⟩
  | cons g l ih =>
    obtain ⟨ps, h1, h2⟩ := ih fun x hx => h x (by simp [hx])
    obtain ⟨i, u, t, d, a1, a2, a3, a4, a5, a6, a7, a8, a9⟩ := h g (by simp)
    have hp : pieces E g = .ok [Util.startTag u ++ ['\n'], t, Util.endTag u ++ ['\n']] := by
      simp [pieces, a1, a6, a2, a4]
    cases l with
    | nil =>
      simp [piecesLoop] at h1
      subst h1
      refine ⟨_, by simp [piecesLoop, hp]; rfl, ?_⟩
      have := ExtText.one (E := E) a1 a2 a6
      simpa using this
    | cons x l =>
      refine ⟨[Util.startTag u ++ ['\n'], t, Util.endTag u ++ ['\n']] ++ [['\n']] ++ ps, by
        rw [piecesLoop, hp, h1]; rfl, ?_⟩
      have := ExtText.cons (E := E) a1 a2 a6 h2
      simpa using this

/-- The text printed. -/
theorem generic_sprint_text {E : Env D} {registry : Ifaces} {l : GList D} (h : ∀ g ∈ l, Textable E registry g) :
    ∃ s, sprint E l = .ok s ∧ ExtText E l s := by
  obtain ⟨ps, h1, h2⟩ := piecesLoop_text h
  exact ⟨ps.flatten, by simp [sprint, h1, Util.emit_eq], h2⟩

/-- Reading one extension after blanks. -/
theorem sread_one_ok {E : Env D} {registry : Ifaces} {i : Iface} {u t : Str} {o : Option D} (h1 : i.URI = some u)
    (h2 : Util.TagName u) (h3 : u.length + 4 < MAX_STRING) (h4 : Ifaces.lookup registry (some u) = some i)
    (h5 : ¬ Util.endTag u <:+: t) (h6 : E.sread i.fns.sread (some ('\n' :: t)) = .ok o)
    {sp : Str} (hs : ∀ c ∈ sp, isSpace c = true) (rest : Str) :
    sread_one E registry (sp ++ (Util.startTag u ++ "\n".toList ++ t ++ Util.endTag u ++ rest)) =
      .ok ([{ interface := some i, data := o }], rest) := by
  have hgt : '>' ∉ u := fun h => absurd (h2.2 _ h) (by decide)
  have hno : ¬ Util.endTag u <:+: ('\n' :: t) := by
    rintro ⟨p, q, e⟩
    cases p with
    | nil => simp [Util.endTag] at e
    | cons c p =>
      apply h5
      simp at e
      exact ⟨p, q, by simpa using e.2⟩
  have e1 : Util.startTag u ++ "\n".toList ++ t ++ Util.endTag u ++ rest =
      Util.startTag u ++ (('\n' :: t) ++ Util.endTag u ++ rest) := by simp
  have h7 := Util.read_tag_ok h2 (by omega) hs (('\n' :: t) ++ Util.endTag u ++ rest)
  have h8 := Util.read_uptoendtag_first (Util.endTag_first hgt hno rest)
  rw [e1]
  unfold sread_one
  rw [h7]
  simp only [Out.ok_bind]
  cases hu : u with
  | nil => exact absurd hu h2.1
  | cons c v =>
    unfold readTagged
    rw [← hu]
    simp only
    have hc : c ≠ '/' := Util.tagChar_ne (h2.2 c (by rw [hu]; simp)) (by decide)
    rw [hu] at h8 h4 ⊢
    simp only [if_neg hc]
    rw [h8]
    simp only [Out.ok_bind, h4, (iface_clone_single (i := i) (by simp [h1])).2, h6]
    rfl

theorem sreadLoop_ok {E : Env D} {registry : Ifaces} {l : GList D} {s : Str} (ht : ExtText E l s)
    (h : ∀ g ∈ l, Textable E registry g) {tr : Str} (htr : ∀ c ∈ tr, isSpace c = true) : ∀ (acc : GList D) (sp : Str) (n : Nat), (∀ c ∈ sp, isSpace c = true) →
    HasData acc → ((acc.map uri) ++ (l.map uri)).Nodup → (∀ g ∈ acc, uri g ≠ none) → (sp ++ (s ++ tr)).length < n →
    ∃ l', sreadLoop E registry n (sp ++ (s ++ tr)) acc = .ok (acc ++ l', []) ∧ l'.map (·.interface) = l.map (·.interface) ∧
      HasData l' ∧ ∀ k (h : k < l.length) (h' : k < l'.length), SameGeneric E l[k] l'[k] := by
  induction ht with
  | nil =>
    intro acc sp n hs _ _ _ hn
    refine ⟨[], ?_, rfl, by simp [HasData], by simp⟩
    simp only [List.append_nil, List.nil_append] at hn ⊢
    have hs : ∀ c ∈ sp ++ tr, isSpace c = true := by
      intro c hc
      rcases List.mem_append.mp hc with hc | hc
      · exact hs c hc
      · exact htr c hc
    generalize sp ++ tr = sp at hn hs
    cases n with
    | zero => simp at hn
    | succ n =>
      cases sp with
      | nil => simp [sreadLoop]
      | cons c sp =>
        cases n with
        | zero => simp at hn
        | succ n =>
          have hsk : Util.sskip (c :: sp) = [] := by
            have := Util.sskip_spaces hs []
            rw [List.append_nil] at this
            exact this
          simp [sreadLoop, sread_one, Util.read_tag, hsk, readTagged, add, checkLoop]
  | @one g i u t e1 e2 e3 =>
    intro acc sp n hs hd hnd hacc hn
    obtain ⟨i', u', t', d, a1, a2, a3, a4, a5, a6, a7, a8, a9⟩ := h g (by simp)
    obtain rfl : i' = i := by rw [e1] at a1; injection a1 with a1; exact a1.symm
    obtain rfl : u' = u := by rw [e2] at a2; injection a2 with a2; exact a2.symm
    obtain rfl : t' = t := by rw [e3] at a6; injection a6 with a6; injection a6 with a6; exact a6.symm
    have hr := sread_one_ok (E := E) a2 a3 a4 a5 a7 a8 hs ("\n".toList ++ tr)
    have hg' : uri ({ interface := some i', data := some d } : Generic D) = some u' := by simp [uri, a2]
    have habs : ∀ x ∈ acc, uri x ≠ some u' := by
      intro x hx e
      exact (List.nodup_append.mp hnd).2.2 _ (List.mem_map.mpr ⟨x, hx, rfl⟩) (uri g) (by simp) (by rw [e]; simp [uri, e1, e2])
    rcases generic_add_correct ⟨(List.nodup_append.mp hnd).1, hacc⟩ hd hg' rfl with ⟨a, _⟩ | ⟨_, l1, b1, b2, b3, b4, _⟩
    · exact absurd (lookup_absent habs) a
    · subst b4
      refine ⟨[{ interface := some i', data := some d }], ?_, by simp [e1], by simp [HasData], ?_⟩
      · cases n with
        | zero => simp at hn
        | succ n =>
          rw [List.append_assoc _ "\n".toList tr] at hn ⊢
          have hne : ∃ c s', sp ++ (Util.startTag u' ++ "\n".toList ++ t' ++ Util.endTag u' ++ ("\n".toList ++ tr)) = c :: s' := by
            cases sp with
            | nil => exact ⟨'<', _, rfl⟩
            | cons c sp => exact ⟨c, _, rfl⟩
          obtain ⟨c, s', hcs⟩ := hne
          rw [hcs] at hn hr ⊢
          simp only [sreadLoop, hr, Out.ok_bind, b1]
          have hlen := congrArg List.length hcs
          simp [Util.startTag, Util.endTag] at hlen
          simp at hn
          obtain ⟨m, rfl⟩ : ∃ m, n = m + 2 := ⟨n - 2, by omega⟩
          have hsk : Util.sskip ('\n' :: tr) = [] := by
            have hs : ∀ c ∈ '\n' :: tr, isSpace c = true := by
              intro c hc
              rcases List.mem_cons.mp hc with rfl | hc
              · decide
              · exact htr c hc
            have := Util.sskip_spaces hs []
            rw [List.append_nil] at this
            exact this
          simp [sreadLoop, sread_one, Util.read_tag, hsk, readTagged, add, checkLoop]
      · intro k hk hk'
        have : k = 0 := by simp at hk; exact hk
        subst this
        exact ⟨i', e1, rfl, a9⟩
  | @cons g i u t x l s e1 e2 e3 _ ih =>
    intro acc sp n hs hd hnd hacc hn
    obtain ⟨i', u', t', d, a1, a2, a3, a4, a5, a6, a7, a8, a9⟩ := h g (by simp)
    obtain rfl : i' = i := by rw [e1] at a1; injection a1 with a1; exact a1.symm
    obtain rfl : u' = u := by rw [e2] at a2; injection a2 with a2; exact a2.symm
    obtain rfl : t' = t := by rw [e3] at a6; injection a6 with a6; injection a6 with a6; exact a6.symm
    have hr := sread_one_ok (E := E) a2 a3 a4 a5 a7 a8 hs ("\n".toList ++ "\n".toList ++ (s ++ tr))
    have hg' : uri ({ interface := some i', data := some d } : Generic D) = some u' := by simp [uri, a2]
    have hgu : uri g = some u' := by simp [uri, e1, e2]
    have habs : ∀ x ∈ acc, uri x ≠ some u' := by
      intro x hx e
      exact (List.nodup_append.mp hnd).2.2 _ (List.mem_map.mpr ⟨x, hx, rfl⟩) (uri g) (by simp) (by rw [e, hgu])
    rcases generic_add_correct ⟨(List.nodup_append.mp hnd).1, hacc⟩ hd hg' rfl with ⟨a, _⟩ | ⟨_, l1, b1, b2, b3, b4, _⟩
    · exact absurd (lookup_absent habs) a
    · subst b4
      have etext : Util.startTag u' ++ "\n".toList ++ t' ++ Util.endTag u' ++ "\n".toList ++ "\n".toList ++ s ++ tr =
          Util.startTag u' ++ "\n".toList ++ t' ++ Util.endTag u' ++ ("\n".toList ++ "\n".toList ++ (s ++ tr)) := by simp
      rw [etext] at hn ⊢
      cases n with
      | zero => simp at hn
      | succ n =>
        have hne : ∃ c s', sp ++ (Util.startTag u' ++ "\n".toList ++ t' ++ Util.endTag u' ++ ("\n".toList ++ "\n".toList ++ (s ++ tr))) = c :: s' := by
          cases sp with
          | nil => exact ⟨'<', _, rfl⟩
          | cons c sp => exact ⟨c, _, rfl⟩
        have hn2 : ("\n".toList ++ "\n".toList ++ (s ++ tr)).length < n := by
          simp [Util.startTag, Util.endTag] at hn ⊢; omega
        obtain ⟨l', c1, c2, c3, c4⟩ := ih (fun y hy => h y (by simp at hy ⊢; exact .inr hy))
          (acc ++ [{ interface := some i', data := some d }]) ("\n".toList ++ "\n".toList) n (by decide) b3 (by
            simp only [List.map_append, List.map_cons, List.map_nil, List.append_assoc, List.singleton_append]
            rw [hg', ← hgu]; simpa using hnd) b2.2 hn2
        refine ⟨{ interface := some i', data := some d } :: l', ?_, by simp [e1] at c2 ⊢; exact c2, ?_, ?_⟩
        · obtain ⟨c, s', hcs⟩ := hne
          rw [hcs] at hr ⊢
          simp only [sreadLoop, hr, Out.ok_bind, b1, c1]
          simp
        · intro y hy
          rcases List.mem_cons.mp hy with rfl | hy
          · simp
          · exact c3 y hy
        · intro k hk hk'
          cases k with
          | zero => exact ⟨i', e1, rfl, a9⟩
          | succ k => simpa using c4 k (by simpa using hk) (by simpa using hk')

/-- C36: printing a well formed extension list and reading the text gives a list with the same interfaces in the
same order, equal to the initial list, and the whole text is read; provided that each extension is read back by
its own reader and does not contain its end tag. -/
theorem generic_text_round_trip {E : Env D} {registry : Ifaces} {l : GList D} (hl : Unique l)
    (h : ∀ g ∈ l, Textable E registry g) :
    ∃ s l', sprint E l = .ok s ∧ ExtText E l s ∧ sread E registry s = .ok (l', []) ∧ Unique l' ∧
      l'.map (·.interface) = l.map (·.interface) ∧ equal E l l' = .ok true := by
  obtain ⟨s, h1, h2⟩ := generic_sprint_text h
  obtain ⟨l', a, b, c, d⟩ := sreadLoop_ok h2 h (tr := []) (by simp) [] [] (s.length + 1) (by simp) (by simp [HasData]) (by simpa using hl.1) (by simp) (by simp)
  obtain ⟨hu', he⟩ := same_of_pointwise hl b d
  exact ⟨s, l', h1, h2, by simpa [sread] using a, hu', b, he⟩

/-- C36: an extension with an unknown URI is skipped. -/
theorem generic_unknown_skipped {E : Env D} {registry : Ifaces} {u t : Str} (h2 : Util.TagName u) (h3 : u.length ≤ MAX_STRING)
    (h4 : Ifaces.lookup registry (some u) = none) (h5 : ¬ Util.endTag u <:+: t) (rest : Str) :
    sread_one E registry (Util.startTag u ++ t ++ Util.endTag u ++ rest) = .ok ([], rest) := by
  have hgt : '>' ∉ u := fun h => absurd (h2.2 _ h) (by decide)
  have h7 := Util.read_tag_ok h2 h3 (sp := []) (by simp) (t ++ Util.endTag u ++ rest)
  have h8 := Util.read_uptoendtag_first (Util.endTag_first hgt h5 rest)
  simp only [List.nil_append] at h7
  unfold sread_one
  rw [show Util.startTag u ++ t ++ Util.endTag u ++ rest = Util.startTag u ++ (t ++ Util.endTag u ++ rest) by simp, h7]
  simp only [Out.ok_bind]
  cases hu : u with
  | nil => exact absurd hu h2.1
  | cons c v =>
    unfold readTagged
    rw [← hu]
    simp only
    have hc : c ≠ '/' := Util.tagChar_ne (h2.2 c (by rw [hu]; simp)) (by decide)
    rw [hu] at h8 h4 ⊢
    simp only [if_neg hc]
    rw [h8]
    simp only [Out.ok_bind, h4]

/-- Finding (C36): a content which contains the end tag is cut. -/
theorem generic_end_tag_violates {E : Env D} {registry : Ifaces} {i : Iface} {u t t2 : Str} {o : Option D} (h1 : i.URI = some u)
    (h2 : Util.TagName u) (h3 : u.length + 4 < MAX_STRING) (h4 : Ifaces.lookup registry (some u) = some i)
    (h5 : ¬ Util.endTag u <:+: t) (h6 : E.sread i.fns.sread (some ('\n' :: t)) = .ok o) :
    sread_one E registry (Util.startTag u ++ "\n".toList ++ (t ++ Util.endTag u ++ t2) ++ Util.endTag u ++ "\n".toList) =
      .ok ([{ interface := some i, data := o }], t2 ++ Util.endTag u ++ "\n".toList) := by
  have := sread_one_ok (E := E) h1 h2 h3 h4 h5 h6 (sp := []) (by simp) (t2 ++ Util.endTag u ++ "\n".toList)
  simpa using this

/-- Finding (C36): a URI with a digit is accepted by the registry and printed, but reading its tag is an error. -/
theorem generic_digit_uri_violates (E : Env D) (registry : Ifaces) (rest : Str) :
    sread_one E registry ("<ext2>".toList ++ rest) = .err := by
  simp [sread_one, Util.read_tag, Util.sskip, Util.skip, isSpace, Util.tagLoop, Util.tagChar, MAX_STRING]

set_option maxRecDepth 4000 in
/-- The hypotheses are met by a list of two extensions. -/
example : ∀ g ∈ ([⟨some (Ifaces.mk 0 "body"), some 7⟩, ⟨some (Ifaces.mk 1 "pluto_unroll"), some 81⟩] : GList Nat),
    Textable natEnv [Ifaces.mk 0 "body", Ifaces.mk 1 "pluto_unroll"] g := by
  intro g hg
  rcases List.mem_cons.mp hg with rfl | hg
  · exact ⟨Ifaces.mk 0 "body", "body".toList, "7\n".toList, 7, rfl, rfl, by decide, by decide, by decide, by decide, by decide, by decide, by decide⟩
  · simp at hg; subst hg
    exact ⟨Ifaces.mk 1 "pluto_unroll", "pluto_unroll".toList, "81\n".toList, 81, rfl, rfl, by decide, by decide, by decide, by decide,
      by decide, by decide, by decide⟩

end GList
end Osl
