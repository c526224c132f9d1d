import Verif.StatementText
import Verif.StatementProps2
import Verif.RelationTextProps
import Verif.GenericTextProps
/-!
# Text round trip of relation lists and statements (C48)
-/

namespace Osl

instance (s : Str) : Decidable (NoNL s) := by unfold NoNL; infer_instance

namespace Util

/-- A text which `osl_util_skip_blank_and_comments` skips: empty lines and comments. -/
def FSkip (t : Str) : Prop := ∀ rest, fskip (t ++ rest) = fskip rest

theorem FSkip.nil : FSkip [] := fun _ => rfl

theorem FSkip.append {s t : Str} (hs : FSkip s) (ht : FSkip t) : FSkip (s ++ t) := by
  intro rest; rw [List.append_assoc, hs, ht]

theorem FSkip.newline : FSkip ['\n'] := fun rest => fskip_newline rest

theorem FSkip.newlines : FSkip "\n\n".toList := FSkip.newline.append FSkip.newline

/-- A comment line. -/
theorem FSkip.comment {u : Str} (hu : NoNL u) (hlen : u.length + 1 < MAX_STRING - 1) : FSkip ('#' :: u ++ ['\n']) := by
  intro rest
  have := fskip_comment (rest := rest) hu hlen
  simpa using this

/-- A comment line, in a text without a long line. -/
theorem FSkip.commentShort {u : Str} (hu : NoNL u) (h : Rel.ShortLines ('#' :: u ++ ['\n'])) : FSkip ('#' :: u ++ ['\n']) := by
  have := Rel.ShortLines.line (s := '#' :: u) (t := ['\n']) h (NoNL.cons (by decide) hu)
  exact .comment hu (by simpa using this)

/-- A number alone on its line, after blanks and comments. -/
theorem fread_int_line {pre : Str} (hp : FSkip pre) {v : Int} (hv : fits 32 v) (rest : Str) :
    fread_int (pre ++ (showInt v ++ '\n' :: rest)) = .ok (v, rest) := by
  obtain ⟨a, as, ha, g1, g2, g3⟩ := Rel.showInt_head_ne v
  have hl := showInt_length hv
  have hn := noNL_showInt v
  unfold fread_int
  rw [hp]
  have := fskip_line 0 (c := a) (l := as) (rest := rest) g1 g2 (fun h => hn (by rw [ha]; simp [h])) (by rw [ha] at hl; simp [MAX_STRING] at hl ⊢; omega)
  simp only [List.replicate_zero, List.nil_append] at this
  rw [ha, this]
  have h2 := scanInt_show v 0 (rest := ['\n']) (by intro c hc; simp at hc; subst hc; decide)
  rw [ha, List.replicate_zero, List.nil_append] at h2
  simp only [h2]
  rw [if_pos hv]

end Util

namespace Rel

/-- What the text round trip needs from a relation: its parts are readable, and have the same type, which is written by its name. -/
structure TextRel (c : Cfg) (prec : Int) (r : Rel) : Prop where
  nonempty : r ≠ []
  readable : ∀ p ∈ r, Readable c prec p
  length : (r.length : Int) < 2 ^ 31
  known : ∀ p ∈ r, KnownType p.type
  uniform : ∀ p ∈ r, ∀ q ∈ r, p.type = q.type

theorem pread_skip {c : Cfg} {prec : Int} {pre : Str} (hp : Util.FSkip pre) (file : Str) : pread c prec (pre ++ file) = pread c prec file := by
  unfold pread fread_type Strings.read
  rw [hp]

theorem pread_text {c : Cfg} {prec : Int} {r : Rel} (h : TextRel c prec r) {names : Option Names} (hn : ∀ m, names = some m → NamesNoNL m) {t : Str}
    (ht : spprint c r names = .ok t) (hs : ShortLines t) (rest : Str) : pread c prec (t ++ rest) = .ok (r, rest) := by
  cases r with
  | nil => exact absurd rfl h.nonempty
  | cons p r =>
    rw [relation_read_print h.readable (by have := h.length; simp at this; omega) (h.known p (by simp)) hn ht hs]
    have : ∀ q ∈ p :: r, (fun q : Part => { q with type := p.type }) q = q := by
      intro q hq; simp only; rw [← h.uniform q hq p (by simp)]
    rw [List.map_congr_left this, List.map_id']

theorem TextRel.valid {c : Cfg} {prec : Int} {r : Rel} (h : TextRel c prec r) : Rel.Valid c r := fun p hp => (h.readable p hp).valid

end Rel

namespace RList

/-- A text made of the texts of the relations of a list, separated by blanks and comments. -/
inductive Segs (c : Cfg) (prec : Int) : RList → Str → Prop
  | nil {s} : Util.FSkip s → Segs c prec [] s
  | cons {s r names t l u} : Util.FSkip s → Rel.TextRel c prec r → (∀ m, names = some m → Rel.NamesNoNL m) →
      Rel.spprint c r names = .ok t → Rel.ShortLines t → Segs c prec l u → Segs c prec (r :: l) (s ++ (t ++ u))

theorem Segs.pre {c : Cfg} {prec : Int} {l : RList} {u s : Str} (hs : Util.FSkip s) (h : Segs c prec l u) : Segs c prec l (s ++ u) := by
  cases h with
  | nil h => exact .nil (hs.append h)
  | cons h1 h2 h3 h4 h5 h6 =>
    rw [← List.append_assoc]
    exact .cons (hs.append h1) h2 h3 h4 h5 h6

theorem Segs.append {c : Cfg} {prec : Int} {l m : RList} {u v : Str} (h : Segs c prec l u) (h' : Segs c prec m v) : Segs c prec (l ++ m) (u ++ v) := by
  induction h with
  | nil hs => exact h'.pre hs
  | @cons s r names t l u h1 h2 h3 h4 h5 h6 ih =>
    have := Segs.cons h1 h2 h3 h4 h5 ih
    simpa using this

theorem Segs.one {c : Cfg} {prec : Int} {r : Rel} {names : Option Names} {t : Str} (h2 : Rel.TextRel c prec r) (h3 : ∀ m, names = some m → Rel.NamesNoNL m)
    (h4 : Rel.spprint c r names = .ok t) (h5 : Rel.ShortLines t) : Segs c prec [r] t := by
  have := Segs.cons (u := []) Util.FSkip.nil h2 h3 h4 h5 (.nil .nil)
  simpa using this

theorem readLoop_segs {c : Cfg} {prec : Int} {l : RList} {u : Str} (h : Segs c prec l u) : ∀ rest, ∃ sk, Util.FSkip sk ∧
    readLoop c prec l.length (u ++ rest) = .ok (l, sk ++ rest) := by
  induction h with
  | nil hs => intro rest; exact ⟨_, hs, rfl⟩
  | @cons s r names t l u h1 h2 h3 h4 h5 h6 ih =>
    intro rest
    obtain ⟨sk, hsk, e⟩ := ih rest
    refine ⟨sk, hsk, ?_⟩
    have e1 : Rel.pread c prec (s ++ (t ++ u) ++ rest) = .ok (r, u ++ rest) := by
      rw [List.append_assoc, Rel.pread_skip h1, List.append_assoc, Rel.pread_text h2 h3 h4 h5]
    simp only [readLoop, List.length_cons, e1, Out.ok_bind, e]
    rfl

theorem eltsLoop_segs {c : Cfg} {prec : Int} {names : Option Names} (hn : ∀ m, names = some m → Rel.NamesNoNL m) : ∀ {l : RList} {t : Str},
    (∀ r ∈ l, Rel.TextRel c prec r) → eltsLoop c names l = .ok t → Rel.ShortLines t → Segs c prec l t
  | [], t, _, h, _ => by
    simp only [eltsLoop] at h; cases h; exact .nil .nil
  | r :: l, t, hl, h, hs => by
    have hr := hl r (by simp)
    cases hr' : r with
    | nil => exact absurd hr' hr.nonempty
    | cons p ps =>
      rw [hr'] at h hr
      simp only [eltsLoop] at h
      obtain ⟨a, h1, h⟩ := Out.bind_eq_ok.mp h
      obtain ⟨b, h2, h⟩ := Out.bind_eq_ok.mp h
      injection h with h
      subst h
      have ih := eltsLoop_segs hn (fun x hx => hl x (by simp [hx])) h2 hs.right
      have hsep : Util.FSkip (if l.isEmpty then [] else "\n".toList) := by
        split
        · exact .nil
        · exact .newline
      have := Segs.append (Segs.one hr hn h1 hs.left.left) (ih.pre hsep)
      simpa using this

/-- C48: the text of the elements of a relation list without NULL element. -/
theorem pprint_elts_segs {c : Cfg} {prec : Int} {names : Option Names} (hn : ∀ m, names = some m → Rel.NamesNoNL m) {l : RList} {t : Str}
    (hl : ∀ r ∈ l, Rel.TextRel c prec r) (h : pprint_elts c l names = .ok t) (hs : Rel.ShortLines t) : Segs c prec l t := by
  unfold pprint_elts at h
  by_cases hc : count l > 0
  · rw [if_pos hc] at h
    exact eltsLoop_segs hn hl h hs
  · rw [if_neg hc] at h
    cases l with
    | nil =>
      injection h with h
      subst h
      exact .nil (Util.FSkip.comment (u := " NULL relation list".toList) (by decide) (by decide))
    | cons r l =>
      cases r with
      | nil => exact absurd rfl (hl [] (by simp)).nonempty
      | cons p ps => simp [count] at hc

theorem count_full {l : RList} (h : ∀ r ∈ l, r ≠ []) : count l = l.length := by
  rw [list_count, List.filter_eq_self.mpr (by simpa using h)]

/-- C48: printing a relation list and reading the file gives the same list; the file is left after the text, up to blanks and
comments. -/
theorem list_text_round_trip {c : Cfg} {prec : Int} {names : Option Names} (hn : ∀ m, names = some m → Rel.NamesNoNL m) {l : RList} {t : Str}
    (hne : l ≠ []) (hlen : (l.length : Int) < 2 ^ 31) (hl : ∀ r ∈ l, Rel.TextRel c prec r)
    (h : pprint c l names = .ok t) (hs : Rel.ShortLines t) (rest : Str) :
    ∃ sk, Util.FSkip sk ∧ pread c prec (t ++ rest) = .ok (l, sk ++ rest) := by
  unfold pprint at h
  obtain ⟨b, h1, h⟩ := Out.bind_eq_ok.mp h
  injection h with h
  have hc := count_full (fun r hr => (hl r hr).nonempty)
  rw [hc] at h
  have hpre : ∃ pre, Util.FSkip pre ∧ t = pre ++ (showNat l.length ++ ("\n".toList ++ b)) := by
    refine ⟨_, ?_, h.symm⟩
    split
    · have := Util.FSkip.comment (u := " List of ".toList ++ showNat l.length ++ " elements".toList)
        (((by decide : NoNL " List of ".toList).append (noNL_showNat _)).append (by decide)) (by
          have hf : fits 32 (l.length : Int) := by unfold fits cMin cMax; simp; omega
          have := Util.showInt_length hf
          simp only [showInt, Int.natAbs_natCast] at this
          rw [if_neg (by omega)] at this
          simp [MAX_STRING]; omega)
      simpa using this
    · have := Util.FSkip.comment (u := " List of ".toList ++ showNat l.length ++ " element ".toList)
        (((by decide : NoNL " List of ".toList).append (noNL_showNat _)).append (by decide)) (by
          have hf : fits 32 (l.length : Int) := by unfold fits cMin cMax; simp; omega
          have := Util.showInt_length hf
          simp only [showInt, Int.natAbs_natCast] at this
          rw [if_neg (by omega)] at this
          simp [MAX_STRING]; omega)
      simpa using this
  obtain ⟨pre, hp, rfl⟩ := hpre
  have hf : fits 32 (l.length : Int) := by unfold fits cMin cMax; simp; omega
  have hi := Util.fread_int_line hp hf (b ++ rest)
  rw [show showInt (l.length : Int) = showNat l.length by simp [showInt]] at hi
  obtain ⟨sk, hsk, e⟩ := readLoop_segs (pprint_elts_segs hn hl h1 hs.right.right.right) rest
  refine ⟨sk, hsk, ?_⟩
  unfold pread
  rw [show pre ++ (showNat l.length ++ ("\n".toList ++ b)) ++ rest = pre ++ (showNat l.length ++ '\n' :: (b ++ rest)) by simp, hi]
  have h0 : (l.length : Int) ≠ 0 := by
    cases l with
    | nil => exact absurd rfl hne
    | cons a l => simp; omega
  simp only [Out.ok_bind, readElts]
  rw [if_neg (by omega), if_neg h0, Int.toNat_natCast, e]

/-- The relations of a list which are not NULL. -/
def present (l : RList) : RList := List.filter (fun e : Rel => decide (e ≠ [])) l

theorem eltsLoop_present {c : Cfg} {prec : Int} {names : Option Names} (hn : ∀ m, names = some m → Rel.NamesNoNL m) : ∀ {l : RList} {t : Str},
    (∀ r ∈ l, r = [] ∨ Rel.TextRel c prec r) → eltsLoop c names l = .ok t → Rel.ShortLines t → Segs c prec (present l) t
  | [], t, _, h, _ => by
    simp only [eltsLoop] at h; cases h; exact .nil .nil
  | [] :: l, t, hl, h, hs => by
    simp only [eltsLoop] at h
    exact eltsLoop_present (l := l) (t := t) hn (fun x hx => hl x (by simp [hx])) h hs
  | (p :: ps) :: l, t, hl, h, hs => by
    have hr : Rel.TextRel c prec (p :: ps) := (hl (p :: ps) (by simp)).resolve_left (by simp)
    simp only [eltsLoop] at h
    obtain ⟨a, h1, h⟩ := Out.bind_eq_ok.mp h
    obtain ⟨b, h2, h⟩ := Out.bind_eq_ok.mp h
    injection h with h
    subst h
    have ih := eltsLoop_present hn (fun x hx => hl x (by simp [hx])) h2 hs.right
    have hsep : Util.FSkip (if l.isEmpty then [] else "\n".toList) := by
      split
      · exact .nil
      · exact .newline
    have := Segs.append (Segs.one hr hn h1 hs.left.left) (ih.pre hsep)
    rw [show present ((p :: ps) :: l) = [p :: ps] ++ present l by simp [present]]
    simpa using this

/-- C48: printing a relation list some elements of which may be NULL and reading the file gives the list of its other elements (one
NULL element if there is none); the file is left after the text, up to blanks and comments. -/
theorem list_text_back {c : Cfg} {prec : Int} {names : Option Names} (hn : ∀ m, names = some m → Rel.NamesNoNL m) {l : RList} {t : Str}
    (hlen : (l.length : Int) < 2 ^ 31) (hl : ∀ r ∈ l, r = [] ∨ Rel.TextRel c prec r)
    (h : pprint c l names = .ok t) (hs : Rel.ShortLines t) (rest : Str) :
    ∃ sk, Util.FSkip sk ∧ pread c prec (t ++ rest) = .ok (if present l = [] then [[]] else present l, sk ++ rest) := by
  unfold pprint at h
  obtain ⟨b, h1, h⟩ := Out.bind_eq_ok.mp h
  injection h with h
  have hc : count l = (present l).length := list_count l
  rw [hc] at h
  have hle : (present l).length ≤ l.length := List.length_filter_le _ _
  have hf : fits 32 ((present l).length : Int) := by unfold fits cMin cMax; simp; omega
  have hpre : ∃ pre, Util.FSkip pre ∧ t = pre ++ (showNat (present l).length ++ ("\n".toList ++ b)) := by
    refine ⟨_, ?_, h.symm⟩
    have hsh := Util.showInt_length hf
    simp only [showInt, Int.natAbs_natCast] at hsh
    rw [if_neg (by omega)] at hsh
    split
    · have := Util.FSkip.comment (u := " List of ".toList ++ showNat (present l).length ++ " elements".toList)
        (((by decide : NoNL " List of ".toList).append (noNL_showNat _)).append (by decide)) (by simp [MAX_STRING]; omega)
      simpa using this
    · have := Util.FSkip.comment (u := " List of ".toList ++ showNat (present l).length ++ " element ".toList)
        (((by decide : NoNL " List of ".toList).append (noNL_showNat _)).append (by decide)) (by simp [MAX_STRING]; omega)
      simpa using this
  obtain ⟨pre, hp, rfl⟩ := hpre
  have hi := Util.fread_int_line hp hf (b ++ rest)
  rw [show showInt ((present l).length : Int) = showNat (present l).length by simp [showInt]] at hi
  have hb : Segs c prec (present l) b := by
    unfold pprint_elts at h1
    by_cases h0 : count l > 0
    · rw [if_pos h0] at h1
      exact eltsLoop_present hn hl h1 hs.right.right.right
    · rw [if_neg h0] at h1
      injection h1 with h1
      subst h1
      have : present l = [] := List.eq_nil_of_length_eq_zero (by omega)
      rw [this]
      exact .nil (Util.FSkip.comment (u := " NULL relation list".toList) (by decide) (by decide))
  rw [show pre ++ (showNat (present l).length ++ ("\n".toList ++ b)) ++ rest = pre ++ (showNat (present l).length ++ '\n' :: (b ++ rest)) by simp]
  unfold pread
  rw [hi]
  simp only [Out.ok_bind, readElts]
  rw [if_neg (by omega)]
  by_cases h0 : present l = []
  · rw [if_pos h0, if_pos (by simp [h0])]
    rw [h0] at hb
    cases hb with
    | nil hb => exact ⟨b, hb, rfl⟩
  · have : ((present l).length : Int) ≠ 0 := by
      intro e
      exact h0 (List.eq_nil_of_length_eq_zero (by omega))
    rw [if_neg h0, if_neg this, Int.toNat_natCast]
    obtain ⟨sk, hsk, e⟩ := readLoop_segs hb rest
    exact ⟨sk, hsk, e⟩

end RList

namespace GList

variable {D : Type}

/-- What is needed of a generic to be written in a file and read back from it: its interface is the one registered under its URI,
a tag name; its printed content does not contain the end tag; the reader, given the content, gives data equal to the data. -/
def FTextable (E : Env D) (registry : Ifaces) (g : Generic D) : Prop :=
  ∃ i u t d, g.interface = some i ∧ i.URI = some u ∧ Util.TagName u ∧ u.length + 4 < MAX_STRING ∧
    Ifaces.lookup registry (some u) = some i ∧ E.sprint i.fns.sprint g.data = .ok (some t) ∧ ¬ Util.endTag u <:+: t ∧
    E.sread i.fns.sread (some t) = .ok (some d) ∧ E.equal i.fns.equal g.data (some d) = .ok true

theorem piecesLoop_text_file {E : Env D} {registry : Ifaces} {l : GList D} (h : ∀ g ∈ l, FTextable E registry g) :
    ∃ ps, piecesLoop E l = .ok ps ∧ ExtText E l ps.flatten := by
  induction l with
  | nil => exact ⟨[], rfl, .nil⟩
  | cons g l ih =>
    obtain ⟨ps, h1, h2⟩ := ih fun x hx => h x (by simp [hx])
    obtain ⟨i, u, t, d, a1, a2, a3, a4, a5, a6, a7, a8, a9⟩ := h g (by simp)
    have hp : pieces E g = .ok [Util.startTag u ++ ['\n'], t, Util.endTag u ++ ['\n']] := by
      simp [pieces, a1, a6, a2, a4]
    cases l with
    | nil =>
      simp [piecesLoop] at h1
      subst h1
      refine ⟨_, by simp [piecesLoop, hp]; rfl, ?_⟩
      have := ExtText.one (E := E) a1 a2 a6
      simpa using this
    | cons x l =>
      refine ⟨[Util.startTag u ++ ['\n'], t, Util.endTag u ++ ['\n']] ++ [['\n']] ++ ps, by
        rw [piecesLoop, hp, h1]; rfl, ?_⟩
      have := ExtText.cons (E := E) a1 a2 a6 h2
      simpa using this

theorem sprint_text_file {E : Env D} {registry : Ifaces} {l : GList D} (h : ∀ g ∈ l, FTextable E registry g) {s : Str} (hs : sprint E l = .ok s) :
    ExtText E l s := by
  obtain ⟨ps, h1, h2⟩ := piecesLoop_text_file h
  simp [sprint, h1, Util.emit_eq] at hs
  subst hs
  exact h2

/-- Reading one extension of a file. -/
theorem fread_one_ok {E : Env D} {registry : Ifaces} {i : Iface} {u t : Str} {o : Option D} (h1 : i.URI = some u)
    (h2 : Util.TagName u) (h3 : u.length + 4 < MAX_STRING) (h4 : Ifaces.lookup registry (some u) = some i)
    (h5 : ¬ Util.endTag u <:+: t) (h6 : E.sread i.fns.sread (some t) = .ok o)
    {sp : Str} (hs : Util.FSkip sp) (rest : Str) :
    fread_one E registry (sp ++ (Util.startTag u ++ "\n".toList ++ t ++ Util.endTag u ++ rest)) =
      .ok ([{ interface := some i, data := o }], rest) := by
  have hgt : '>' ∉ u := fun h => absurd (h2.2 _ h) (by decide)
  have hnl : NoNL u := fun h => absurd (h2.2 _ h) (by decide)
  have h8 := Util.read_uptoendtag_first (Util.endTag_first hgt h5 rest)
  have e1 : Util.startTag u ++ "\n".toList ++ t ++ Util.endTag u ++ rest =
      '<' :: (u ++ ['>']) ++ '\n' :: (t ++ Util.endTag u ++ rest) := by simp [Util.startTag]
  have e2 := Util.fskip_line 0 (c := '<') (l := u ++ ['>']) (rest := t ++ Util.endTag u ++ rest) (by decide) (by decide)
    (hnl.append (by decide)) (by simp; omega)
  simp only [List.replicate_zero, List.nil_append] at e2
  have e3 := Util.tagLoop_ok u [] ['\n'] h2.2 (by simp; omega)
  have e4 : Util.fread_tag (sp ++ ('<' :: (u ++ ['>']) ++ '\n' :: (t ++ Util.endTag u ++ rest))) = .ok (some u, t ++ Util.endTag u ++ rest) := by
    unfold Util.fread_tag
    rw [hs, e2]
    simp only
    rw [if_neg (by rintro ⟨_, h⟩; exact h List.getLast?_concat)]
    simp only [List.cons_append, List.append_assoc, List.nil_append, if_true] at e3 ⊢
    rw [e3]
  unfold fread_one
  rw [e1, e4]
  simp only [Out.ok_bind]
  cases hu : u with
  | nil => exact absurd hu h2.1
  | cons c v =>
    unfold readTagged
    rw [← hu]
    have hc : c ≠ '/' := Util.tagChar_ne (h2.2 c (by rw [hu]; simp)) (by decide)
    rw [hu] at h8 h4 ⊢
    simp only [if_neg hc]
    rw [h8]
    simp only [Out.ok_bind, h4, (iface_clone_single (i := i) (by simp [h1])).2, h6]
    rfl

end GList

namespace Stmts

variable {D : Type}

open GList in
theorem readExts_ok {E : Env D} {registry : Ifaces} {l : GList D} {s : Str} (ht : ExtText E l s)
    (h : ∀ g ∈ l, FTextable E registry g) : ∀ (acc : GList D) (sp : Str), Util.FSkip sp →
    HasData acc → ((acc.map uri) ++ (l.map uri)).Nodup → (∀ g ∈ acc, uri g ≠ none) → ∀ rest : Str,
    ∃ l', readExts E registry l.length (sp ++ (s ++ rest)) acc = .ok (acc ++ l', (if l = [] then sp else "\n".toList) ++ rest) ∧
      l'.map (·.interface) = l.map (·.interface) ∧
      ∀ k (h : k < l.length) (h' : k < l'.length), SameGeneric E l[k] l'[k] := by
  induction ht with
  | nil =>
    intro acc sp hs _ _ _ rest
    exact ⟨[], by simp [readExts], rfl, by simp⟩
  | @one g i u t e1 e2 e3 =>
    intro acc sp hs hd hnd hacc rest
    obtain ⟨i', u', t', d, a1, a2, a3, a4, a5, a6, a7, a8, a9⟩ := h g (by simp)
    obtain rfl : i' = i := by rw [e1] at a1; injection a1 with a1; exact a1.symm
    obtain rfl : u' = u := by rw [e2] at a2; injection a2 with a2; exact a2.symm
    obtain rfl : t' = t := by rw [e3] at a6; injection a6 with a6; injection a6 with a6; exact a6.symm
    have hr := fread_one_ok (E := E) a2 a3 a4 a5 a7 a8 hs ("\n".toList ++ rest)
    have hg' : uri ({ interface := some i', data := some d } : Generic D) = some u' := by simp [uri, a2]
    have habs : ∀ x ∈ acc, uri x ≠ some u' := by
      intro x hx e
      exact (List.nodup_append.mp hnd).2.2 _ (List.mem_map.mpr ⟨x, hx, rfl⟩) (uri g) (by simp) (by rw [e]; simp [uri, e1, e2])
    rcases generic_add_correct ⟨(List.nodup_append.mp hnd).1, hacc⟩ hd hg' rfl with ⟨a, _⟩ | ⟨_, l1, b1, b2, b3, b4, _⟩
    · exact absurd (lookup_absent habs) a
    · subst b4
      refine ⟨[{ interface := some i', data := some d }], ?_, by simp [e1], ?_⟩
      · rw [List.append_assoc _ "\n".toList rest]
        simp only [readExts, List.length_cons, List.length_nil, hr, Out.ok_bind, b1]
        simp
      · intro k hk hk'
        have : k = 0 := by simp at hk; exact hk
        subst this
        exact ⟨i', e1, rfl, a9⟩
  | @cons g i u t x l s e1 e2 e3 _ ih =>
    intro acc sp hs hd hnd hacc rest
    obtain ⟨i', u', t', d, a1, a2, a3, a4, a5, a6, a7, a8, a9⟩ := h g (by simp)
    obtain rfl : i' = i := by rw [e1] at a1; injection a1 with a1; exact a1.symm
    obtain rfl : u' = u := by rw [e2] at a2; injection a2 with a2; exact a2.symm
    obtain rfl : t' = t := by rw [e3] at a6; injection a6 with a6; injection a6 with a6; exact a6.symm
    have hr := fread_one_ok (E := E) a2 a3 a4 a5 a7 a8 hs ("\n\n".toList ++ (s ++ rest))
    have hg' : uri ({ interface := some i', data := some d } : Generic D) = some u' := by simp [uri, a2]
    have hgu : uri g = some u' := by simp [uri, e1, e2]
    have habs : ∀ x ∈ acc, uri x ≠ some u' := by
      intro x hx e
      exact (List.nodup_append.mp hnd).2.2 _ (List.mem_map.mpr ⟨x, hx, rfl⟩) (uri g) (by simp) (by rw [e, hgu])
    rcases generic_add_correct ⟨(List.nodup_append.mp hnd).1, hacc⟩ hd hg' rfl with ⟨a, _⟩ | ⟨_, l1, b1, b2, b3, b4, _⟩
    · exact absurd (lookup_absent habs) a
    · subst b4
      have etext : Util.startTag u' ++ "\n".toList ++ t' ++ Util.endTag u' ++ "\n".toList ++ "\n".toList ++ s ++ rest =
          Util.startTag u' ++ "\n".toList ++ t' ++ Util.endTag u' ++ ("\n\n".toList ++ (s ++ rest)) := by simp
      rw [etext]
      obtain ⟨l', c1, c2, c4⟩ := ih (fun y hy => h y (by simp at hy ⊢; exact .inr hy))
          (acc ++ [{ interface := some i', data := some d }]) "\n\n".toList Util.FSkip.newlines b3 (by
            simp only [List.map_append, List.map_cons, List.map_nil, List.append_assoc, List.singleton_append]
            rw [hg', ← hgu]; simpa using hnd) b2.2 rest
      refine ⟨{ interface := some i', data := some d } :: l', ?_, by simp [e1] at c2 ⊢; exact c2, ?_⟩
      · rw [show (g :: x :: l).length = (x :: l).length + 1 from rfl]
        simp only [readExts, hr, Out.ok_bind, b1, c1]
        simp
      · intro k hk hk'
        cases k with
        | zero => exact ⟨i', e1, rfl, a9⟩
        | succ k => simpa using c4 k (by simpa using hk) (by simpa using hk')

/-- What the text round trip needs from a statement: relations which can be read back, under the right types (a NULL domain or
scattering is allowed, NULL accesses are not), extensions with distinct URIs which can be read back, and iterator names without end
of line. -/
structure TextStmt (c : Cfg) (L : Lib D) (registry : Ifaces) (prec : Int) (s : Stmt D) : Prop where
  domain : s.domain = [] ∨ Rel.TextRel c prec s.domain ∧ ∀ p ∈ s.domain, p.type = TYPE_DOMAIN
  scattering : s.scattering = [] ∨ Rel.TextRel c prec s.scattering ∧ ∀ p ∈ s.scattering, p.type = TYPE_SCATTERING
  access : ∀ r ∈ s.access, Rel.TextRel c prec r ∧ ∀ p ∈ r, p.type = TYPE_READ ∨ p.type = TYPE_WRITE ∨ p.type = TYPE_MAY_WRITE
  accesses : (s.access.length : Int) < 2 ^ 31 - 2
  unique : GList.Unique s.extension
  extensions : (s.extension.length : Int) < 2 ^ 31
  extension : ∀ g ∈ s.extension, GList.FTextable L.toEnv registry g
  iterators : ∀ b, lookupBody L s.extension = .ok (some b) → Rel.StringsNoNL b.iterators

/-- A relation, or nothing when it is NULL. -/
def some? (r : Rel) : RList := if r.isEmpty then [] else [r]

theorem dispatch_back {c : Cfg} {prec : Int} {d sc : Rel} {al : RList}
    (hd : d = [] ∨ Rel.TextRel c prec d ∧ ∀ p ∈ d, p.type = TYPE_DOMAIN) (hsc : sc = [] ∨ Rel.TextRel c prec sc ∧ ∀ p ∈ sc, p.type = TYPE_SCATTERING)
    (ha : ∀ r ∈ al, Rel.TextRel c prec r ∧ ∀ p ∈ r, p.type = TYPE_READ ∨ p.type = TYPE_WRITE ∨ p.type = TYPE_MAY_WRITE) :
    dispatch c (some? d ++ (some? sc ++ al)) = .ok (d, sc, al) := by
  have hal : ∀ t, t ≠ TYPE_ACCESS → (t = TYPE_DOMAIN ∨ t = TYPE_SCATTERING) → List.filter (RList.keeps t) al = [] := by
    intro t h1 h2
    rw [List.filter_eq_nil_iff]
    intro r hr
    obtain ⟨h3, h4⟩ := ha r hr
    cases r with
    | nil => exact absurd rfl h3.nonempty
    | cons p r =>
      have := h4 p (by simp)
      rcases h2 with rfl | rfl <;> rcases this with e | e | e <;> simp [RList.keeps, e, TYPE_DOMAIN, TYPE_SCATTERING, TYPE_READ, TYPE_WRITE, TYPE_MAY_WRITE, TYPE_ACCESS]
  have hala : List.filter (RList.keeps TYPE_ACCESS) al = al := by
    rw [List.filter_eq_self]
    intro r hr
    obtain ⟨h3, h4⟩ := ha r hr
    cases r with
    | nil => exact absurd rfl h3.nonempty
    | cons p r =>
      have := h4 p (by simp)
      rcases this with e | e | e <;> simp [RList.keeps, Rel.is_access, Rel.isAccessPart, e]
  have hdk : ∀ t, List.filter (RList.keeps t) (some? d) = if t = TYPE_DOMAIN then some? d else [] := by
    intro t
    cases d with
    | nil => simp [some?]
    | cons p r =>
      rcases hd with h | ⟨_, h⟩
      · cases h
      · have := h p (by simp)
        by_cases e : t = TYPE_DOMAIN
        · subst e; simp [some?, RList.keeps, this, TYPE_DOMAIN, TYPE_ACCESS]
        · rw [if_neg e, List.filter_eq_nil_iff]
          intro x hx
          simp [some?] at hx
          subst hx
          simp [RList.keeps, Rel.is_access, Rel.isAccessPart, this, TYPE_DOMAIN, TYPE_READ, TYPE_WRITE, TYPE_MAY_WRITE]
          exact ⟨fun _ => by decide, fun _ => e⟩
  have hsk : ∀ t, List.filter (RList.keeps t) (some? sc) = if t = TYPE_SCATTERING then some? sc else [] := by
    intro t
    cases sc with
    | nil => simp [some?]
    | cons p r =>
      rcases hsc with h | ⟨_, h⟩
      · cases h
      · have := h p (by simp)
        by_cases e : t = TYPE_SCATTERING
        · subst e; simp [some?, RList.keeps, this, TYPE_SCATTERING, TYPE_ACCESS]
        · rw [if_neg e, List.filter_eq_nil_iff]
          intro x hx
          simp [some?] at hx
          subst hx
          simp [RList.keeps, Rel.is_access, Rel.isAccessPart, this, TYPE_SCATTERING, TYPE_READ, TYPE_WRITE, TYPE_MAY_WRITE]
          exact ⟨fun _ => by decide, fun _ => e⟩
  have hv : RList.Valid c (some? d ++ (some? sc ++ al)) := by
    intro r hr
    rcases List.mem_append.mp hr with h | h
    · rcases hd with e | ⟨h1, _⟩
      · subst e; simp [some?] at h
      · have : r = d := by unfold some? at h; split at h <;> simp at h; exact h
        subst this; exact h1.valid
    · rcases List.mem_append.mp h with h | h
      · rcases hsc with e | ⟨h1, _⟩
        · subst e; simp [some?] at h
        · have : r = sc := by unfold some? at h; split at h <;> simp at h; exact h
          subst this; exact h1.valid
      · exact (ha r h).1.valid
  have hf : ∀ t, RList.filter c (some? d ++ (some? sc ++ al)) t = .ok (List.filter (RList.keeps t) (some? d ++ (some? sc ++ al))) := by
    intro t; simp [RList.filter, RList.clone_ok hv, RList.filterLoop_eq]
  have h1 : RList.filter c (some? d ++ (some? sc ++ al)) TYPE_DOMAIN = .ok (some? d) := by
    rw [hf, List.filter_append, List.filter_append, hdk, hsk, hal _ (by decide) (.inl rfl), if_pos rfl, if_neg (by decide)]; simp
  have h2 : RList.filter c (some? d ++ (some? sc ++ al)) TYPE_SCATTERING = .ok (some? sc) := by
    rw [hf, List.filter_append, List.filter_append, hdk, hsk, hal _ (by decide) (.inr rfl), if_neg (by decide), if_pos rfl]; simp
  have h3 : RList.filter c (some? d ++ (some? sc ++ al)) TYPE_ACCESS = .ok al := by
    rw [hf, List.filter_append, List.filter_append, hdk, hsk, hala, if_neg (by decide), if_neg (by decide)]; simp
  have hcount : ∀ a b : RList, RList.count (a ++ b) = RList.count a + RList.count b := by
    intro a b; simp [RList.list_count]
  have hle : ∀ r : Rel, RList.count (some? r) ≤ 1 := by
    intro r; cases r <;> simp [some?, RList.count]
  have hhead : ∀ r : Rel, headRel (some? r) = r := by
    intro r; cases r <;> simp [some?, headRel]
  unfold dispatch
  rw [h1]
  simp only [Out.ok_bind]
  rw [if_neg (by have := hle d; omega), h2]
  simp only [Out.ok_bind]
  rw [if_neg (by have := hle sc; omega), h3]
  simp only [Out.ok_bind]
  rw [if_neg (by rw [hcount, hcount]; omega), hhead, hhead]

theorem withBody_noNL {names : Names} (hn : Rel.NamesNoNL names) {body : Option Body} (hb : ∀ b, body = some b → Rel.StringsNoNL b.iterators) :
    Rel.NamesNoNL (withBody names body) := by
  unfold withBody
  split
  · rename_i i e
    obtain ⟨h1, h2, h3, h4, h5⟩ := hn
    have := hb _ rfl
    exact ⟨by first | exact h1 | exact this, by first | exact this | exact h2, h3, h4, h5⟩
  · exact hn

/-- A comment of a text without long line: literal, number or title, end of line. -/
theorem skip_title {lit u : Str} (hlit : ∃ v, lit = '#' :: v ∧ NoNL v) (hu : NoNL u) (h : Rel.ShortLines (lit ++ (u ++ ['\n']))) :
    Util.FSkip (lit ++ (u ++ ['\n'])) := by
  obtain ⟨v, rfl, hv⟩ := hlit
  have e : '#' :: v ++ (u ++ ['\n']) = '#' :: (v ++ u) ++ ['\n'] := by simp
  rw [e] at h ⊢
  exact .commentShort (hv.append hu) h

theorem partLine_skip {number : Nat} {title : Str} (ht : NoNL title) (h : Rel.ShortLines (partLine number title)) : Util.FSkip (partLine number title) := by
  have e : ∃ lit, partLine number title = lit ++ ((pad2 number ++ title) ++ ['\n']) ∧ ∃ v, lit = '#' :: v ∧ NoNL v := by
    refine ⟨"# ---------------------------------------------- ".toList, ?_, " ---------------------------------------------- ".toList, rfl, by decide⟩
    unfold partLine
    rw [List.append_assoc (pad2 number)]
    rfl
  obtain ⟨lit, e, hl⟩ := e
  rw [e] at h ⊢
  refine skip_title hl (NoNL.append ?_ ht) h
  exact (noNL_replicate _).append (noNL_showNat _)

theorem rel_segs {c : Cfg} {prec : Int} {r : Rel} {type : Int} (h : r = [] ∨ Rel.TextRel c prec r ∧ ∀ p ∈ r, p.type = type) {names : Names} (hn : Rel.NamesNoNL names)
    {t : Str} (ht : Rel.spprint c r (some names) = .ok t) (hs : Rel.ShortLines t) : RList.Segs c prec (some? r) t := by
  rcases h with rfl | ⟨h, _⟩
  · have e : Rel.spprint c [] (some names) = .ok [] := by simp [Rel.spprint, Util.emit_eq]
    rw [e] at ht
    injection ht with ht
    subst ht
    exact .nil .nil
  · have e : some? r = [r] := by
      unfold some?
      cases r with
      | nil => exact absurd rfl h.nonempty
      | cons p r => rfl
    rw [e]
    exact .one h (by intro m hm; injection hm with hm; subst hm; exact hn) ht hs

theorem nbRelations_eq {c : Cfg} {L : Lib D} {registry : Ifaces} {prec : Int} {s : Stmt D} (h : TextStmt c L registry prec s) :
    nbRelations s = (some? s.domain ++ (some? s.scattering ++ s.access)).length := by
  unfold nbRelations some?
  rw [RList.count_full (fun r hr => (h.access r hr).1.nonempty), List.length_append, List.length_append]
  split <;> split <;> simp <;> omega

/-- The file announces `k` extensions after its relations. -/
def Announced (c : Cfg) (prec : Int) (file : Str) (k : Nat) : Prop :=
  ∃ l f1 n f2, RList.pread c prec file = .ok (l, f1) ∧ Util.fread_int f1 = .ok (n, f2) ∧ n.toNat = k

/-- Reading a statement, on the pieces of its text. -/
theorem pread_pieces {c : Cfg} {L : Lib D} {registry : Ifaces} {prec : Int} {s : Stmt D} (h : TextStmt c L registry prec s)
    {A S Q e : Str} (hA : Util.FSkip A) (hS : RList.Segs c prec (some? s.domain ++ (some? s.scattering ++ s.access)) S) (hQ : Util.FSkip Q)
    (he : printExts L s.extension = .ok e) (rest : Str) :
    ∃ e' sk, pread c L registry prec (A ++ (showNat (nbRelations s) ++ '\n' :: (S ++ (Q ++ (showInt (GList.number s.extension) ++ '\n' :: (e ++ '\n' :: rest)))))) =
        .ok ({ s with extension := e' }, sk ++ rest) ∧ (∀ x ∈ sk, x = '\n') ∧
      GList.Unique e' ∧ e'.map (·.interface) = s.extension.map (·.interface) ∧ GList.equal L.toEnv s.extension e' = .ok true ∧
      (∀ k (h : k < s.extension.length) (h' : k < e'.length), GList.SameGeneric L.toEnv s.extension[k] e'[k]) ∧
      Announced c prec (A ++ (showNat (nbRelations s) ++ '\n' :: (S ++ (Q ++ (showInt (GList.number s.extension) ++ '\n' :: (e ++ '\n' :: rest)))))) s.extension.length := by
  have hnb := nbRelations_eq h
  have hle : ∀ r : Rel, (some? r).length ≤ 1 := by
    intro r; cases r <;> simp [some?]
  have hfit : fits 32 (nbRelations s : Int) := by
    have h1 := hle s.domain
    have h2 := hle s.scattering
    have h3 := h.accesses
    rw [hnb, List.length_append, List.length_append]
    unfold fits cMin cMax; simp; omega
  have hi := Util.fread_int_line hA hfit (S ++ (Q ++ (showInt (GList.number s.extension) ++ '\n' :: (e ++ '\n' :: rest))))
  rw [show showInt (nbRelations s : Int) = showNat (nbRelations s) by simp [showInt]] at hi
  -- the relations
  have hl : ∃ l sk, RList.pread c prec (A ++ (showNat (nbRelations s) ++ '\n' :: (S ++ (Q ++ (showInt (GList.number s.extension) ++ '\n' :: (e ++ '\n' :: rest)))))) =
      .ok (l, sk ++ (Q ++ (showInt (GList.number s.extension) ++ '\n' :: (e ++ '\n' :: rest)))) ∧ Util.FSkip sk ∧
      dispatch c l = .ok (s.domain, s.scattering, s.access) := by
    have hd := dispatch_back h.domain h.scattering h.access
    obtain ⟨sk, hsk, er⟩ := RList.readLoop_segs hS (Q ++ (showInt (GList.number s.extension) ++ '\n' :: (e ++ '\n' :: rest)))
    unfold RList.pread
    rw [hi]
    simp only [Out.ok_bind, RList.readElts]
    rw [if_neg (by omega)]
    by_cases h0 : nbRelations s = 0
    · have hnil : some? s.domain ++ (some? s.scattering ++ s.access) = [] := List.length_eq_zero_iff.mp (by rw [← hnb, h0])
      rw [hnil] at hS hd er
      refine ⟨[[]], S, by rw [if_pos (by omega)], ?_, ?_⟩
      · cases hS with
        | nil hs => exact hs
      · rw [show dispatch c [[]] = dispatch c [] from ?_, hd]
        simp [dispatch, RList.filter, RList.clone, Out.mapOut, Rel.clone, RList.filterLoop, RList.keeps, RList.count]
    · refine ⟨_, sk, ?_, hsk, hd⟩
      rw [if_neg (by omega), Int.toNat_natCast, hnb, er]
  obtain ⟨l, sk, e1, hsk, e2⟩ := hl
  -- the extensions
  have hfe : fits 32 (GList.number s.extension) := by
    have := h.extensions
    unfold GList.number fits cMin cMax; simp; omega
  have e3 := Util.fread_int_line (hsk.append hQ) hfe (e ++ '\n' :: rest)
  rw [List.append_assoc] at e3
  have hext : GList.ExtText L.toEnv s.extension e := by
    unfold printExts at he
    split at he
    · exact GList.sprint_text_file h.extension he
    · rename_i hz
      have : s.extension = [] := by
        cases hx : s.extension with
        | nil => rfl
        | cons g gs => rw [hx] at hz; simp [GList.number] at hz
      rw [this]
      injection he with he
      subst he
      exact .nil
  obtain ⟨e', g1, g2, g3⟩ := readExts_ok hext h.extension [] [] Util.FSkip.nil (by simp [GList.HasData]) (by simpa using h.unique.1) (by simp) ('\n' :: rest)
  obtain ⟨g4, g5⟩ := GList.same_of_pointwise h.unique g2 g3
  refine ⟨e', (if s.extension = [] then [] else "\n".toList) ++ ['\n'], ?_, ?_, g4, g2, g5, g3, l, _, _, _, e1, e3, Int.toNat_natCast _⟩
  · unfold pread
    rw [e1]
    simp only [Out.ok_bind]
    rw [e2]
    simp only [Out.ok_bind]
    rw [e3]
    simp only [Out.ok_bind]
    simp only [List.nil_append] at g1
    rw [show (GList.number s.extension).toNat = s.extension.length from Int.toNat_natCast _, g1]
    simp only [Out.ok_bind, List.append_assoc, List.singleton_append]
    rfl
  · intro x hx
    rcases List.mem_append.mp hx with hx | hx
    · split at hx
      · cases hx
      · simpa using hx
    · simpa using hx

/-- `statement_text_round_trip`, with the number of extensions which the text announces. -/
theorem statement_text_pieces {c : Cfg} {L : Lib D} {registry : Ifaces} {prec : Int} {s : Stmt D} (h : TextStmt c L registry prec s)
    {names : Names} (hn : Rel.NamesNoNL names) {number : Nat} {t : Str} (ht : printOne c L names number s = .ok t) (hs : Rel.ShortLines t)
    {pre : Str} (hp : Util.FSkip pre) (rest : Str) :
    ∃ e' sk, pread c L registry prec (pre ++ (t ++ rest)) = .ok ({ s with extension := e' }, sk ++ rest) ∧ (∀ x ∈ sk, x = '\n') ∧
      GList.Unique e' ∧ e'.map (·.interface) = s.extension.map (·.interface) ∧ GList.equal L.toEnv s.extension e' = .ok true ∧
      (∀ k (h : k < s.extension.length) (h' : k < e'.length), GList.SameGeneric L.toEnv s.extension[k] e'[k]) ∧
      Announced c prec (pre ++ (t ++ rest)) s.extension.length := by
  unfold printOne at ht
  obtain ⟨b, hb, ht⟩ := Out.bind_eq_ok.mp ht
  obtain ⟨d, hd, ht⟩ := Out.bind_eq_ok.mp ht
  obtain ⟨sc, hsc, ht⟩ := Out.bind_eq_ok.mp ht
  obtain ⟨a, ha, ht⟩ := Out.bind_eq_ok.mp ht
  obtain ⟨e, he, ht⟩ := Out.bind_eq_ok.mp ht
  injection ht with ht
  have hnames := withBody_noNL hn (body := b) (by rintro b' rfl; exact h.iterators b' hb)
  generalize withBody names b = nm at hd hsc ha hnames
  -- the literals are kept abstract
  have l1 : ∃ v, "# =============================================== Statement ".toList = '#' :: v ∧ NoNL v :=
    ⟨" =============================================== Statement ".toList, rfl, by decide⟩
  have l2 : Util.FSkip "# Number of relations describing the statement:\n".toList :=
    Util.FSkip.comment (u := " Number of relations describing the statement:".toList) (by decide) (by decide)
  have l3 : Util.FSkip "# Number of Statement Extensions\n".toList :=
    Util.FSkip.comment (u := " Number of Statement Extensions".toList) (by decide) (by decide)
  have l4 : "\n\n".toList = ['\n', '\n'] := rfl
  have l5 : "\n".toList = ['\n'] := rfl
  rw [l4, l5] at ht
  generalize "# =============================================== Statement ".toList = k1 at ht l1
  generalize "# Number of relations describing the statement:\n".toList = k2 at ht l2
  generalize "# Number of Statement Extensions\n".toList = k3 at ht l3
  have n1 : NoNL ".1 Domain".toList := by decide
  have n2 : NoNL ".2 Scattering".toList := by decide
  have n3 : NoNL ".3 Access".toList := by decide
  have n4 : NoNL ".4 Statement Extensions".toList := by decide
  generalize ".1 Domain".toList = t1 at ht n1
  generalize ".2 Scattering".toList = t2 at ht n2
  generalize ".3 Access".toList = t3 at ht n3
  generalize ".4 Statement Extensions".toList = t4 at ht n4
  subst ht
  have hs1 : Rel.ShortLines (k1 ++ (showNat number ++ ['\n'])) := by
    apply Rel.ShortLines.left (t := k2 ++ _)
    simpa only [List.append_assoc] using hs
  have s4 := hs.right.right.right.right.right.right
  have s6 := s4.right.right.right
  have s7 := s6.right.right.right
  have s8 := s7.right.right.right
  have hA := (hp.append (skip_title l1 (noNL_showNat number) hs1)).append l2
  have hS := (((rel_segs h.domain hnames hd s4.right.left).pre (partLine_skip n1 s4.left)).pre Util.FSkip.newline).append
    ((((rel_segs h.scattering hnames hsc s6.right.left).pre (partLine_skip n2 s6.left)).pre Util.FSkip.newline).append
    (((RList.pprint_elts_segs (names := some nm) (by intro m hm; injection hm with hm; subst hm; exact hnames) (fun r hr => (h.access r hr).1) ha s7.right.left).pre
      (partLine_skip n3 s7.left)).pre Util.FSkip.newline))
  have hQ := (Util.FSkip.newline.append (partLine_skip n4 s8.left)).append l3
  obtain ⟨e', sk, g⟩ := pread_pieces h hA hS hQ he rest
  simp only [List.append_assoc, List.cons_append, List.nil_append] at g ⊢
  exact ⟨e', sk, g⟩

/-- C48: the statement read from the printed text of a statement: the same relations, extensions which are equal; only ends of line
are left before what follows. -/
theorem statement_text_round_trip {c : Cfg} {L : Lib D} {registry : Ifaces} {prec : Int} {s : Stmt D} (h : TextStmt c L registry prec s)
    {names : Names} (hn : Rel.NamesNoNL names) {number : Nat} {t : Str} (ht : printOne c L names number s = .ok t) (hs : Rel.ShortLines t)
    {pre : Str} (hp : Util.FSkip pre) (rest : Str) :
    ∃ e' sk, pread c L registry prec (pre ++ (t ++ rest)) = .ok ({ s with extension := e' }, sk ++ rest) ∧ (∀ x ∈ sk, x = '\n') ∧
      GList.Unique e' ∧ e'.map (·.interface) = s.extension.map (·.interface) ∧ GList.equal L.toEnv s.extension e' = .ok true ∧
      ∀ k (h : k < s.extension.length) (h' : k < e'.length), GList.SameGeneric L.toEnv s.extension[k] e'[k] := by
  obtain ⟨e', sk, g1, g2, g3, g4, g5, g6, _⟩ := statement_text_pieces h hn ht hs hp rest
  exact ⟨e', sk, g1, g2, g3, g4, g5, g6⟩

end Stmts
end Osl
