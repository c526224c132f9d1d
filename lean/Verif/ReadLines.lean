import Verif.ReadShape
/-!
# Comments, blank lines and indentation do not change what is read (C62)
-/

namespace Osl

namespace Util

/-- The text of a list of lines. -/
def unlines (ls : List Str) : Str := (ls.map (· ++ ['\n'])).flatten

/-- Lines without an end of line inside, which fit in the reading buffer of the library. -/
def TextLines (ls : List Str) : Prop := ∀ l ∈ ls, NoNL l ∧ l.length < MAX_STRING - 1

/-- The lines which hold something (specification): without their indentation, blank lines and comments being left out. -/
def content (ls : List Str) : List Str :=
  (ls.map (fun l => l.dropWhile isSpace)).filter (fun l => decide (l ≠ []) && decide (l.head? ≠ some '#'))

/-- Two texts with the same lines, comments, blank lines and indentation apart. -/
def SameText (s s' : Str) : Prop := ∃ ls ls', TextLines ls ∧ TextLines ls' ∧ s = unlines ls ∧ s' = unlines ls' ∧ content ls = content ls'

/-- Two results of a reader which are the same, what remains to be read being the same text. -/
def Same {α : Type} (o o' : Out (α × Str)) : Prop :=
  match o, o' with
  | .ok x, .ok x' => x.1 = x'.1 ∧ SameText x.2 x'.2
  | .err, .err => True
  | .ub, .ub => True
  | _, _ => False

theorem Same.bind {α β : Type} {o o' : Out (α × Str)} {f f' : α × Str → Out (β × Str)} (h : Same o o') (hf : ∀ a s s', SameText s s' → Same (f (a, s)) (f' (a, s'))) :
    Same (o >>= f) (o' >>= f') := by
  cases o <;> cases o' <;> first | exact h | exact False.elim h | skip
  next x x' =>
    obtain ⟨a, s⟩ := x
    obtain ⟨a', s'⟩ := x'
    obtain ⟨e, hs⟩ := h
    dsimp only at e hs
    subst e
    exact hf _ _ _ hs

theorem skipBlank_noNL {l : Str} (h : NoNL l) : skipBlank (l ++ ['\n']) = l.dropWhile isSpace ++ ['\n'] := by
  induction l with
  | nil => rfl
  | cons c l ih =>
    have hc : c ≠ '\n' := fun e => h (by simp [e])
    have ih := ih fun e => h (by simp [e])
    unfold skipBlank at ih ⊢
    simp only [List.cons_append, List.dropWhile_cons]
    cases hs : isSpace c with
    | true => simpa [hc] using ih
    | false => simp

/-- The next line which holds something. -/
theorem fskip_lines {ls : List Str} (h : TextLines ls) :
    (content ls = [] ∧ fskip (unlines ls) = (none, [])) ∨
    ∃ l ls', l ≠ [] ∧ NoNL l ∧ l.length < MAX_STRING - 1 ∧ (∀ c, l.head? = some c → isSpace c = false ∧ c ≠ '#') ∧ TextLines ls' ∧ content ls = l :: content ls' ∧
      fskip (unlines ls) = (some (l ++ ['\n']), unlines ls') := by
  induction ls with
  | nil => exact .inl ⟨rfl, rfl⟩
  | cons l ls ih =>
    have ht : TextLines ls := fun x hx => h x (by simp [hx])
    obtain ⟨hn, hl⟩ := h l (by simp)
    have e0 : unlines (l :: ls) = l ++ '\n' :: unlines ls := by simp [unlines]
    have e1 : fskip (unlines (l :: ls)) = match l.dropWhile isSpace ++ ['\n'] with
        | c :: t => if c = '#' ∨ c = '\n' then fskip (unlines ls) else (some (c :: t), unlines ls)
        | [] => (some [], unlines ls) := by
      rw [fskip_unfold, e0, fgets_line hn hl]
      simp only
      rw [skipBlank_noNL hn]
      rfl
    have hsub : ∀ c ∈ l.dropWhile isSpace, c ∈ l := fun c hc => (List.dropWhile_sublist _).subset hc
    cases hd : l.dropWhile isSpace with
    | nil =>
      have e2 : content (l :: ls) = content ls := by simp [content, hd]
      rw [e2, e1, hd]
      simpa using ih ht
    | cons c t =>
      have hsp : isSpace c = false := by
        have := List.head?_dropWhile_not isSpace l
        rw [hd] at this
        simpa using this
      by_cases hc : c = '#'
      · have e2 : content (l :: ls) = content ls := by simp [content, hd, hc]
        rw [e2, e1, hd]
        simpa [hc] using ih ht
      · have hcn : c ≠ '\n' := by rintro rfl; revert hsp; decide
        refine .inr ⟨c :: t, ls, by simp, ?_, ?_, ?_, ht, by simp [content, hd, hc], ?_⟩
        · intro hm; exact hn (hsub _ (by rw [hd]; exact hm))
        · have := (List.dropWhile_sublist (p := isSpace) (l := l)).length_le
          rw [hd] at this
          omega
        · intro d hd'
          simp at hd'
          subst hd'
          exact ⟨hsp, hc⟩
        · rw [e1, hd]
          simp [hc, hcn]

theorem fskip_same {s s' : Str} (h : SameText s s') : (∃ r r', fskip s = (none, r) ∧ fskip s' = (none, r')) ∨
    ∃ l r r', fskip s = (some l, r) ∧ fskip s' = (some l, r') ∧ SameText r r' := by
  obtain ⟨ls, ls', h1, h2, rfl, rfl, hc⟩ := h
  rcases fskip_lines h1 with ⟨a1, a2⟩ | ⟨l, m, a1, a2, a3, a4, a5, a6, a7⟩ <;> rcases fskip_lines h2 with ⟨b1, b2⟩ | ⟨l', m', b1, b2, b3, b4, b5, b6, b7⟩
  · exact .inl ⟨_, _, a2, b2⟩
  · rw [hc, b6] at a1; cases a1
  · rw [← hc, a6] at b1; cases b1
  · rw [a6, b6] at hc
    obtain ⟨e1, e2⟩ := List.cons.inj hc
    subst e1
    exact .inr ⟨_, _, _, a7, b7, m, m', a5, b5, rfl, rfl, e2⟩

/-- C62 for an integer of a file. -/
theorem fread_int_same {s s' : Str} (h : SameText s s') : Same (fread_int s) (fread_int s') := by
  unfold fread_int
  rcases fskip_same h with ⟨_, _, h1, h2⟩ | ⟨l, r, r', h1, h2, h3⟩
  · rw [h1, h2]; trivial
  · rw [h1, h2]
    simp only
    split
    · split
      · exact ⟨rfl, h3⟩
      · trivial
    · trivial

/-- C62 for a word and for a line of a file. -/
theorem fread_string_same {s s' : Str} (h : SameText s s') : Same (fread_string s) (fread_string s') := by
  unfold fread_string
  rcases fskip_same h with ⟨_, _, h1, h2⟩ | ⟨l, r, r', h1, h2, h3⟩
  · rw [h1, h2]; trivial
  · rw [h1, h2]
    simp only
    split
    · exact ⟨rfl, h3⟩
    · trivial

theorem fread_line_same {s s' : Str} (h : SameText s s') : Same (fread_line s) (fread_line s') := by
  unfold fread_line
  rcases fskip_same h with ⟨_, _, h1, h2⟩ | ⟨l, r, r', h1, h2, h3⟩
  · rw [h1, h2]; trivial
  · rw [h1, h2]
    exact ⟨rfl, h3⟩

end Util

open Util (SameText Same fskip_same)

/-- C62 for the strings of a file. -/
theorem Strings.read_same {s s' : Str} (h : SameText s s') : Same (Strings.read s) (Strings.read s') := by
  unfold Strings.read
  rcases fskip_same h with ⟨_, _, h1, h2⟩ | ⟨l, r, r', h1, h2, h3⟩
  · rw [h1, h2]; trivial
  · rw [h1, h2]
    simp only
    split
    · exact ⟨rfl, h3⟩
    · trivial
    · trivial

namespace Rel

theorem fLine_same {s s' : Str} (h : SameText s s') : Same (fLine s) (fLine s') := by
  unfold fLine
  rcases fskip_same h with ⟨_, _, h1, h2⟩ | ⟨l, r, r', h1, h2, h3⟩
  · rw [h1, h2]; trivial
  · rw [h1, h2]
    simp only
    cases firstLine l with
    | ok a => exact ⟨rfl, h3⟩
    | err => trivial
    | ub => trivial

/-- The results of the readers of the rows, in the order of the other readers. -/
def swap3 {α β : Type} (x : α × β × Str) : (α × β) × Str := ((x.1, x.2.1), x.2.2)

theorem fRows_same {c : Cfg} {p : Int} {k : Nat} : ∀ (n : Nat) (last : Option (Str × Nat)) {s s' : Str}, SameText s s' →
    Same (fRows c p k n last s >>= fun x => .ok (swap3 x)) (fRows c p k n last s' >>= fun x => .ok (swap3 x))
  | 0, _, _, _, h => ⟨rfl, h⟩
  | n + 1, last, s, s', h => by
    simp only [fRows]
    rcases fskip_same h with ⟨_, _, h1, h2⟩ | ⟨l, r, r', h1, h2, h3⟩
    · rw [h1, h2]; trivial
    · rw [h1, h2]
      simp only
      cases readVals c p k { pos := some l, last := last } with
      | err => trivial
      | ub => trivial
      | ok a =>
        obtain ⟨row, st⟩ := a
        simp only [Out.ok_bind]
        have ih := fRows_same (c := c) (p := p) (k := k) n st.last h3
        cases h4 : fRows c p k n st.last r with
        | err => rw [h4] at ih; cases h5 : fRows c p k n st.last r' with
          | err => trivial
          | ok _ => rw [h5] at ih; exact ih.elim
          | ub => rw [h5] at ih; exact ih.elim
        | ub => rw [h4] at ih; cases h5 : fRows c p k n st.last r' with
          | err => rw [h5] at ih; exact ih.elim
          | ok _ => rw [h5] at ih; exact ih.elim
          | ub => trivial
        | ok b => rw [h4] at ih; cases h5 : fRows c p k n st.last r' with
          | err => rw [h5] at ih; exact ih.elim
          | ub => rw [h5] at ih; exact ih.elim
          | ok b' =>
            rw [h5] at ih
            obtain ⟨m, la, f⟩ := b
            obtain ⟨m', la', f'⟩ := b'
            obtain ⟨e, hs⟩ := ih
            simp only [swap3, Prod.mk.injEq] at e
            obtain ⟨rfl, rfl⟩ := e
            exact ⟨rfl, hs⟩

theorem fBody_same {c : Cfg} {p type : Int} (d : Header) (last : Option (Str × Nat)) {s s' : Str} (h : SameText s s') :
    Same (fBody c p type d last s >>= fun x => .ok (swap3 x)) (fBody c p type d last s' >>= fun x => .ok (swap3 x)) := by
  unfold fBody
  cases pmalloc c p d.nb_rows d.nb_columns with
  | err => trivial
  | ub => trivial
  | ok q =>
    simp only [Out.ok_bind]
    have ih := fRows_same (c := c) (p := p) (k := d.nb_columns.toNat) d.nb_rows.toNat last h
    cases h4 : fRows c p d.nb_columns.toNat d.nb_rows.toNat last s with
    | err => rw [h4] at ih; cases h5 : fRows c p d.nb_columns.toNat d.nb_rows.toNat last s' with
      | err => trivial
      | ok _ => rw [h5] at ih; exact ih.elim
      | ub => rw [h5] at ih; exact ih.elim
    | ub => rw [h4] at ih; cases h5 : fRows c p d.nb_columns.toNat d.nb_rows.toNat last s' with
      | err => rw [h5] at ih; exact ih.elim
      | ok _ => rw [h5] at ih; exact ih.elim
      | ub => trivial
    | ok b => rw [h4] at ih; cases h5 : fRows c p d.nb_columns.toNat d.nb_rows.toNat last s' with
      | err => rw [h5] at ih; exact ih.elim
      | ub => rw [h5] at ih; exact ih.elim
      | ok b' =>
        rw [h5] at ih
        obtain ⟨m, la, f⟩ := b
        obtain ⟨m', la', f'⟩ := b'
        obtain ⟨e, hs⟩ := ih
        simp only [swap3, Prod.mk.injEq] at e
        obtain ⟨rfl, rfl⟩ := e
        exact ⟨rfl, hs⟩

/-- The same results of a reader with a state, in the order of the other readers. -/
theorem Same.bind3 {α β γ : Type} {o o' : Out (α × β × Str)} {f f' : α × β × Str → Out (γ × Str)}
    (h : Same (o >>= fun x => .ok (swap3 x)) (o' >>= fun x => .ok (swap3 x))) (hf : ∀ a b s s', SameText s s' → Same (f (a, b, s)) (f' (a, b, s'))) :
    Same (o >>= f) (o' >>= f') := by
  cases o <;> cases o' <;> first | exact h | exact False.elim h | skip
  next x x' =>
    obtain ⟨a, b, s⟩ := x
    obtain ⟨a', b', s'⟩ := x'
    obtain ⟨e, hs⟩ := h
    simp only [swap3, Prod.mk.injEq] at e
    obtain ⟨rfl, rfl⟩ := e
    exact hf _ _ _ _ hs

theorem fParts_same {c : Cfg} {p type : Int} : ∀ (n : Nat) (last : Option (Str × Nat)) {s s' : Str}, SameText s s' →
    Same (fParts c p type n last s) (fParts c p type n last s')
  | 0, _, _, _, h => ⟨rfl, h⟩
  | n + 1, last, s, s', h => by
    simp only [fParts]
    refine (fLine_same h).bind fun l s s' h => ?_
    cases l with
    | count _ => trivial
    | header d =>
      refine Same.bind3 (fBody_same d last h) fun q last s s' h => ?_
      exact (fParts_same n last h).bind fun r s s' h => ⟨rfl, h⟩

/-- C62: adding, removing or changing comments, blank lines and indentation does not change the relation which is read from a file, and
what remains to be read is the same. -/
theorem relation_pread_same {c : Cfg} {p : Int} {s s' : Str} (h : SameText s s') : Same (pread c p s) (pread c p s') := by
  unfold pread fread_type
  refine Same.bind (Same.bind (Strings.read_same h) fun t s s' h => ?_) fun type s s' h => ?_
  · dsimp only
    cases typeOfStrings t with
    | ok _ => exact ⟨rfl, h⟩
    | err => trivial
    | ub => trivial
  · refine (fLine_same h).bind fun l s s' h => ?_
    cases l with
    | count n =>
      dsimp only
      split
      · trivial
      · exact fParts_same _ _ h
    | header d =>
      refine Same.bind3 (fBody_same d none h) fun q last s s' h => ?_
      exact ⟨rfl, h⟩

/-- A relation, in two layouts. -/
def exLayout : Str × Str := ("DOMAIN\n1 3 1 0 0 0\n1 2 3 ## 2*i + 3 >= 0\n".toList,
  "# a comment\n\n  \t\n DOMAIN\n    # another one\n\t1 3 1 0 0 0\n\n1 2 3 ## 2*i + 3 >= 0\n# the end\n".toList)

/-- The hypothesis of the theorem is met by two different files, and a relation is read from them. -/
example : SameText exLayout.1 exLayout.2 ∧ exLayout.1 ≠ exLayout.2 ∧ ∃ r rest, pread Cfg.std PREC_DP exLayout.1 = .ok (r, rest) ∧ r.length = 1 :=
  ⟨⟨["DOMAIN".toList, "1 3 1 0 0 0".toList, "1 2 3 ## 2*i + 3 >= 0".toList],
    ["# a comment".toList, [], "  \t".toList, " DOMAIN".toList, "    # another one".toList, "\t1 3 1 0 0 0".toList, [], "1 2 3 ## 2*i + 3 >= 0".toList, "# the end".toList],
    by unfold Util.TextLines; decide, by unfold Util.TextLines; decide, by decide, by decide, by decide⟩, by decide,
    [{ type := TYPE_DOMAIN, precision := PREC_DP, nb_rows := 1, nb_columns := 3, nb_output_dims := 1, nb_input_dims := 0, nb_local_dims := 0, nb_parameters := 0, m := [[1, 2, 3]] }],
    [], by decide, by decide⟩

set_option maxRecDepth 40000 in
/-- Finding (C62): the limit on the length of the lines is necessary: a comment is skipped a buffer at a time (source/util.c:91-95), and the
end of a comment line of more than 2046 characters is read as data. -/
theorem relation_pread_long_comment_violates : pread Cfg.std PREC_DP ('#' :: (List.replicate 2046 'a' ++ "DOMAIN\n1 3 1 0 0 0\n1 2 3\n".toList)) =
    .ok ([{ type := TYPE_DOMAIN, precision := PREC_DP, nb_rows := 1, nb_columns := 3, nb_output_dims := 1, nb_input_dims := 0, nb_local_dims := 0, nb_parameters := 0, m := [[1, 2, 3]] }], []) := by
  decide +kernel

end Rel

namespace RList

theorem readLoop_same {c : Cfg} {p : Int} : ∀ (n : Nat) {s s' : Str}, SameText s s' → Same (readLoop c p n s) (readLoop c p n s')
  | 0, _, _, h => ⟨rfl, h⟩
  | n + 1, s, s', h => by
    simp only [readLoop]
    refine (Rel.relation_pread_same h).bind fun r s s' h => ?_
    exact (readLoop_same n h).bind fun l s s' h => ⟨rfl, h⟩

/-- C62 for a list of relations. -/
theorem list_pread_same {c : Cfg} {p : Int} {s s' : Str} (h : SameText s s') : Same (pread c p s) (pread c p s') := by
  unfold pread
  refine (Util.fread_int_same h).bind fun n s s' h => ?_
  dsimp only
  split
  · trivial
  · unfold readElts
    split
    · exact ⟨rfl, h⟩
    · exact readLoop_same _ h

end RList
end Osl
