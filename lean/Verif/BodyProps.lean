import Verif.Body
import Verif.StringsProps
/-!
# Properties of the statement bodies (part of C45 and C46)
-/

namespace Osl
namespace Body

/-- C46: `osl_body_equal` decides that the iterators and expressions are the same. -/
theorem body_equal_iff (a b : Option Body) : equal a b = true ↔ (a = none ∧ b = none) ∨ ∃ x y, a = some x ∧ b = some y ∧
    Strings.equal x.iterators y.iterators = true ∧ Strings.equal x.expression y.expression = true := by
  cases a <;> cases b <;> simp [equal]

/-- C46: the equality of bodies is an equivalence. -/
theorem body_equal_equivalence : (∀ s, equal s s = true) ∧ (∀ s t, equal s t = equal t s) ∧
    (∀ s t u, equal s t = true → equal t u = true → equal s u = true) := by
  obtain ⟨h1, h2, h3⟩ := Strings.strings_equal_equivalence
  refine ⟨?_, ?_, ?_⟩
  · intro s; cases s <;> simp [equal, h1]
  · intro s t
    cases s <;> cases t <;> simp only [equal]
    rename_i a b
    rw [h2 a.iterators, h2 a.expression]
  · intro s t u
    rw [body_equal_iff, body_equal_iff, body_equal_iff]
    rintro (⟨rfl, rfl⟩ | ⟨x, y, rfl, rfl, a, b⟩) (⟨_, rfl⟩ | ⟨x', y', e, rfl, a', b'⟩)
    · exact .inl ⟨rfl, rfl⟩
    · cases e
    · rename_i h; cases h
    · injection e with e; subst e
      exact .inr ⟨x, y', rfl, rfl, h3 _ _ _ a a', h3 _ _ _ b b'⟩

/-- A clone is equal to the body. -/
theorem body_clone_equal (b : Option Body) : equal b (clone b) = true := by
  rw [body_equal_iff]
  cases b with
  | none => exact .inl ⟨rfl, rfl⟩
  | some b => exact .inr ⟨b, _, rfl, rfl, Strings.strings_clone_equal _, Strings.strings_clone_equal _⟩

/-- A body whose text can be read back: the iterators are words, the expression is one line without `#`, starting by
a visible character. -/
structure Textable (b : Body) (its : List Str) (e : Str) : Prop where
  iters : ∃ s, b.iterators = some s ∧ s.words = its
  expr : ∃ s, b.expression = some s ∧ s.words = [e]
  words : ∀ w ∈ its, Strings.Word w
  nb : (its.length : Int) < 2 ^ 31
  line : ∀ c ∈ e, Util.lineChar c = true
  starts : Util.Starts e
  nonempty : e ≠ []
  short : e.length < MAX_STRING

/-- The text of a body (specification). -/
def text (its : List Str) (e : Str) : Str :=
  "# Number of original iterators\n".toList ++ showNat its.length ++ "\n".toList ++
  (if its = [] then [] else "# List of original iterators\n".toList ++ Strings.line its ++ "\n".toList) ++
  "# Statement body expression\n".toList ++ e ++ "\n".toList

theorem sprint_text {b : Body} {its : List Str} {e : Str} (h : Textable b its e) : sprint (some b) = .ok (text its e) := by
  obtain ⟨si, h1, h2⟩ := h.iters
  obtain ⟨se, h3, h4⟩ := h.expr
  have he : Strings.sprint (some se) = .ok (e ++ ['\n']) := by
    rw [Strings.sprint_eq (by rw [h4]; simpa using h.short), h4]; rfl
  have hi : iterPieces (some si) = .ok (if its = [] then [] else ["# List of original iterators\n".toList, Strings.line its ++ ['\n']]) := by
    unfold iterPieces
    rw [Strings.size_eq, h2]
    by_cases hn : its = []
    · simp [hn]
    · have : 0 < its.length := List.length_pos_iff.mpr hn
      rw [if_pos (by omega), if_neg hn, Strings.sprint_eq (by rw [h2]; exact fun w hw => (h.words w hw).2.1), h2]
      rfl
  simp only [sprint, h1, h3, hi, he, Out.ok_bind, Util.emit_eq, Strings.size_eq, h2]
  unfold text
  by_cases hn : its = []
  · simp [hn]
  · simp [hn]

theorem showNat_eq_showInt (n : Nat) : showNat n = showInt n := by
  unfold showInt
  rw [if_neg (by omega)]; simp

/-- Reading the text of a body, after anything that is skipped. -/
theorem sread_text_exact {its : List Str} {e : Str} (words : ∀ w ∈ its, Strings.Word w) (nb : (its.length : Int) < 2 ^ 31)
    (hline : ∀ c ∈ e, Util.lineChar c = true) (hstarts : Util.Starts e) (hne : e ≠ []) (hshort : e.length < MAX_STRING)
    {pre : Str} (hpre : ∀ s, Util.sskip (pre ++ s) = Util.sskip s) (rest : Str) :
    sread (pre ++ (text its e ++ rest)) = .ok (some { iterators := some { string := some its }, expression := some (Strings.encapsulate e) }, "\n".toList ++ rest) := by
  have hE : ∀ r, Util.read_line ("# Statement body expression\n".toList ++ (e ++ ("\n".toList ++ r))) = .ok (e, "\n".toList ++ r) := by
    intro r
    rw [Util.read_line_skip]
    have h1 := Util.sskip_comment (l := " Statement body expression".toList) (by decide) (e ++ ("\n".toList ++ r))
    have h2 : Util.Starts (e ++ ("\n".toList ++ r)) := by
      cases e with
      | nil => exact absurd rfl hne
      | cons a e => intro c hc; exact hstarts c hc
    rw [show "# Statement body expression\n".toList ++ (e ++ ("\n".toList ++ r)) =
      '#' :: " Statement body expression".toList ++ '\n' :: (e ++ ("\n".toList ++ r)) from rfl, h1, Util.sskip_starts h2]
    exact Util.read_line_line h2 hline hshort (by intro c hc; simp at hc; subst hc; decide)
  have hN : ∀ r, Util.read_int (pre ++ ("# Number of original iterators\n".toList ++ (showNat its.length ++ ("\n".toList ++ r)))) =
      .ok ((its.length : Int), "\n".toList ++ r) := by
    intro r
    have hfits : fits 32 (its.length : Int) := by unfold fits cMin cMax; simp at *; omega
    have h1 := Util.sskip_comment (l := " Number of original iterators".toList) (by decide) (showNat its.length ++ ("\n".toList ++ r))
    rw [Util.read_int_skip, hpre, show "# Number of original iterators\n".toList ++ (showNat its.length ++ ("\n".toList ++ r)) =
      '#' :: " Number of original iterators".toList ++ '\n' :: (showNat its.length ++ ("\n".toList ++ r)) from rfl, h1, ← Util.read_int_skip,
      showNat_eq_showInt]
    exact Util.read_int_show hfits _ (by intro c hc; simp at hc; subst hc; decide)
  unfold sread text
  simp only [List.append_assoc]
  rw [hN]
  simp only [Out.ok_bind]
  by_cases hn : its = []
  · subst hn
    simp only [readIters, List.length_nil, Int.ofNat_zero, Int.lt_irrefl, if_false, if_true, Out.ok_bind, List.nil_append, gt_iff_lt,
      Int.natCast_zero]
    rw [Util.read_line_skip, show "\n".toList ++ ("# Statement body expression\n".toList ++ (e ++ ("\n".toList ++ rest))) =
      '\n' :: ("# Statement body expression\n".toList ++ (e ++ ("\n".toList ++ rest))) from rfl, Util.sskip_newline, ← Util.read_line_skip, hE]
    rfl
  · have hpos : 0 < its.length := List.length_pos_iff.mpr hn
    have hI : ∀ r, Strings.sread ("\n".toList ++ ("# List of original iterators\n".toList ++ (Strings.line its ++ ("\n".toList ++ r)))) =
        .ok (some { string := some its }, some r) := by
      intro r
      have h0 := Strings.sread_line hn words r
      have h1 := Util.sskip_comment (l := " List of original iterators".toList) (by decide) (Strings.line its ++ ("\n".toList ++ r))
      have h2 : Util.sskip ("\n".toList ++ ("# List of original iterators\n".toList ++ (Strings.line its ++ ("\n".toList ++ r)))) =
          Util.sskip (Strings.line its ++ ("\n".toList ++ r)) := by
        rw [show "\n".toList ++ ("# List of original iterators\n".toList ++ (Strings.line its ++ ("\n".toList ++ r))) =
          '\n' :: ('#' :: " List of original iterators".toList ++ '\n' :: (Strings.line its ++ ("\n".toList ++ r))) from rfl,
          Util.sskip_newline, h1]
      unfold Strings.sread at h0 ⊢
      simp only at h0 ⊢
      rw [h2]
      exact h0
    simp only [if_neg hn, readIters, gt_iff_lt, List.append_assoc]
    rw [if_pos (by omega), hI]
    simp only [Out.ok_bind]
    rw [hE]
    rfl

theorem sread_text {its : List Str} {e : Str} (words : ∀ w ∈ its, Strings.Word w) (nb : (its.length : Int) < 2 ^ 31)
    (hline : ∀ c ∈ e, Util.lineChar c = true) (hstarts : Util.Starts e) (hne : e ≠ []) (hshort : e.length < MAX_STRING)
    {pre : Str} (hpre : ∀ s, Util.sskip (pre ++ s) = Util.sskip s) (rest : Str) :
    ∃ si, sread (pre ++ (text its e ++ rest)) = .ok (some { iterators := some si, expression := some (Strings.encapsulate e) }, "\n".toList ++ rest) ∧
      si.words = its := ⟨_, sread_text_exact words nb hline hstarts hne hshort hpre rest, rfl⟩

/-- C45 for bodies: reading the printed text of a body gives an equal body. -/
theorem body_text_round_trip {b : Body} {its : List Str} {e : Str} (h : Textable b its e) :
    ∃ t b' rest, sprint (some b) = .ok t ∧ sread t = .ok (some b', rest) ∧ sread ('\n' :: t) = .ok (some b', rest) ∧
      equal (some b) (some b') = true := by
  obtain ⟨si, h1, h2⟩ := h.iters
  obtain ⟨se, h3, h4⟩ := h.expr
  obtain ⟨s1, a1, a2⟩ := sread_text h.words h.nb h.line h.starts h.nonempty h.short (pre := []) (by simp) []
  obtain ⟨s2, b1, b2⟩ := sread_text h.words h.nb h.line h.starts h.nonempty h.short (pre := ['\n']) (by intro s; exact Util.sskip_newline s) []
  simp only [List.append_nil, List.nil_append, List.singleton_append] at a1 b1
  have e12 : s1 = s2 := by
    -- the text after the newline is read in the same way
    have : sread ('\n' :: text its e) = sread (text its e) := by
      unfold sread
      rw [Util.read_int_skip, Util.sskip_newline, ← Util.read_int_skip]
    rw [this, a1] at b1
    simp at b1
    exact b1
  subst e12
  refine ⟨text its e, _, _, sprint_text h, a1, b1, ?_⟩
  rw [body_equal_iff]
  refine .inr ⟨b, _, rfl, rfl, ?_, ?_⟩
  · rw [Strings.strings_equal_iff]; exact .inr ⟨si, s1, h1, rfl, h2.trans a2.symm⟩
  · rw [Strings.strings_equal_iff]; exact .inr ⟨se, _, h3, rfl, h4⟩

set_option maxRecDepth 8000 in
/-- The hypotheses are met. -/
example : Textable { iterators := some { string := some ["i".toList, "j".toList] }, expression := some { string := some ["A[i] = B[j] + 1;".toList] } }
    ["i".toList, "j".toList] "A[i] = B[j] + 1;".toList where
  iters := ⟨_, rfl, rfl⟩
  expr := ⟨_, rfl, rfl⟩
  words := by
    intro w hw
    simp only [List.mem_cons, List.not_mem_nil, or_false] at hw
    rcases hw with rfl | rfl <;> exact ⟨by decide, by decide, by decide⟩
  nb := by decide
  line := by decide
  starts := by intro c hc; simp at hc; subst hc; decide
  nonempty := by decide
  short := by decide

set_option maxRecDepth 8000 in
/-- Finding (C45): an expression of several strings is read back as one string, which is not equal. -/
theorem body_text_several_violates :
    let b : Body := { iterators := some Strings.malloc, expression := some { string := some ["A[i]".toList, "=0;".toList] } }
    ∃ t b' r, sprint (some b) = .ok t ∧ sread t = .ok (some b', r) ∧ equal (some b) (some b') = false := by
  refine ⟨"# Number of original iterators\n0\n# Statement body expression\nA[i] =0;\n".toList,
    { iterators := some Strings.malloc, expression := some { string := some ["A[i] =0;".toList] } }, "\n".toList, ?_, ?_, ?_⟩ <;> decide

set_option maxRecDepth 8000 in
/-- Finding (C45): what follows a `#` in the expression is lost. -/
theorem body_text_hash_violates :
    sread "0\nA[i] = f(\"#\");\n".toList = .ok (some { iterators := some Strings.malloc, expression := some { string := some ["A[i] = f(\"".toList] } }, "#\");\n".toList) := by decide

/-- Finding (C45): the text of a NULL body cannot be read. -/
theorem body_text_null_violates : ∃ t, sprint none = .ok t ∧ sread t = .err := ⟨"# NULL body\n".toList, by decide, by decide⟩

end Body
end Osl
