import Verif.UtilProps
/-!
# Lemmas on the reading primitives of source/util.c, used by the text round trips
-/

namespace Osl
namespace Util

/-- A text starts with a character where `osl_util_sskip_blank_and_comments` stops. -/
def Starts (s : Str) : Prop := ∀ c, s.head? = some c → isSpace c = false ∧ c ≠ '#'

theorem sskip_starts {s : Str} (h : Starts s) : sskip s = s := by
  cases s with
  | nil => rfl
  | cons c s =>
    obtain ⟨h1, h2⟩ := h c rfl
    simp [sskip, skip, h1, h2]

theorem sskip_space {c : Char} (h : isSpace c = true) (s : Str) : sskip (c :: s) = sskip s := by
  simp [sskip, skip, h]

theorem sskip_spaces {sp : Str} (h : ∀ c ∈ sp, isSpace c = true) (s : Str) : sskip (sp ++ s) = sskip s := by
  induction sp with
  | nil => rfl
  | cons c sp ih =>
    rw [List.cons_append, sskip_space (h c (by simp)), ih (fun d hd => h d (by simp [hd]))]

theorem sskip_newline (s : Str) : sskip ('\n' :: s) = sskip s := sskip_space (by decide) s

theorem skip_comment {l : Str} (h : ∀ c ∈ l, c ≠ '\n') (s : Str) : skip true (l ++ '\n' :: s) = sskip s := by
  induction l with
  | nil => simp [skip, sskip]
  | cons c l ih =>
    simp [skip, h c (by simp)]
    exact ih (fun d hd => h d (by simp [hd]))

theorem skip_comment_end {l : Str} (h : ∀ c ∈ l, c ≠ '\n') : skip true l = [] := by
  induction l with
  | nil => rfl
  | cons c l ih =>
    simp [skip, h c (by simp)]
    exact ih (fun d hd => h d (by simp [hd]))

/-- A comment line is skipped. -/
theorem sskip_comment {l : Str} (h : ∀ c ∈ l, c ≠ '\n') (s : Str) : sskip ('#' :: l ++ '\n' :: s) = sskip s := by
  have : sskip ('#' :: l ++ '\n' :: s) = skip true (l ++ '\n' :: s) := by
    simp [sskip, skip, isSpace]
  rw [this, skip_comment h]

theorem sskip_idem (s : Str) : sskip (sskip s) = sskip s := by
  suffices H : ∀ b, sskip (skip b s) = skip b s from H false
  induction s with
  | nil => intro b; cases b <;> rfl
  | cons c s ih =>
    intro b
    cases b with
    | false =>
      simp only [skip]
      split
      · exact ih _
      · split
        · exact ih _
        · rename_i h1 h2; simp [sskip, skip, h1, h2]
    | true =>
      simp only [skip]
      split <;> exact ih _

/-- After skipping, the text starts with something useful or is empty. -/
theorem sskip_Starts (s : Str) : Starts (sskip s) := by
  suffices H : ∀ b, Starts (skip b s) from H false
  induction s with
  | nil => intro b; cases b <;> (intro c hc; simp [skip] at hc)
  | cons c s ih =>
    intro b
    cases b with
    | false =>
      simp only [skip]
      split
      · exact ih _
      · split
        · exact ih _
        · rename_i h1 h2
          intro d hd
          simp at hd; subst hd
          exact ⟨by simpa using h1, h2⟩
    | true =>
      simp only [skip]
      split <;> exact ih _

theorem isDigit_ne_hash {c : Char} (h : isDigit c = true) : c ≠ '#' := isDigit_ne h (by decide)

theorem showInt_chars (v : Int) : ∀ c ∈ showInt v, c = '-' ∨ isDigit c = true := by
  intro c hc
  unfold showInt at hc
  split at hc
  · rcases List.mem_cons.mp hc with rfl | hc
    · exact .inl rfl
    · exact .inr (showNat_digits _ c hc)
  · exact .inr (showNat_digits _ c hc)

theorem showInt_wordChar (v : Int) : ∀ c ∈ showInt v, wordChar c = true := by
  intro c hc
  rcases showInt_chars v c hc with rfl | h
  · decide
  · have h1 := isDigit_not_space h
    have h2 : c ≠ '\n' := isDigit_ne h (by decide)
    have h3 := isDigit_ne_hash h
    simp [wordChar, h1, h2, h3]

theorem showNat_length_le (n : Nat) : ∀ k, n < 10 ^ (k + 1) → (showNat n).length ≤ k + 1 := by
  intro k
  induction k generalizing n with
  | zero => intro h; rw [showNat_eq, if_pos (by simpa using h)]; simp
  | succ k ih =>
    intro h
    rw [showNat_eq]
    split
    · simp
    · have := ih (n / 10) (by rw [Nat.div_lt_iff_lt_mul (by decide)]; rw [Nat.pow_succ] at h; omega)
      simp; omega

/-- A C `int` is printed with at most eleven characters. -/
theorem showInt_length {v : Int} (h : fits 32 v) : (showInt v).length ≤ 11 := by
  have : v.natAbs < 10 ^ (9 + 1) := by
    unfold fits cMin cMax at h; simp at h; omega
  have := showNat_length_le v.natAbs 9 this
  unfold showInt; split <;> simp <;> omega

theorem word_starts {w rest : Str} (hw : w ≠ []) (h : ∀ c ∈ w, wordChar c = true) : Starts (w ++ rest) := by
  cases w with
  | nil => exact absurd rfl hw
  | cons a w =>
    intro c hc
    simp at hc; subst hc
    have := h a (by simp)
    simp [wordChar] at this
    exact ⟨this.1.1, this.2⟩

/-- Reading back a printed C `int` which is followed by a blank, a comment or nothing. -/
theorem read_int_show {v : Int} (hv : fits 32 v) (rest : Str)
    (hr : ∀ c, rest.head? = some c → wordChar c = false) : read_int (showInt v ++ rest) = .ok (v, rest) := by
  unfold read_int
  simp only
  rw [sskip_starts (word_starts (showInt_ne_nil v) (showInt_wordChar v))]
  obtain ⟨h1, h2⟩ := takeWhile_append_stop (showInt_wordChar v) hr
  rw [h1, h2, if_neg (by have := showInt_length hv; simp [MAX_STRING]; omega)]
  have := scanInt_show v 0 [] (by simp)
  simp only [List.replicate_zero, List.nil_append, List.append_nil] at this
  rw [this]
  simp only
  rw [if_pos hv]

/-- The same after blanks and comments. -/
theorem read_int_skip (s : Str) : read_int s = read_int (sskip s) := by
  unfold read_int; simp only; rw [sskip_idem]

theorem read_string_skip (s : Str) : read_string s = read_string (sskip s) := by
  unfold read_string; simp only; rw [sskip_idem]

theorem read_line_skip (s : Str) : read_line s = read_line (sskip s) := by
  unfold read_line; simp only; rw [sskip_idem]

theorem wordChar_not_space {c : Char} (h : wordChar c = true) : isSpace c = false := by
  simp [wordChar] at h; exact h.1.1

/-- Reading back a word. -/
theorem read_string_word {w rest : Str} (hw : w ≠ []) (h : ∀ c ∈ w, wordChar c = true) (hl : w.length < MAX_STRING)
    (hr : ∀ c, rest.head? = some c → wordChar c = false) : read_string (w ++ rest) = .ok (w, rest) := by
  unfold read_string
  simp only
  rw [sskip_starts (word_starts hw h)]
  obtain ⟨h1, h2⟩ := takeWhile_append_stop h hr
  rw [h1, h2, if_neg (by omega)]
  have := scanToken_word 0 w [] hw (fun c hc => wordChar_not_space (h c hc)) (by simp)
  simp only [List.replicate_zero, List.nil_append, List.append_nil] at this
  rw [this]

/-- Reading back a line. -/
theorem read_line_line {l rest : Str} (hs : Starts (l ++ rest)) (h : ∀ c ∈ l, lineChar c = true) (hl : l.length < MAX_STRING)
    (hr : ∀ c, rest.head? = some c → lineChar c = false) : read_line (l ++ rest) = .ok (l, rest) := by
  unfold read_line
  simp only
  rw [sskip_starts hs]
  obtain ⟨h1, h2⟩ := takeWhile_append_stop h hr
  rw [h1, h2, if_neg (by omega)]

end Util
end Osl
