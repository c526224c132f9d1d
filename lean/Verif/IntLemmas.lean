import Verif.Int
/-! Helper lemmas about the integer model. -/

namespace Osl

theorem kind_fixed {c : Cfg} (hv : c.Valid) {p : Int} {w : Nat}
    (h : kind c p = some (.fixed w)) : w = 32 ∨ w = 64 := by
  unfold kind at h
  split at h
  · rcases hv with hv | hv <;> simp at h <;> omega
  · split at h
    · simp at h; omega
    · split at h <;> simp at h

theorem kind_mp {c : Cfg} {p : Int} (h : kind c p = some .mp) : p = PREC_MP ∧ c.gmp := by
  unfold kind at h
  split at h
  · simp at h
  · split at h
    · simp at h
    · split at h
      · assumption
      · simp at h

theorem kind_not_mp {c : Cfg} {p : Int} {w : Nat} (h : kind c p = some (.fixed w)) :
    ¬ (p = PREC_MP ∧ c.gmp) := by
  rintro ⟨rfl, hg⟩
  simp [kind, PREC_MP, PREC_SP, PREC_DP, hg] at h

theorem supported_iff (c : Cfg) (p : Int) :
    is_precision_supported c p = true ↔ (kind c p).isSome := by
  unfold is_precision_supported kind
  split
  · simp
  · split
    · simp
    · split <;> simp

theorem InPrec.kind_ne_none {c : Cfg} {p x : Int} (h : InPrec c p x) : kind c p ≠ none := by
  intro h'; simp [InPrec, h'] at h

theorem cMin_32 : cMin 32 = -2147483648 := by decide
theorem cMax_32 : cMax 32 = 2147483647 := by decide
theorem cMin_64 : cMin 64 = -9223372036854775808 := by decide
theorem cMax_64 : cMax 64 = 9223372036854775807 := by decide

theorem wrap_eq {w : Nat} (x : Int) : ∃ k : Int, wrap w x = x + k * 2 ^ w := by
  refine ⟨-((x + 2 ^ (w - 1)) / 2 ^ w), ?_⟩
  unfold wrap
  have := Int.emod_def (x + 2 ^ (w - 1)) (2 ^ w)
  rw [this, Int.neg_mul, Int.mul_comm ((x + 2 ^ (w - 1)) / 2 ^ w)]
  omega

theorem wrap_fits {w : Nat} (hw : w = 32 ∨ w = 64) (x : Int) : fits w (wrap w x) := by
  rcases hw with rfl | rfl
  · simp only [fits, wrap, cMin, cMax]; omega
  · simp only [fits, wrap, cMin, cMax]; omega

theorem wrap_of_fits {w : Nat} (hw : w = 32 ∨ w = 64) {x : Int} (h : fits w x) :
    wrap w x = x := by
  rcases hw with rfl | rfl
  · simp only [fits, wrap, cMin, cMax] at *; omega
  · simp only [fits, wrap, cMin, cMax] at *; omega

theorem sarith_of_fits {c : Cfg} {w : Nat} {x : Int} (h : fits w x) : sarith c w x = .ok x := by
  simp [sarith, h]

theorem sarith_not_fits_iso {c : Cfg} (hc : c.wrapv = false) {w : Nat} {x : Int}
    (h : ¬ fits w x) : sarith c w x = .ub := by
  simp [sarith, h, hc]

theorem sarith_not_fits_wrapv {c : Cfg} (hc : c.wrapv = true) {w : Nat} {x : Int}
    (h : ¬ fits w x) : sarith c w x = .ok (wrap w x) := by
  simp [sarith, h, hc]

theorem sarith_wrapv {c : Cfg} (hc : c.wrapv = true) {w : Nat} (hw : w = 32 ∨ w = 64) (x : Int) :
    sarith c w x = .ok (wrap w x) := by
  unfold sarith
  split
  · rename_i h; rw [wrap_of_fits hw h]
  · simp [hc]

theorem sarith_ok_iso {c : Cfg} (hc : c.wrapv = false) {w : Nat} {x r : Int}
    (h : sarith c w x = .ok r) : r = x ∧ fits w x := by
  unfold sarith at h
  split at h
  · rename_i hf; injection h with h; exact ⟨h.symm, hf⟩
  · simp [hc] at h

/-- The truncated quotient characterised by its remainder. -/
theorem tdiv_spec (a b : Int) (hb : b ≠ 0) :
    ∃ r, a = b * a.tdiv b + r ∧ a.tmod b = r ∧ r.natAbs < b.natAbs ∧ (0 ≤ a → 0 ≤ r) ∧ (a ≤ 0 → r ≤ 0) := by
  refine ⟨a.tmod b, ?_, rfl, ?_, ?_, ?_⟩
  · have := Int.mul_tdiv_add_tmod a b; omega
  · rw [Int.natAbs_tmod]; exact Nat.mod_lt _ (by omega)
  · intro h; exact Int.tmod_nonneg b h
  · intro h
    have h1 := Int.tmod_nonneg b (a := -a) (by omega)
    rw [Int.neg_tmod] at h1; omega

theorem tdiv_natAbs (a b : Int) : (a.tdiv b).natAbs = a.natAbs / b.natAbs := Int.natAbs_tdiv a b

/-- `a / b` in C overflows only for `MIN / -1`. -/
theorem fits_tdiv {w : Nat} (hw : w = 32 ∨ w = 64) {a b : Int} (ha : fits w a) (hb : b ≠ 0)
    (h : ¬ (a = cMin w ∧ b = -1)) : fits w (a.tdiv b) := by
  have hle : (a.tdiv b).natAbs ≤ a.natAbs := by
    rw [tdiv_natAbs]; exact Nat.div_le_self _ _
  by_cases hb1 : b = -1
  · subst hb1
    have : a.tdiv (-1) = -a := by rw [Int.tdiv_neg, Int.tdiv_one]
    rw [this]
    have hne : a ≠ cMin w := fun e => h ⟨e, rfl⟩
    rcases hw with rfl | rfl <;> simp only [fits, cMin, cMax] at ha hne ⊢ <;> omega
  · by_cases hmin : a = cMin w
    · by_cases hb2 : b = 1
      · subst hb2; rw [Int.tdiv_one]; exact ha
      · have hb3 : 2 ≤ b.natAbs := by omega
        have : (a.tdiv b).natAbs ≤ a.natAbs / 2 := by
          rw [tdiv_natAbs]; exact Nat.div_le_div_left hb3 (by omega)
        rcases hw with rfl | rfl <;> simp only [fits, cMin, cMax] at ha hmin ⊢ <;> omega
    · rcases hw with rfl | rfl <;> simp only [fits, cMin, cMax] at ha hmin ⊢ <;> omega

theorem not_fits_min_div {w : Nat} (hw : w = 32 ∨ w = 64) : ¬ fits w ((cMin w).tdiv (-1)) := by
  rcases hw with rfl | rfl <;> decide

theorem sdiv_ok {w : Nat} (hw : w = 32 ∨ w = 64) {a b : Int} (ha : fits w a) (hb : b ≠ 0)
    (h : ¬ (a = cMin w ∧ b = -1)) : sdiv w a b = .ok (a.tdiv b) := by
  simp [sdiv, hb, fits_tdiv hw ha hb h]

theorem smod_ok {w : Nat} (hw : w = 32 ∨ w = 64) {a b : Int} (ha : fits w a) (hb : b ≠ 0)
    (h : ¬ (a = cMin w ∧ b = -1)) : smod w a b = .ok (a.tmod b) := by
  simp [smod, hb, fits_tdiv hw ha hb h]

theorem sdiv_min {w : Nat} (hw : w = 32 ∨ w = 64) : sdiv w (cMin w) (-1) = .ub := by
  unfold sdiv; rw [if_neg (by decide), if_neg (not_fits_min_div hw)]

theorem smod_min {w : Nat} (hw : w = 32 ∨ w = 64) : smod w (cMin w) (-1) = .ub := by
  unfold smod; rw [if_neg (by decide), if_neg (not_fits_min_div hw)]

/-- Wrapped product: the division test of `osl_int_mul` detects the overflow. -/
theorem wrap_mul_div {w : Nat} (hw : w = 32 ∨ w = 64) {a b : Int} (hb : fits w b) (hb0 : b ≠ 0)
    (h : ¬ fits w (a * b)) : (wrap w (a * b)).tdiv b ≠ a := by
  intro heq
  obtain ⟨k, hk⟩ := wrap_eq (w := w) (a * b)
  obtain ⟨r, h1, _, h3, _, _⟩ := tdiv_spec (wrap w (a * b)) b hb0
  rw [heq] at h1
  have hk0 : k ≠ 0 := by
    rintro rfl
    apply h
    have := wrap_fits hw (a * b)
    rw [hk] at this; simpa using this
  have hr : r = k * 2 ^ w := by
    rw [hk, Int.mul_comm b a] at h1; omega
  rcases hw with rfl | rfl <;> simp only [fits, cMin, cMax] at hb <;> omega

theorem fdiv_eq_tdiv_cases (a b : Int) (hb : b ≠ 0) :
    a.fdiv b = if a.tmod b ≠ 0 ∧ ((a < 0 ∧ 0 < b) ∨ (0 < a ∧ b < 0)) then a.tdiv b - 1 else a.tdiv b := by
  have hf := Int.mul_fdiv_add_fmod a b
  obtain ⟨r, h1, h2, h3, h4, h5⟩ := tdiv_spec a b hb
  rw [h2]
  have hfm : (0 < b → 0 ≤ a.fmod b ∧ a.fmod b < b) ∧ (b < 0 → b < a.fmod b ∧ a.fmod b ≤ 0) := by
    constructor
    · intro h; exact ⟨Int.fmod_nonneg_of_pos a h, Int.fmod_lt_of_pos a h⟩
    · intro h
      have e : a.fmod b = - ((-a).fmod (-b)) := by rw [Int.neg_fmod_neg]; omega
      have p1 := Int.fmod_nonneg_of_pos (-a) (b := -b) (by omega)
      have p2 := Int.fmod_lt_of_pos (-a) (b := -b) (by omega)
      omega
  have key : b * (a.fdiv b - a.tdiv b) = r - a.fmod b := by
    rw [Int.mul_sub]; omega
  generalize hd : a.fdiv b - a.tdiv b = d at key
  have hgoal : ∀ e : Int, d = e → a.fdiv b = a.tdiv b + e := by omega
  -- d ∈ {-1, 0}
  rcases Int.lt_or_gt_of_ne hb with hbn | hbp
  · obtain ⟨f1, f2⟩ := hfm.2 hbn
    -- write b = -b'
    obtain ⟨b', rfl⟩ : ∃ b', b = -b' := ⟨-b, by omega⟩
    have key' : b' * d = a.fmod (-b') - r := by rw [Int.neg_mul] at key; omega
    have dlt : d < 1 := by
      apply Int.not_le.mp
      intro hge
      have : b' * 1 ≤ b' * d := Int.mul_le_mul_of_nonneg_left (by omega) (by omega)
      omega
    have dgt : -2 < d := by
      apply Int.not_le.mp
      intro hge
      have : b' * d ≤ b' * (-2) := Int.mul_le_mul_of_nonneg_left (by omega) (by omega)
      omega
    have dcase : d = 0 ∨ d = -1 := by omega
    split
    · rcases dcase with rfl | rfl
      · exfalso; omega
      · omega
    · rcases dcase with rfl | rfl
      · omega
      · exfalso; omega
  · obtain ⟨f1, f2⟩ := hfm.1 hbp
    have dlt : d < 1 := by
      apply Int.not_le.mp
      intro hge
      have : b * 1 ≤ b * d := Int.mul_le_mul_of_nonneg_left (by omega) (by omega)
      omega
    have dgt : -2 < d := by
      apply Int.not_le.mp
      intro hge
      have : b * d ≤ b * (-2) := Int.mul_le_mul_of_nonneg_left (by omega) (by omega)
      omega
    have dcase : d = 0 ∨ d = -1 := by omega
    split
    · rcases dcase with rfl | rfl
      · exfalso; omega
      · omega
    · rcases dcase with rfl | rfl
      · omega
      · exfalso; omega

end Osl
