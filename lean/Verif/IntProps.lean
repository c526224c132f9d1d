import Verif.IntLemmas
/-!
# Properties C01-C09 of the integer layer (source/int.c)

Conventions: `c` is the build configuration, `p` the precision argument, `a`, `b`, `v` the
mathematical values of the `osl_int_t` operands, `InPrec c p x` says that `x` can be stored in
precision `p`.  `c.ndebug = false` is a debug build (checks compiled in).
-/

namespace Osl
namespace OInt

/-- Specification of "exact or reported": the mathematically exact result `x` is stored when
it is representable, and the program stops with an error message otherwise. -/
def ExactOrError (c : Cfg) (p : Int) (x : Int) (o : Out Int) : Prop :=
  (InPrec c p x ∧ o = .ok x) ∨ (¬ InPrec c p x ∧ o = .err)

/-- `x` is the least value of the fixed-width type selected by precision `p`. -/
def IsMin (c : Cfg) (p : Int) (x : Int) : Prop :=
  ∃ w, kind c p = some (.fixed w) ∧ x = cMin w

/-! ## C01: addition -/

/-- C01 (partial: the operand pair (negative, most negative value) is excluded, see
`int_add_min_violates`). -/
theorem int_add_exact_or_error_partial {c : Cfg} (hv : c.Valid) (hd : c.ndebug = false)
    {p a b : Int} (ha : InPrec c p a) (hb : InPrec c p b) (hmin : ¬ (a < 0 ∧ IsMin c p b)) :
    ExactOrError c p (a + b) (add c p a b) := by
  unfold ExactOrError add
  cases hk : kind c p with
  | none => exact absurd hk ha.kind_ne_none
  | some k =>
    cases k with
    | mp => simp [InPrec, hk]
    | fixed w =>
      have hw := kind_fixed hv hk
      simp only [InPrec, hk] at ha hb ⊢
      have hmin' : ¬ (a < 0 ∧ b = cMin w) := fun h => hmin ⟨h.1, w, hk, h.2⟩
      rw [if_pos hd]
      by_cases hs : fits w (a + b)
      · left
        refine ⟨hs, ?_⟩
        split
        · rename_i h
          rw [sarith_of_fits (x := cMax w - a) (by
            rcases hw with rfl | rfl <;> simp only [fits, cMin, cMax] at ha hb ⊢ <;> omega)]
          simp only [Out.ok_bind]
          rw [if_neg (by simp only [fits] at hs; omega), sarith_of_fits hs]
        · split
          · rename_i h
            rw [sarith_of_fits (x := a - cMin w) (by
              rcases hw with rfl | rfl <;> simp only [fits, cMin, cMax] at ha hb ⊢ <;> omega)]
            simp only [Out.ok_bind]
            rw [sarith_of_fits (x := -b) (by
              rcases hw with rfl | rfl <;> simp only [fits, cMin, cMax] at ha hb hmin' ⊢ <;> omega)]
            simp only [Out.ok_bind]
            rw [if_neg (by simp only [fits] at hs; omega), sarith_of_fits hs]
          · rw [sarith_of_fits hs]
      · right
        refine ⟨hs, ?_⟩
        split
        · rename_i h
          rw [sarith_of_fits (x := cMax w - a) (by
            rcases hw with rfl | rfl <;> simp only [fits, cMin, cMax] at ha hb ⊢ <;> omega)]
          simp only [Out.ok_bind]
          rw [if_pos]
          rcases hw with rfl | rfl <;> simp only [fits, cMin, cMax] at ha hb hs ⊢ <;> omega
        · split
          · rename_i h
            rw [sarith_of_fits (x := a - cMin w) (by
              rcases hw with rfl | rfl <;> simp only [fits, cMin, cMax] at ha hb ⊢ <;> omega)]
            simp only [Out.ok_bind]
            rw [sarith_of_fits (x := -b) (by
              rcases hw with rfl | rfl <;> simp only [fits, cMin, cMax] at ha hb hmin' ⊢ <;> omega)]
            simp only [Out.ok_bind]
            rw [if_pos]
            rcases hw with rfl | rfl <;> simp only [fits, cMin, cMax] at ha hb hs ⊢ <;> omega
          · exfalso
            rcases hw with rfl | rfl <;> simp only [fits, cMin, cMax] at ha hb hs <;> omega

/-- Non-vacuity: two non-trivial operands at the boundary meet the hypotheses. -/
example : Cfg.std.Valid ∧ InPrec Cfg.std PREC_DP 9223372036854775807 ∧ InPrec Cfg.std PREC_DP 1 ∧
    ¬ ((9223372036854775807 : Int) < 0 ∧ IsMin Cfg.std PREC_DP 1) ∧
    add Cfg.std PREC_DP 9223372036854775807 1 = .err ∧
    add Cfg.std PREC_DP 9223372036854775806 1 = .ok 9223372036854775807 := by
  refine ⟨by decide, by decide, by decide, ?_, by decide, by decide⟩
  rintro ⟨h, _⟩; omega

/-- C01, the excluded case: adding the most negative value to a negative number overflows, but
the check itself negates that value.  In ISO C this is undefined; with wrapping arithmetic the
check passes and a positive wrong sum is stored. -/
theorem int_add_min_violates :
    add Cfg.std PREC_DP (-1) (cMin 64) = .ub ∧
    add { Cfg.std with wrapv := true } PREC_DP (-1) (cMin 64) = .ok (cMax 64) := by
  decide

/-- C01, whole domain: with ISO C arithmetic a stored sum is never wrong, in any build. -/
theorem int_add_never_wrong {c : Cfg} (hc : c.wrapv = false) {p a b r : Int}
    (h : add c p a b = .ok r) : r = a + b ∧ InPrec c p r := by
  unfold add at h
  cases hk : kind c p with
  | none => simp [hk] at h
  | some k =>
    cases k with
    | mp => simp [hk] at h; simp [InPrec, hk, h]
    | fixed w =>
      have hs : sarith c w (a + b) = .ok r := by
        simp only [hk] at h
        split at h
        · split at h
          · obtain ⟨d, _, h⟩ := Out.bind_eq_ok.mp h
            split at h
            · cases h
            · exact h
          · split at h
            · obtain ⟨d, _, h⟩ := Out.bind_eq_ok.mp h
              obtain ⟨e, _, h⟩ := Out.bind_eq_ok.mp h
              split at h
              · cases h
              · exact h
            · exact h
        · exact h
      obtain ⟨rfl, hf⟩ := sarith_ok_iso hc hs
      exact ⟨rfl, by simpa [InPrec, hk] using hf⟩

example : add Cfg.std PREC_SP 20 22 = .ok 42 := by decide

/-- C01 for `osl_int_add_si` (partial: `i = INT_MIN` with a negative operand is excluded). -/
theorem int_add_si_exact_or_error_partial {c : Cfg} (hv : c.Valid) (hd : c.ndebug = false)
    {p a i : Int} (ha : InPrec c p a) (hi : fits 32 i) (hmin : ¬ (a < 0 ∧ i = cMin 32)) :
    ExactOrError c p (a + i) (add_si c p a i) := by
  unfold ExactOrError add_si
  cases hk : kind c p with
  | none => exact absurd hk ha.kind_ne_none
  | some k =>
    cases k with
    | mp => simp [InPrec, hk]
    | fixed w =>
      have hw := kind_fixed hv hk
      simp only [InPrec, hk] at ha ⊢
      rw [if_pos hd]
      by_cases hs : fits w (a + i)
      · left
        refine ⟨hs, ?_⟩
        split
        · rename_i h
          rw [sarith_of_fits (x := cMax w - a) (by
            rcases hw with rfl | rfl <;> simp only [fits, cMin, cMax] at ha ⊢ <;> omega)]
          simp only [Out.ok_bind]
          rw [if_neg (by simp only [fits] at hs; omega), sarith_of_fits hs]
        · split
          · rename_i h
            rw [sarith_of_fits (x := a - cMin w) (by
              rcases hw with rfl | rfl <;> simp only [fits, cMin, cMax] at ha ⊢ <;> omega)]
            simp only [Out.ok_bind]
            rw [sarith_of_fits (x := -i) (by simp only [fits, cMin, cMax] at hi hmin ⊢; omega)]
            simp only [Out.ok_bind]
            rw [if_neg (by simp only [fits] at hs; omega), sarith_of_fits hs]
          · rw [sarith_of_fits hs]
      · right
        refine ⟨hs, ?_⟩
        split
        · rename_i h
          rw [sarith_of_fits (x := cMax w - a) (by
            rcases hw with rfl | rfl <;> simp only [fits, cMin, cMax] at ha ⊢ <;> omega)]
          simp only [Out.ok_bind]
          rw [if_pos]
          rcases hw with rfl | rfl <;> simp only [fits, cMin, cMax] at ha hi hs ⊢ <;> omega
        · split
          · rename_i h
            rw [sarith_of_fits (x := a - cMin w) (by
              rcases hw with rfl | rfl <;> simp only [fits, cMin, cMax] at ha ⊢ <;> omega)]
            simp only [Out.ok_bind]
            rw [sarith_of_fits (x := -i) (by simp only [fits, cMin, cMax] at hi hmin ⊢; omega)]
            simp only [Out.ok_bind]
            rw [if_pos]
            rcases hw with rfl | rfl <;> simp only [fits, cMin, cMax] at ha hi hs ⊢ <;> omega
          · exfalso
            rcases hw with rfl | rfl <;> simp only [fits, cMin, cMax] at ha hi hs <;> omega

example : InPrec Cfg.std PREC_SP (cMin 64) ∧ fits 32 (-1) ∧ ¬ (cMin 64 < 0 ∧ (-1 : Int) = cMin 32) ∧
    add_si Cfg.std PREC_SP (cMin 64) (-1) = .err := by decide

/-- C01: `osl_int_add_si(-1, INT_MIN)` is representable but the check computes `-INT_MIN`. -/
theorem int_add_si_min_violates : add_si Cfg.std PREC_DP (-1) (cMin 32) = .ub := by decide

/-- C09: increment and decrement are exact or reported. -/
theorem int_increment_exact_or_error {c : Cfg} (hv : c.Valid) (hd : c.ndebug = false) {p a : Int}
    (ha : InPrec c p a) :
    ExactOrError c p (a + 1) (increment c p a) ∧ ExactOrError c p (a - 1) (decrement c p a) := by
  refine ⟨int_add_si_exact_or_error_partial hv hd ha (by decide) ?_,
    int_add_si_exact_or_error_partial hv hd ha (by decide) ?_⟩
  · rintro ⟨_, h⟩; exact absurd h (by decide)
  · rintro ⟨_, h⟩; exact absurd h (by decide)

example : increment Cfg.std PREC_SP (cMax 64) = .err ∧ decrement Cfg.std PREC_SP 5 = .ok 4 := by decide

/-! ## C02: subtraction -/

/-- C02 (partial: subtracting the most negative value is excluded). -/
theorem int_sub_exact_or_error_partial {c : Cfg} (hv : c.Valid) (hd : c.ndebug = false)
    {p a b : Int} (ha : InPrec c p a) (hb : InPrec c p b) (hmin : ¬ IsMin c p b) :
    ExactOrError c p (a - b) (sub c p a b) := by
  cases hk : kind c p with
  | none => exact absurd hk ha.kind_ne_none
  | some k =>
    cases k with
    | mp =>
      have hin : InPrec c p (a - b) := by simp [InPrec, hk]
      exact .inl ⟨hin, by unfold sub; rw [if_pos (kind_mp hk)]⟩
    | fixed w =>
      have hw := kind_fixed hv hk
      have hb' : fits w b := by simpa [InPrec, hk] using hb
      have hmin' : b ≠ cMin w := fun h => hmin ⟨w, hk, h⟩
      have hnb : fits w (-b) := by
        rcases hw with rfl | rfl <;> simp only [fits, cMin, cMax] at hb' hmin' ⊢ <;> omega
      have hop : oppose c p b = .ok (-b) := by simp [oppose, hk, sarith_of_fits hnb]
      have : sub c p a b = add c p a (-b) := by
        unfold sub
        rw [if_neg (kind_not_mp hk)]
        simp [init, hk, hop]
      rw [this, Int.sub_eq_add_neg]
      apply int_add_exact_or_error_partial hv hd ha
      · simpa [InPrec, hk] using hnb
      · rintro ⟨_, w', hk', he⟩
        rw [hk] at hk'; injection hk' with hk'; injection hk' with hk'; subst hk'
        rcases hw with rfl | rfl <;> simp only [fits, cMin, cMax] at hb' he <;> omega

example : InPrec Cfg.std PREC_DP (-5) ∧ InPrec Cfg.std PREC_DP (cMax 64) ∧ ¬ IsMin Cfg.std PREC_DP (cMax 64) ∧
    sub Cfg.std PREC_DP (-5) (cMax 64) = .err ∧ sub Cfg.std PREC_DP (-1) (cMax 64) = .ok (cMin 64) := by
  refine ⟨by decide, by decide, ?_, by decide, by decide⟩
  rintro ⟨w, h1, h2⟩
  have : w = 64 := by
    have : kind Cfg.std PREC_DP = some (.fixed 64) := by decide
    rw [this] at h1; injection h1 with h1; injection h1 with h1; exact h1.symm
  subst this; exact absurd h2 (by decide)

/-- C02, the excluded case: `-1 - LLONG_MIN` is representable (`LLONG_MAX`) but undefined here;
with wrapping arithmetic it stores a wrong value for `1 - LLONG_MIN` without any report. -/
theorem int_sub_min_violates :
    InPrec Cfg.std PREC_DP (-1 - cMin 64) ∧ sub Cfg.std PREC_DP (-1) (cMin 64) = .ub ∧
    sub { Cfg.std with wrapv := true } PREC_DP 1 (cMin 64) = .ok (cMin 64 + 1) := by
  decide

/-! ## C03: multiplication -/

/-- C03: a representable product is stored exactly, in every build. -/
theorem int_mul_exact {c : Cfg} (hv : c.Valid) {p a b : Int} (ha : InPrec c p a)
    (hb : InPrec c p b) (h : InPrec c p (a * b)) : mul c p a b = .ok (a * b) := by
  unfold mul
  cases hk : kind c p with
  | none => exact absurd hk ha.kind_ne_none
  | some k =>
    cases k with
    | mp => simp
    | fixed w =>
      have hw := kind_fixed hv hk
      simp only [InPrec, hk] at ha hb h
      simp only [sarith_of_fits h, Out.ok_bind]
      split
      · rename_i hc
        have hdiv : (a * b).tdiv b = a := Int.mul_tdiv_cancel a hc.2.2
        rw [sdiv_ok hw h hc.2.2]
        · simp [hdiv]
        · rintro ⟨h1, rfl⟩
          rcases hw with rfl | rfl <;> simp only [fits, cMin, cMax] at ha h1 <;> omega
      · rfl

/-- C03 (partial): with wrapping arithmetic and checks on, the product is exact or reported,
except for `MIN * -1` (see `int_mul_violates`). -/
theorem int_mul_exact_or_error_partial {c : Cfg} (hv : c.Valid) (hd : c.ndebug = false)
    (hwr : c.wrapv = true) {p a b : Int} (ha : InPrec c p a) (hb : InPrec c p b)
    (hmin : ¬ (IsMin c p a ∧ b = -1)) : ExactOrError c p (a * b) (mul c p a b) := by
  by_cases h : InPrec c p (a * b)
  · exact .inl ⟨h, int_mul_exact hv ha hb h⟩
  · refine .inr ⟨h, ?_⟩
    unfold mul
    cases hk : kind c p with
    | none => exact absurd hk ha.kind_ne_none
    | some k =>
      cases k with
      | mp => simp [InPrec, hk] at h
      | fixed w =>
        have hw := kind_fixed hv hk
        simp only [InPrec, hk] at ha hb h
        have h0 : fits w 0 := by rcases hw with rfl | rfl <;> decide
        have ha0 : a ≠ 0 := by rintro rfl; simp [h0] at h
        have hb0 : b ≠ 0 := by rintro rfl; simp [h0] at h
        simp only [sarith_not_fits_wrapv hwr h, Out.ok_bind]
        rw [if_pos ⟨hd, ha0, hb0⟩]
        have hne := wrap_mul_div hw hb hb0 h
        rw [sdiv_ok hw (wrap_fits hw _) hb0]
        · simp [hne]
        · rintro ⟨h1, rfl⟩
          have ha' : a = cMin w := by
            rcases hw with rfl | rfl <;> simp only [fits, cMin, cMax] at ha h ⊢ <;> omega
          exact hmin ⟨⟨w, hk, ha'⟩, rfl⟩

example : InPrec { Cfg.std with wrapv := true } PREC_DP (2 ^ 62) ∧
    mul { Cfg.std with wrapv := true } PREC_DP (2 ^ 62) 4 = .err ∧
    mul { Cfg.std with wrapv := true } PREC_DP (2 ^ 60) (-8) = .ok (cMin 64) := by decide

/-- C03 in ISO C: every overflowing product is undefined behaviour; the overflow report of
`osl_int_mul` is never reached. -/
theorem int_mul_overflow_is_ub {c : Cfg} (hwr : c.wrapv = false) {p a b : Int}
    (ha : InPrec c p a) (h : ¬ InPrec c p (a * b)) : mul c p a b = .ub := by
  unfold mul
  cases hk : kind c p with
  | none => exact absurd hk ha.kind_ne_none
  | some k =>
    cases k with
    | mp => simp [InPrec, hk] at h
    | fixed w =>
      simp only [InPrec, hk] at h
      simp [sarith_not_fits_iso hwr h]

/-- C03 violated: undefined behaviour in ISO C; trapping division for `MIN * -1` with wrapping
arithmetic; silently wrong value with wrapping arithmetic and `NDEBUG`. -/
theorem int_mul_violates :
    mul Cfg.std PREC_DP (2 ^ 62) 2 = .ub ∧
    mul { Cfg.std with wrapv := true } PREC_DP (cMin 64) (-1) = .ub ∧
    mul { Cfg.std with wrapv := true, ndebug := true } PREC_DP (2 ^ 62) 4 = .ok 0 := by
  decide

/-- C03: with ISO C arithmetic a stored product is never wrong. -/
theorem int_mul_never_wrong {c : Cfg} (hc : c.wrapv = false) {p a b r : Int}
    (h : mul c p a b = .ok r) : r = a * b ∧ InPrec c p r := by
  unfold mul at h
  cases hk : kind c p with
  | none => simp [hk] at h
  | some k =>
    cases k with
    | mp => simp [hk] at h; simp [InPrec, hk, h]
    | fixed w =>
      simp only [hk] at h
      obtain ⟨x, hx, h⟩ := Out.bind_eq_ok.mp h
      obtain ⟨rfl, hf⟩ := sarith_ok_iso hc hx
      have : r = a * b := by
        split at h
        · obtain ⟨q, _, h⟩ := Out.bind_eq_ok.mp h
          split at h
          · cases h
          · injection h with h; exact h.symm
        · injection h with h; exact h.symm
      exact ⟨this, by subst this; simpa [InPrec, hk] using hf⟩

/-- C03 for `osl_int_mul_si`: it computes what `osl_int_mul` computes on the converted `int`. -/
theorem int_mul_si_eq_mul (c : Cfg) (p a i : Int) : mul_si c p a i = mul c p a i := rfl

/-! ## C04: floor division -/

/-- Specification of floor division: `a = b*q + r` with `r` of the sign of `b` and `|r| < |b|`. -/
def FloorQR (a b q r : Int) : Prop :=
  a = b * q + r ∧ (0 < b → 0 ≤ r ∧ r < b) ∧ (b < 0 → b < r ∧ r ≤ 0)

theorem floorQR_fdiv (a b : Int) (hb : b ≠ 0) : FloorQR a b (a.fdiv b) (a.fmod b) := by
  refine ⟨(Int.mul_fdiv_add_fmod a b).symm, fun h => ⟨Int.fmod_nonneg_of_pos a h, Int.fmod_lt_of_pos a h⟩, fun h => ?_⟩
  have e : a.fmod b = - ((-a).fmod (-b)) := by rw [Int.neg_fmod_neg]; omega
  have p1 := Int.fmod_nonneg_of_pos (-a) (b := -b) (by omega)
  have p2 := Int.fmod_lt_of_pos (-a) (b := -b) (by omega)
  omega

theorem floor_div_q_eq {c : Cfg} (hv : c.Valid) {p a b : Int} (ha : InPrec c p a) (hb : b ≠ 0)
    (hmin : ¬ (IsMin c p a ∧ b = -1)) : floor_div_q c p a b = .ok (a.fdiv b) := by
  unfold floor_div_q
  cases hk : kind c p with
  | none => exact absurd hk ha.kind_ne_none
  | some k =>
    cases k with
    | mp => simp [hb]
    | fixed w =>
      have hw := kind_fixed hv hk
      simp only [InPrec, hk] at ha
      have hm : ¬ (a = cMin w ∧ b = -1) := fun h => hmin ⟨⟨w, hk, h.1⟩, h.2⟩
      simp only [sdiv_ok hw ha hb hm, smod_ok hw ha hb hm, Out.ok_bind]
      have hcase := fdiv_eq_tdiv_cases a b hb
      obtain ⟨r, h1, h2, h3, h4, h5⟩ := tdiv_spec a b hb
      rw [hcase, h2]
      -- the quotient minus one is representable when it is taken
      have hfit : r ≠ 0 → fits w (a.tdiv b - 1) := by
        intro hr
        have hb2 : 2 ≤ b.natAbs := by
          rcases Nat.lt_or_ge b.natAbs 2 with h | h
          · exfalso; omega
          · exact h
        have : (a.tdiv b).natAbs ≤ a.natAbs / 2 := by
          rw [tdiv_natAbs]; exact Nat.div_le_div_left hb2 (by omega)
        rcases hw with rfl | rfl <;> simp only [fits, cMin, cMax] at ha ⊢ <;> omega
      -- sign of the quotient
      have hsign : a.tdiv b < 0 → (a < 0 ∧ 0 < b) ∨ (0 < a ∧ b < 0) := by
        intro hq
        rcases Int.lt_trichotomy a 0 with ha0 | ha0 | ha0
        · rcases Int.lt_or_gt_of_ne hb with hb0 | hb0
          · have := Int.tdiv_nonneg_of_nonpos_of_nonpos (a := a) (b := b) (by omega) (by omega); omega
          · exact .inl ⟨ha0, hb0⟩
        · subst ha0; simp at hq
        · rcases Int.lt_or_gt_of_ne hb with hb0 | hb0
          · exact .inr ⟨ha0, hb0⟩
          · have := Int.tdiv_nonneg (a := a) (b := b) (by omega) (by omega); omega
      have hsign2 : 0 < a.tdiv b → ¬ ((a < 0 ∧ 0 < b) ∨ (0 < a ∧ b < 0)) := by
        rintro hq (⟨ha0, hb0⟩ | ⟨ha0, hb0⟩)
        · have := Int.tdiv_nonneg (a := -a) (b := b) (by omega) (by omega)
          rw [Int.neg_tdiv] at this; omega
        · have := Int.tdiv_nonneg (a := a) (b := -b) (by omega) (by omega)
          rw [Int.tdiv_neg] at this; omega
      by_cases hq : a.tdiv b < 0
      · rw [if_pos hq]
        by_cases hr : r = 0
        · simp [hr]
        · rw [if_pos hr, if_pos ⟨hr, hsign hq⟩, sarith_of_fits (hfit hr)]
      · rw [if_neg hq]
        by_cases hq0 : a.tdiv b = 0
        · rw [if_pos hq0]
          have hra : r = a := by rw [hq0] at h1; omega
          by_cases hs : (a > 0 ∧ b < 0) ∨ (a < 0 ∧ b > 0)
          · have hr : r ≠ 0 := by omega
            rw [if_pos hs, if_pos ⟨hr, by omega⟩, sarith_of_fits (hfit hr)]
          · rw [if_neg hs, if_neg (by omega)]
        · rw [if_neg hq0, if_neg]
          rintro ⟨_, hs⟩
          exact hsign2 (by omega) hs

/-- C04 for the quotient: for every non-zero divisor, apart from `MIN / -1` whose quotient is
not representable, the stored quotient is the floor of `a/b`. -/
theorem int_floor_div_q_correct {c : Cfg} (hv : c.Valid) {p a b : Int} (ha : InPrec c p a)
    (hb : b ≠ 0) (hmin : ¬ (IsMin c p a ∧ b = -1)) :
    ∃ q r, floor_div_q c p a b = .ok q ∧ FloorQR a b q r :=
  ⟨_, _, floor_div_q_eq hv ha hb hmin, floorQR_fdiv a b hb⟩

/-- The floor quotient and remainder are unique, so the specification determines the result. -/
theorem floorQR_unique {a b q r q' r' : Int} (hb : b ≠ 0) (h : FloorQR a b q r)
    (h' : FloorQR a b q' r') : q = q' ∧ r = r' := by
  obtain ⟨e, p1, n1⟩ := h
  obtain ⟨e', p2, n2⟩ := h'
  have key : b * (q - q') = r' - r := by rw [Int.mul_sub]; omega
  generalize hd : q - q' = d at key
  have : d = 0 := by
    rcases Int.lt_or_gt_of_ne hb with hb0 | hb0
    · have := n1 hb0; have := n2 hb0
      rcases Int.lt_trichotomy d 0 with h | h | h
      · have : b * (-1) ≤ b * d := by
          have := Int.mul_le_mul_of_nonpos_left (a := b) (b := -1) (c := d) (by omega) (by omega)
          omega
        omega
      · exact h
      · have : b * d ≤ b * 1 := Int.mul_le_mul_of_nonpos_left (by omega) (by omega)
        omega
    · have := p1 hb0; have := p2 hb0
      rcases Int.lt_trichotomy d 0 with h | h | h
      · have : b * d ≤ b * (-1) := Int.mul_le_mul_of_nonneg_left (by omega) (by omega)
        omega
      · exact h
      · have : b * 1 ≤ b * d := Int.mul_le_mul_of_nonneg_left (by omega) (by omega)
        omega
  subst this
  simp at key
  omega

example : floor_div_q Cfg.std PREC_DP (-7) 2 = .ok (-4) ∧ floor_div_q Cfg.std PREC_DP 1 (-2) = .ok (-1) ∧
    FloorQR (-7) 2 (-4) 1 := by
  refine ⟨by decide, by decide, ?_⟩; unfold FloorQR; omega

/-- C04 (partial): the remainder and the pair are correct when the product `q*b = a - r` of the
code does not overflow (always in multiple precision). -/
theorem int_floor_div_r_correct_partial {c : Cfg} (hv : c.Valid) {p a b q r : Int}
    (ha : InPrec c p a) (hb : b ≠ 0) (hmin : ¬ (IsMin c p a ∧ b = -1)) (hs : FloorQR a b q r)
    (hbr : InPrec c p r) (hqb : InPrec c p (a - r)) :
    floor_div_r c p a b = .ok r ∧ floor_div_q_r c p a b = .ok (q, r) := by
  obtain ⟨rfl, rfl⟩ := floorQR_unique hb hs (floorQR_fdiv a b hb)
  have hq := floor_div_q_eq hv ha hb hmin
  unfold floor_div_r floor_div_q_r
  cases hk : kind c p with
  | none => exact absurd hk ha.kind_ne_none
  | some k =>
    cases k with
    | mp => simp [hb]
    | fixed w =>
      simp only [InPrec, hk] at ha hbr hqb
      have e : a.fdiv b * b = a - a.fmod b := by
        have := Int.mul_fdiv_add_fmod a b; rw [Int.mul_comm]; omega
      have e2 : a - (a - a.fmod b) = a.fmod b := by omega
      simp [hq, e, sarith_of_fits hqb, e2, sarith_of_fits hbr]

example : FloorQR (-7) (-2) 3 (-1) ∧ floor_div_q_r Cfg.std PREC_SP (-7) (-2) = .ok (3, -1) := by
  refine ⟨by unfold FloorQR; omega, by decide⟩

/-- C04 with wrapping arithmetic: the remainder is correct for every non-zero divisor and
dividend other than `MIN, -1`. -/
theorem int_floor_div_r_correct_wrapv {c : Cfg} (hv : c.Valid) (hwr : c.wrapv = true)
    {p a b q r : Int} (ha : InPrec c p a) (hb : b ≠ 0) (hib : InPrec c p b)
    (hmin : ¬ (IsMin c p a ∧ b = -1)) (hs : FloorQR a b q r) :
    floor_div_r c p a b = .ok r ∧ floor_div_q_r c p a b = .ok (q, r) := by
  obtain ⟨rfl, rfl⟩ := floorQR_unique hb hs (floorQR_fdiv a b hb)
  have hq := floor_div_q_eq hv ha hb hmin
  have hsp := floorQR_fdiv a b hb
  unfold floor_div_r floor_div_q_r
  cases hk : kind c p with
  | none => exact absurd hk ha.kind_ne_none
  | some k =>
    cases k with
    | mp => simp [hb]
    | fixed w =>
      have hw := kind_fixed hv hk
      simp only [InPrec, hk] at ha hib
      have e : a.fdiv b * b = a - a.fmod b := by
        have := Int.mul_fdiv_add_fmod a b; rw [Int.mul_comm]; omega
      obtain ⟨k, hk2⟩ := wrap_eq (w := w) (a - a.fmod b)
      have hrf : fits w (a.fmod b) := by
        rcases Int.lt_or_gt_of_ne hb with hb0 | hb0
        · have := hsp.2.2 hb0
          rcases hw with rfl | rfl <;> simp only [fits, cMin, cMax] at hib ⊢ <;> omega
        · have := hsp.2.1 hb0
          rcases hw with rfl | rfl <;> simp only [fits, cMin, cMax] at hib ⊢ <;> omega
      have e3 : wrap w (a - wrap w (a - a.fmod b)) = a.fmod b := by
        rw [hk2]
        have : a - (a - a.fmod b + k * 2 ^ w) = a.fmod b + (-k) * 2 ^ w := by
          rw [Int.neg_mul]; omega
        rw [this, ← wrap_of_fits hw hrf]
        unfold wrap
        rcases hw with rfl | rfl <;> omega
      simp [hq, e, sarith_wrapv hwr hw, e3]

/-- C04 violated in ISO C: for `a = LLONG_MIN`, `b = 3` the floor remainder is 1, but the code
multiplies the floor quotient back and overflows. -/
theorem int_floor_div_r_violates :
    FloorQR (cMin 64) 3 (-3074457345618258603) 1 ∧ floor_div_r Cfg.std PREC_DP (cMin 64) 3 = .ub ∧
    floor_div_q_r Cfg.std PREC_DP (cMin 64) 3 = .ub := by
  refine ⟨?_, by decide, by decide⟩
  unfold FloorQR; rw [cMin_64]; omega

/-- C04: division by zero is undefined in every function and precision. -/
theorem int_floor_div_zero {c : Cfg} {p a : Int} (ha : InPrec c p a) :
    floor_div_q c p a 0 = .ub ∧ floor_div_r c p a 0 = .ub ∧ floor_div_q_r c p a 0 = .ub := by
  unfold floor_div_r floor_div_q_r floor_div_q
  cases hk : kind c p with
  | none => exact absurd hk ha.kind_ne_none
  | some k => cases k <;> simp [sdiv]

/-! ## C05: modulo, divisibility, exact division -/

/-- C05 (partial): the result of `osl_int_mod` is the residue of `a` in `[0, |b|)`. Excluded:
`b = 0`, `MIN % -1`, and a most negative modulus with a negative dividend. -/
theorem int_mod_correct_partial {c : Cfg} (hv : c.Valid) {p a b : Int} (ha : InPrec c p a)
    (hib : InPrec c p b) (hb : b ≠ 0) (hmin : ¬ (IsMin c p a ∧ b = -1))
    (hbmin : ¬ (IsMin c p b ∧ a < 0)) :
    ∃ r, mod c p a b = .ok r ∧ 0 ≤ r ∧ r < b.natAbs ∧ b ∣ (a - r) := by
  refine ⟨a % (b.natAbs : Int), ?_, Int.emod_nonneg _ (by omega), Int.emod_lt_of_pos _ (by omega), ?_⟩
  · unfold mod
    cases hk : kind c p with
    | none => exact absurd hk ha.kind_ne_none
    | some k =>
      cases k with
      | mp => simp [hb]
      | fixed w =>
        have hw := kind_fixed hv hk
        simp only [InPrec, hk] at ha hib
        have hm : ¬ (a = cMin w ∧ b = -1) := fun h => hmin ⟨⟨w, hk, h.1⟩, h.2⟩
        have hbm : ¬ (b = cMin w ∧ a < 0) := fun h => hbmin ⟨⟨w, hk, h.1⟩, h.2⟩
        simp only [smod_ok hw ha hb hm, Out.ok_bind]
        obtain ⟨r, h1, h2, h3, h4, h5⟩ := tdiv_spec a b hb
        rw [h2]
        have hcong : ∀ t : Int, (∃ k, a = b * k + t) → 0 ≤ t → t < b.natAbs → t = a % (b.natAbs : Int) := by
          rintro t ⟨k, hk⟩ h0 h1
          have : a % (b.natAbs : Int) = t % (b.natAbs : Int) := by
            have hd : ((b.natAbs : Int)) ∣ (a - t) := by
              rw [Int.natAbs_dvd]; exact ⟨k, by omega⟩
            exact Int.emod_eq_emod_iff_emod_sub_eq_zero.mpr (Int.emod_eq_zero_of_dvd hd)
          rw [this, Int.emod_eq_of_lt h0 h1]
        split
        · rename_i hr
          have hfb : fits w (b.natAbs : Int) := by
            rcases hw with rfl | rfl <;> simp only [fits, cMin, cMax] at ha hib hbm ⊢ <;> omega
          have hfs : fits w (r + (b.natAbs : Int)) := by
            rcases hw with rfl | rfl <;> simp only [fits, cMin, cMax] at ha hib hbm ⊢ <;> omega
          simp only [sabs, hfb, if_true, Out.ok_bind, sarith_of_fits hfs]
          congr 1
          apply hcong _ _ (by omega) (by omega)
          rcases Int.lt_or_gt_of_ne hb with hb0 | hb0
          · exact ⟨a.tdiv b + 1, by rw [Int.mul_add]; omega⟩
          · exact ⟨a.tdiv b - 1, by rw [Int.mul_sub]; omega⟩
        · rename_i hr
          congr 1
          exact hcong _ ⟨a.tdiv b, h1⟩ (by omega) (by omega)
  · rw [← Int.natAbs_dvd]
    exact ⟨a / b.natAbs, by have := Int.emod_add_mul_ediv a (b.natAbs : Int); omega⟩

example : InPrec Cfg.std PREC_DP (-7) ∧ mod Cfg.std PREC_DP (-7) (-3) = .ok 2 ∧ mod Cfg.std PREC_DP 7 3 = .ok 1 := by
  decide

/-- C05 violated: `MIN % -1` (mathematically 0) and `-1 mod MIN` (representable) are undefined. -/
theorem int_mod_violates :
    mod Cfg.std PREC_DP (cMin 64) (-1) = .ub ∧ mod Cfg.std PREC_DP (-1) (cMin 64) = .ub := by decide

/-- C05: the divisibility test decides divisibility (the pair `MIN, -1` is undefined in fixed
precision, `int_divisible_min_ub`). -/
theorem int_divisible_iff {c : Cfg} (hv : c.Valid) {p a b : Int} (ha : InPrec c p a) (hb : b ≠ 0)
    (hmin : ¬ (IsMin c p a ∧ b = -1)) : divisible c p a b = .ok (decide (b ∣ a)) := by
  have hd : decide (a.tmod b = 0) = decide (b ∣ a) := by
    apply decide_eq_decide.mpr
    exact (Int.dvd_iff_tmod_eq_zero).symm
  unfold divisible
  cases hk : kind c p with
  | none => exact absurd hk ha.kind_ne_none
  | some k =>
    cases k with
    | mp => simp only [if_neg hb, hd]
    | fixed w =>
      have hw := kind_fixed hv hk
      simp only [InPrec, hk] at ha
      have hm : ¬ (a = cMin w ∧ b = -1) := fun h => hmin ⟨⟨w, hk, h.1⟩, h.2⟩
      simp only [smod_ok hw ha hb hm, Out.ok_bind, Out.pure_eq, hd]

theorem int_divisible_min_ub : divisible Cfg.std PREC_SP (cMin 64) (-1) = .ub := by decide

example : divisible Cfg.std PREC_SP 12 (-4) = .ok true ∧ divisible Cfg.std PREC_SP 13 (-4) = .ok false := by decide

/-- C05: exact division of a multiple stores the quotient, whenever it is representable. -/
theorem int_div_exact_correct {c : Cfg} {p b q : Int} (hb : b ≠ 0) (hq : InPrec c p q) :
    div_exact c p (q * b) b = .ok q := by
  unfold div_exact
  have e : (q * b).tdiv b = q := Int.mul_tdiv_cancel q hb
  cases hk : kind c p with
  | none => exact absurd hk hq.kind_ne_none
  | some k =>
    cases k with
    | mp => simp [hb, e, Int.mul_tmod_left]
    | fixed w =>
      simp only [InPrec, hk] at hq
      simp [sdiv, hb, e, hq]

example : InPrec Cfg.std PREC_MP (10 ^ 30) ∧ div_exact Cfg.std PREC_MP (10 ^ 30 * 7) 7 = .ok (10 ^ 30) := by decide

/-! ## C06: gcd and lcm -/

/-- Euclid's recursion: on operands other than the most negative value it terminates with a
value whose absolute value is the gcd, and which is again not the most negative value. -/
theorem llgcd_correct : ∀ (a b : Int), fits 64 a → fits 64 b → a ≠ cMin 64 → b ≠ cMin 64 →
    ∃ g, llgcd a b = .ok g ∧ g.natAbs = Int.gcd a b := by
  intro a b
  induction hn : b.natAbs using Nat.strongRecOn generalizing a b with
  | ind n ih =>
    intro ha hb ham hbm
    unfold llgcd
    split
    · rename_i h0; subst h0; exact ⟨a, rfl, by simp [Int.gcd]⟩
    · rename_i h0
      have hsm : smod 64 a b = .ok (a.tmod b) := smod_ok (Or.inr rfl) ha h0 (fun h => ham h.1)
      obtain ⟨r, h1, h2, h3, h4, h5⟩ := tdiv_spec a b h0
      have hlt : (a.tmod b).natAbs < n := by rw [h2]; omega
      have hfm : fits 64 (a.tmod b) ∧ a.tmod b ≠ cMin 64 := by
        rw [h2]; simp only [fits, cMin, cMax] at hb hbm ⊢; omega
      obtain ⟨g, hg, hgg⟩ := ih _ hlt b (a.tmod b) rfl hb hfm.1 hbm hfm.2
      refine ⟨g, ?_, ?_⟩
      · split
        · rename_i m hm; rw [hsm] at hm; injection hm with hm; subst hm; exact hg
        · rename_i hm; rw [hsm] at hm; cases hm
        · rename_i hm; rw [hsm] at hm; cases hm
      · rw [hgg, Int.gcd, Int.gcd, Int.natAbs_tmod, Nat.gcd_comm b.natAbs, ← Nat.gcd_rec, Nat.gcd_comm]

theorem gcd_eq {c : Cfg} (hv : c.Valid) {p a b : Int} (ha : InPrec c p a) (hb : InPrec c p b)
    (hma : ¬ IsMin c p a) (hmb : ¬ IsMin c p b) : gcd c p a b = .ok (Int.gcd a b : Int) := by
  unfold gcd
  cases hk : kind c p with
  | none => exact absurd hk ha.kind_ne_none
  | some k =>
    cases k with
    | mp => simp
    | fixed w =>
      have hw := kind_fixed hv hk
      simp only [InPrec, hk] at ha hb
      have hma' : a ≠ cMin w := fun h => hma ⟨w, hk, h⟩
      have hmb' : b ≠ cMin w := fun h => hmb ⟨w, hk, h⟩
      have hfa : fits 64 a ∧ a ≠ cMin 64 := by
        rcases hw with rfl | rfl <;> simp only [fits, cMin, cMax] at ha hma' ⊢ <;> omega
      have hfb : fits 64 b ∧ b ≠ cMin 64 := by
        rcases hw with rfl | rfl <;> simp only [fits, cMin, cMax] at hb hmb' ⊢ <;> omega
      obtain ⟨g, hg, hgg⟩ := llgcd_correct a b hfa.1 hfb.1 hfa.2 hfb.2
      have hbound : (Int.gcd a b) ≤ a.natAbs ∨ (Int.gcd a b) ≤ b.natAbs := by
        unfold Int.gcd
        by_cases h0 : b.natAbs = 0
        · left; rw [h0]; simp
        · right; exact Nat.gcd_le_right _ (by omega)
      have hgf : fits w g ∧ fits w (g.natAbs : Int) := by
        rcases hw with rfl | rfl <;> simp only [fits, cMin, cMax] at ha hb hma' hmb' ⊢ <;> omega
      simp only [hg, Out.ok_bind, wrap_of_fits hw hgf.1, sabs]
      rw [if_pos hgf.2, hgg]

/-- C06 (partial: operands equal to the most negative value are excluded): the stored value is
the greatest common divisor: non-negative, a common divisor, and a multiple of every common
divisor. -/
theorem int_gcd_correct_partial {c : Cfg} (hv : c.Valid) {p a b : Int} (ha : InPrec c p a)
    (hb : InPrec c p b) (hma : ¬ IsMin c p a) (hmb : ¬ IsMin c p b) :
    ∃ g, gcd c p a b = .ok g ∧ 0 ≤ g ∧ g ∣ a ∧ g ∣ b ∧ ∀ d, d ∣ a → d ∣ b → d ∣ g :=
  ⟨_, gcd_eq hv ha hb hma hmb, by omega, Int.gcd_dvd_left .., Int.gcd_dvd_right ..,
    fun _ h1 h2 => Int.dvd_coe_gcd h1 h2⟩

theorem gcd_example : gcd Cfg.std PREC_DP (-12) 18 = .ok 6 := by
  have h : ∀ x, x ≠ cMin 64 → ¬ IsMin Cfg.std PREC_DP x := by
    rintro x hx ⟨w, h1, h2⟩
    have h3 : kind Cfg.std PREC_DP = some (.fixed 64) := by decide
    rw [h3] at h1; injection h1 with h1; injection h1 with h1; subst h1; exact hx h2
  rw [gcd_eq (by decide) (by decide) (by decide) (h _ (by decide)) (h _ (by decide))]
  decide

/-- C06 violated: `gcd(MIN, 0)` is not representable and `gcd(MIN, -1)` is 1, yet undefined. -/
theorem int_gcd_violates :
    gcd Cfg.std PREC_DP (cMin 64) 0 = .ub ∧ gcd Cfg.std PREC_DP (cMin 64) (-1) = .ub := by
  have h1 : llgcd (cMin 64) 0 = .ok (cMin 64) := by unfold llgcd; rfl
  have h2 : llgcd (cMin 64) (-1) = .ub := by
    unfold llgcd
    rw [dif_neg (by decide)]
    split
    · rename_i h; rw [smod_min (Or.inr rfl)] at h; cases h
    · rename_i h; rw [smod_min (Or.inr rfl)] at h; cases h
    · rfl
  have h3 : kind Cfg.std PREC_DP = some (.fixed 64) := by decide
  constructor
  · simp only [gcd, h3, h1, Out.ok_bind]; decide
  · simp only [gcd, h3, h2, Out.ub_bind]

/-- C06 (partial: most negative operands excluded): the least common multiple is stored whenever
it is representable. -/
theorem int_lcm_correct_partial {c : Cfg} (hv : c.Valid) {p a b : Int} (ha : InPrec c p a)
    (hb : InPrec c p b) (hma : ¬ IsMin c p a) (hmb : ¬ IsMin c p b)
    (hl : InPrec c p (Int.lcm a b)) : lcm c p a b = .ok (Int.lcm a b : Int) := by
  have habs : ∀ x, InPrec c p x → ¬ IsMin c p x →
      abs c p x = .ok (x.natAbs : Int) ∧ InPrec c p (x.natAbs : Int) ∧ ¬ IsMin c p (x.natAbs : Int) := by
    intro x hx hm
    unfold abs
    cases hk : kind c p with
    | none => exact absurd hk hx.kind_ne_none
    | some k =>
      cases k with
      | mp => simp [InPrec, hk, IsMin]
      | fixed w =>
        have hw := kind_fixed hv hk
        simp only [InPrec, hk] at hx ⊢
        have hm' : x ≠ cMin w := fun h => hm ⟨w, hk, h⟩
        have hf : fits w (x.natAbs : Int) ∧ (x.natAbs : Int) ≠ cMin w := by
          rcases hw with rfl | rfl <;> simp only [fits, cMin, cMax] at hx hm' ⊢ <;> omega
        refine ⟨?_, hf.1, ?_⟩
        · split
          · congr 1; omega
          · have : (-x) = (x.natAbs : Int) := by omega
            rw [this, sarith_of_fits hf.1]
        · rintro ⟨w', hk', h⟩
          rw [hk] at hk'; injection hk' with hk'; injection hk' with hk'; subst hk'
          exact hf.2 h
  obtain ⟨a1, a2, a3⟩ := habs a ha hma
  obtain ⟨b1, b2, b3⟩ := habs b hb hmb
  have hg := gcd_eq hv a2 b2 a3 b3
  have hgc : Int.gcd (a.natAbs : Int) (b.natAbs : Int) = Int.gcd a b := by simp [Int.gcd]
  rw [hgc] at hg
  obtain ⟨k, hk⟩ := Option.ne_none_iff_exists'.mp ha.kind_ne_none
  have hi : init c p = .ok 0 := by simp [init, hk]
  have hz : zero c p (Int.gcd a b : Int) = .ok (decide ((Int.gcd a b : Int) = 0)) := by simp [zero, hk]
  have hs : set_si c p 0 = .ok 0 := by simp [set_si, hk]
  unfold lcm
  simp only [hi, a1, b1, hg, hz, hs, Out.ok_bind]
  by_cases h0 : (Int.gcd a b : Int) = 0
  · rw [if_pos (by simpa using h0)]
    have : a = 0 ∧ b = 0 := by
      have h0' : Int.gcd a b = 0 := by omega
      exact Int.gcd_eq_zero_iff.mp h0'
    rw [this.1, this.2]; rfl
  · rw [if_neg (by simpa using h0)]
    have hdvd : (Int.gcd a b : Int) ∣ (a.natAbs : Int) := by
      rw [Int.dvd_natAbs]; exact Int.gcd_dvd_left ..
    obtain ⟨k', hk'⟩ := hdvd
    have hkin : InPrec c p k' := by
      cases hkd : kind c p with
      | none => exact absurd hkd ha.kind_ne_none
      | some kk =>
        cases kk with
        | mp => simp [InPrec, hkd]
        | fixed w =>
          have hw := kind_fixed hv hkd
          simp only [InPrec, hkd] at a2 ⊢
          have h1 : 1 ≤ (Int.gcd a b : Int) := by omega
          have hk0 : 0 ≤ k' := by
            apply Int.not_lt.mp
            intro hneg
            have := Int.mul_neg_of_pos_of_neg (a := (Int.gcd a b : Int)) (b := k') (by omega) hneg
            omega
          have : 1 * k' ≤ (Int.gcd a b : Int) * k' := Int.mul_le_mul_of_nonneg_right h1 hk0
          rcases hw with rfl | rfl <;> simp only [fits, cMin, cMax] at a2 ⊢ <;> omega
    have hde : div_exact c p (a.natAbs : Int) (Int.gcd a b : Int) = .ok k' := by
      rw [hk', Int.mul_comm]; exact int_div_exact_correct h0 hkin
    have hlcm : k' * (b.natAbs : Int) = (Int.lcm a b : Int) := by
      have h1 : Int.gcd a b * Int.lcm a b = a.natAbs * b.natAbs := by
        simp [Int.gcd, Int.lcm, Nat.gcd_mul_lcm]
      have h2 : (Int.gcd a b : Int) * (Int.lcm a b : Int) = (a.natAbs : Int) * (b.natAbs : Int) := by
        exact_mod_cast h1
      rw [hk', Int.mul_assoc] at h2
      exact (Int.eq_of_mul_eq_mul_left h0 h2).symm
    simp only [hde, Out.ok_bind]
    rw [← hlcm] at hl ⊢
    exact int_mul_exact hv hkin b2 hl

/-! ## C07: comparisons -/

/-- C07: equality and sign tests decide the relation they name, in every supported precision. -/
theorem int_tests_correct {c : Cfg} {p a b : Int} (ha : InPrec c p a) :
    eq c p a b = .ok (decide (a = b)) ∧ ne c p a b = .ok (decide (a ≠ b)) ∧
    pos c p a = .ok (decide (0 < a)) ∧ neg c p a = .ok (decide (a < 0)) ∧
    zero c p a = .ok (decide (a = 0)) ∧ one c p a = .ok (decide (a = 1)) ∧
    mone c p a = .ok (decide (a = -1)) := by
  obtain ⟨k, hk⟩ := Option.ne_none_iff_exists'.mp ha.kind_ne_none
  simp [eq, ne, pos, neg, zero, one, mone, hk]

/-- C07 (partial: a 64-bit `long`, or a precision other than double): the order tests decide the
order of the integers. -/
theorem int_order_correct_partial {c : Cfg} (hv : c.Valid) {p a b : Int} (ha : InPrec c p a)
    (hb : InPrec c p b) (h : c.longBits = 64 ∨ p ≠ PREC_DP) :
    lt c p a b = .ok (decide (a < b)) ∧ le c p a b = .ok (decide (a ≤ b)) ∧
    gt c p a b = .ok (decide (a > b)) ∧ ge c p a b = .ok (decide (a ≥ b)) := by
  have key : ∀ rel : Int → Int → Bool, cmpSp c p rel a b = .ok (rel a b) := by
    intro rel
    unfold cmpSp
    split
    · rfl
    · split
      · rename_i h1 h2
        have hl : c.longBits = 64 := by rcases h with h | h; exact h; exact absurd h2 h
        have hk : kind c p = some (.fixed 64) := by simp only [kind, if_neg h1, if_pos h2]
        simp only [InPrec, hk] at ha hb
        simp only [viewSp, hl, wrap_of_fits (Or.inr rfl) ha, wrap_of_fits (Or.inr rfl) hb]
      · split
        · rfl
        · rename_i h1 h2 h3
          have : kind c p = none := by simp only [kind, if_neg h1, if_neg h2, if_neg h3]
          exact absurd this ha.kind_ne_none
  exact ⟨key _, key _, key _, key _⟩

example : InPrec Cfg.std PREC_DP (-3) ∧ (Cfg.std.longBits = 64 ∨ PREC_DP ≠ PREC_DP) ∧
    lt Cfg.std PREC_DP (-3) (2 ^ 40) = .ok true := by decide

/-- C07 violated where `long` has 32 bits: double precision values are compared through their
low half, so `2^32 < 1` is answered true. -/
theorem int_order_violates_32bit_long :
    InPrec { Cfg.std with longBits := 32 } PREC_DP (2 ^ 32) ∧
    lt { Cfg.std with longBits := 32 } PREC_DP (2 ^ 32) 1 = .ok true := by decide

/-! ## C08: precision change -/

/-- C08: in a debug build the stored value after a precision change is the same integer; the
call fails exactly on values outside the C `int` range (when the precisions differ). -/
theorem int_set_precision_debug {c : Cfg} (hv : c.Valid) (hd : c.ndebug = false) {p np v : Int}
    (hi : InPrec c p v) (hnp : (kind c np).isSome) (hne : p ≠ np) :
    set_precision c p np v = if fits 32 v then .ok v else .err := by
  unfold set_precision
  rw [if_pos hne]
  obtain ⟨k2, hk2⟩ := Option.isSome_iff_exists.mp hnp
  cases hk : kind c p with
  | none => exact absurd hk hi.kind_ne_none
  | some k =>
    cases k with
    | mp =>
      by_cases hf : fits 32 v
      · have hf' : fits c.longBits v := by
          rcases hv with h | h <;> rw [h]
          · exact hf
          · simp only [fits, cMin, cMax] at hf ⊢; omega
        simp [get_si, hk, hf, mpz_get_si, hf', wrap_of_fits (Or.inl rfl) hf, init_set_si, hk2]
      · simp [get_si, hk, hf, hd]
    | fixed w =>
      by_cases hf : fits 32 v
      · have h1 : ¬ (v > cMax 32) := by simp only [fits] at hf; omega
        have h2 : ¬ (v < cMin 32) := by simp only [fits] at hf; omega
        simp [get_si, hk, hf, h1, h2, wrap_of_fits (Or.inl rfl) hf, init_set_si, hk2]
      · by_cases h1 : v > cMax 32
        · simp [get_si, hk, hf, h1, hd]
        · have h2 : v < cMin 32 := by simp only [fits] at hf; omega
          simp [get_si, hk, hf, h1, h2, hd]

/-- C08 (partial: debug builds): a value is never silently changed. -/
theorem int_set_precision_preserves_partial {c : Cfg} (hv : c.Valid) (hd : c.ndebug = false)
    {p np v r : Int} (hi : InPrec c p v) (h : set_precision c p np v = .ok r) : r = v := by
  by_cases hne : p = np
  · simp [set_precision, hne] at h; exact h.symm
  · by_cases hnp : (kind c np).isSome
    · rw [int_set_precision_debug hv hd hi hnp hne] at h
      split at h
      · injection h with h; exact h.symm
      · cases h
    · have : kind c np = none := by simpa using hnp
      unfold set_precision at h
      rw [if_pos hne] at h
      obtain ⟨i, _, h⟩ := Out.bind_eq_ok.mp h
      simp [init_set_si, this] at h

example : set_precision Cfg.std PREC_SP PREC_MP (-77) = .ok (-77) ∧
    set_precision Cfg.std PREC_DP PREC_SP (2 ^ 31) = .err := by decide

/-- C08 violated: a value representable in both precisions is refused in a debug build and
silently replaced by another one with `NDEBUG`. -/
theorem int_set_precision_violates :
    InPrec Cfg.std PREC_SP (2 ^ 32) ∧ InPrec Cfg.std PREC_DP (2 ^ 32) ∧
    set_precision Cfg.std PREC_SP PREC_DP (2 ^ 32) = .err ∧
    set_precision { Cfg.std with ndebug := true } PREC_SP PREC_DP (2 ^ 32) = .ok 0 := by decide

/-- Companion of C08: initialising a multiple precision integer from a `long` reads
uninitialised memory. -/
theorem int_init_set_long_mp_ub (i : Int) (hi : fits 64 i) :
    init_set_long Cfg.std PREC_MP i = .ub ∧ init_set_long_long Cfg.std PREC_MP i = .ub := by
  refine ⟨rfl, ?_⟩
  have h1 : ¬ i > cMax 64 := by unfold fits at hi; omega
  have h2 : ¬ i < cMin 64 := by unfold fits at hi; omega
  have e : set_long_long Cfg.std PREC_MP i = .ok (wrap 64 i) := by
    unfold set_long_long
    rw [if_neg (by decide), if_neg (by decide), if_pos (by decide), if_neg (fun h => h1 h.2), if_neg (fun h => h2 h.2)]
    rfl
  unfold init_set_long_long
  rw [if_pos (by decide), e]
  rfl

/-- Companion of C08: `osl_int_get_si` returns the value exactly when it is a C `int`, and
reports an error otherwise (debug build). -/
theorem int_get_si_exact {c : Cfg} (hv : c.Valid) (hd : c.ndebug = false) {p v : Int}
    (hi : InPrec c p v) : get_si c p v = if fits 32 v then .ok v else .err := by
  cases hk : kind c p with
  | none => exact absurd hk hi.kind_ne_none
  | some k =>
    cases k with
    | mp =>
      by_cases hf : fits 32 v
      · have hf' : fits c.longBits v := by
          rcases hv with h | h <;> rw [h]
          · exact hf
          · simp only [fits, cMin, cMax] at hf ⊢; omega
        simp [get_si, hk, hf, mpz_get_si, hf', wrap_of_fits (Or.inl rfl) hf]
      · simp [get_si, hk, hf, hd]
    | fixed w =>
      by_cases hf : fits 32 v
      · have h1 : ¬ (v > cMax 32) := by simp only [fits] at hf; omega
        have h2 : ¬ (v < cMin 32) := by simp only [fits] at hf; omega
        simp [get_si, hk, hf, h1, h2, wrap_of_fits (Or.inl rfl) hf]
      · by_cases h1 : v > cMax 32
        · simp [get_si, hk, hf, h1, hd]
        · have h2 : v < cMin 32 := by simp only [fits] at hf; omega
          simp [get_si, hk, hf, h1, h2, hd]

/-- Companion of C08, violated: with a 32-bit `long` a double precision value is cut by
`osl_int_get_long_long`, whose result type could hold it. -/
theorem int_get_long_long_violates_32bit_long :
    get_long_long { Cfg.std with longBits := 32 } PREC_DP (2 ^ 40) = .ok 0 := by decide

/-! ## C09: sign changes, swap, sizes -/

/-- C09: negation and absolute value are exact on every value but the most negative one, where
they are undefined in ISO C. -/
theorem int_oppose_abs_correct {c : Cfg} (hv : c.Valid) {p a : Int} (ha : InPrec c p a)
    (hm : ¬ IsMin c p a) : oppose c p a = .ok (-a) ∧ abs c p a = .ok (a.natAbs : Int) := by
  unfold oppose abs
  cases hk : kind c p with
  | none => exact absurd hk ha.kind_ne_none
  | some k =>
    cases k with
    | mp => simp
    | fixed w =>
      have hw := kind_fixed hv hk
      simp only [InPrec, hk] at ha
      have hm' : a ≠ cMin w := fun h => hm ⟨w, hk, h⟩
      have hf : fits w (-a) := by
        rcases hw with rfl | rfl <;> simp only [fits, cMin, cMax] at ha hm' ⊢ <;> omega
      refine ⟨sarith_of_fits hf, ?_⟩
      simp only
      split
      · congr 1; omega
      · rw [sarith_of_fits hf]; congr 1; omega

theorem int_oppose_abs_min_ub :
    oppose Cfg.std PREC_SP (cMin 64) = .ub ∧ abs Cfg.std PREC_SP (cMin 64) = .ub ∧
    abs { Cfg.std with wrapv := true } PREC_SP (cMin 64) = .ok (cMin 64) := by decide

/-- C09: assignment copies and swap exchanges, for every supported precision. -/
theorem int_assign_swap_correct {c : Cfg} {p a b : Int} (h : is_precision_supported c p = true) :
    assign c p a = .ok a ∧ swap c p a b = .ok (b, a) := by
  obtain ⟨k, hk⟩ := Option.isSome_iff_exists.mp ((supported_iff c p).mp h)
  simp [assign, swap, hk]

theorem log2Loop_spec (x : Nat) (hx : x ≠ 0) :
    0 < log2Loop x ∧ 2 ^ (log2Loop x - 1) ≤ x ∧ x < 2 ^ log2Loop x := by
  induction x using Nat.strongRecOn with
  | ind x ih =>
    unfold log2Loop
    rw [dif_neg hx]
    by_cases h2 : x / 2 = 0
    · rw [h2]; unfold log2Loop; simp; omega
    · obtain ⟨h1, h3, h4⟩ := ih (x / 2) (by omega) h2
      refine ⟨by omega, ?_, ?_⟩
      · obtain ⟨n, hn⟩ : ∃ n, log2Loop (x / 2) = n + 1 := ⟨log2Loop (x / 2) - 1, by omega⟩
        rw [hn] at h3 ⊢
        simp only [Nat.add_sub_cancel] at h3 ⊢
        rw [Nat.pow_succ]; omega
      · rw [Nat.pow_succ]; omega

theorem log10Loop_spec (x : Nat) (hx : x ≠ 0) :
    0 < log10Loop x ∧ 10 ^ (log10Loop x - 1) ≤ x ∧ x < 10 ^ log10Loop x := by
  induction x using Nat.strongRecOn with
  | ind x ih =>
    unfold log10Loop
    rw [dif_neg hx]
    by_cases h2 : x / 10 = 0
    · rw [h2]; unfold log10Loop; simp; omega
    · obtain ⟨h1, h3, h4⟩ := ih (x / 10) (by omega) h2
      refine ⟨by omega, ?_, ?_⟩
      · obtain ⟨n, hn⟩ : ∃ n, log10Loop (x / 10) = n + 1 := ⟨log10Loop (x / 10) - 1, by omega⟩
        rw [hn] at h3 ⊢
        simp only [Nat.add_sub_cancel] at h3 ⊢
        rw [Nat.pow_succ]; omega
      · rw [Nat.pow_succ]; omega

/-- C09: the size in base 2 is the number of binary digits of the absolute value (1 for zero). -/
theorem int_size_in_base_2_correct {c : Cfg} {p v : Int} (hv : c.Valid) (hi : InPrec c p v)
    (hm : v ≠ cMin 64 ∨ kind c p = some .mp) :
    ∃ n, size_in_base_2 c p v = .ok n ∧ (v = 0 → n = 1) ∧
      (v ≠ 0 → 0 < n ∧ 2 ^ (n - 1) ≤ v.natAbs ∧ v.natAbs < 2 ^ n) := by
  unfold size_in_base_2
  cases hk : kind c p with
  | none => exact absurd hk hi.kind_ne_none
  | some k =>
    cases k with
    | mp =>
      refine ⟨_, rfl, ?_, ?_⟩
      · intro h; simp [h]
      · intro h; rw [if_neg h]; exact log2Loop_spec _ (by omega)
    | fixed w =>
      have hw := kind_fixed hv hk
      simp only [InPrec, hk] at hi
      have hm' : v ≠ cMin 64 := by rcases hm with h | h; exact h; rw [hk] at h; cases h
      have hf : fits 64 (v.natAbs : Int) := by
        rcases hw with rfl | rfl <;> simp only [fits, cMin, cMax] at hi hm' ⊢ <;> omega
      simp only [sabs, hf, if_true, Out.ok_bind, Int.toNat_natCast, Out.pure_eq]
      refine ⟨_, rfl, ?_, ?_⟩
      · rintro rfl
        have : log2Loop (Int.natAbs 0) = 0 := by unfold log2Loop; rfl
        rw [if_pos this]
      · intro h
        have := log2Loop_spec v.natAbs (by omega)
        rw [if_neg (by omega)]; exact this

/-- C09: the size in base 10 (fixed precision) is the number of decimal digits; it is 0, not 1,
for zero. -/
theorem int_size_in_base_10_correct {c : Cfg} {p v : Int} {w : Nat} (hv : c.Valid)
    (hi : InPrec c p v) (hk : kind c p = some (.fixed w)) (hm : v ≠ cMin 64) :
    ∃ n, size_in_base_10 c p v = .ok (some n) ∧ (v = 0 → n = 0) ∧
      (v ≠ 0 → 0 < n ∧ 10 ^ (n - 1) ≤ v.natAbs ∧ v.natAbs < 10 ^ n) := by
  have hw := kind_fixed hv hk
  simp only [InPrec, hk] at hi
  have hf : fits 64 (v.natAbs : Int) := by
    rcases hw with rfl | rfl <;> simp only [fits, cMin, cMax] at hi hm ⊢ <;> omega
  unfold size_in_base_10
  simp only [hk, sabs, hf, if_true, Out.ok_bind, Int.toNat_natCast, Out.pure_eq]
  refine ⟨_, rfl, ?_, ?_⟩
  · rintro rfl; unfold log10Loop; rfl
  · intro h; exact log10Loop_spec v.natAbs (by omega)

example : InPrec Cfg.std PREC_DP (-1000) ∧ kind Cfg.std PREC_DP = some (.fixed 64) ∧ (-1000 : Int) ≠ cMin 64 := by decide

end OInt
end Osl
