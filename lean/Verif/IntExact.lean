import Verif.IntProps
/-!
# The integer layer, decided completely

For each arithmetic function of source/int.c: what happens for *every* pair of representable
operands, in every precision, in debug and NDEBUG builds, with ISO and with wrapping signed
arithmetic.  `ExactOrError` (IntProps) is the ideal; here the operands for which the ideal is
missed are listed exactly.
-/

namespace Osl
namespace OInt

/-- What C does with a result `x` which is not representable: nothing can be said in ISO C; with
wrapping arithmetic `x` is silently reduced modulo `2 ^ w`. -/
def Overflow (c : Cfg) (p : Int) (x : Int) (o : Out Int) : Prop :=
  ∃ w, kind c p = some (.fixed w) ∧ ¬ fits w x ∧
    (c.wrapv = false → o = .ub) ∧
    (c.wrapv = true → ∃ y k, o = .ok y ∧ fits w y ∧ y = x + k * 2 ^ w ∧ y ≠ x)

theorem overflow_of {c : Cfg} (hv : c.Valid) {p x : Int} {w : Nat}
    (hk : kind c p = some (.fixed w)) (h : ¬ fits w x) : Overflow c p x (sarith c w x) := by
  have hw := kind_fixed hv hk
  refine ⟨w, hk, h, fun hc => sarith_not_fits_iso hc h, fun hc => ?_⟩
  obtain ⟨k, hk'⟩ := wrap_eq (w := w) x
  refine ⟨wrap w x, k, sarith_not_fits_wrapv hc h, wrap_fits hw x, hk', ?_⟩
  intro e; exact h (e ▸ wrap_fits hw x)

/-- C01, every case of `osl_int_add`: a representable sum is always stored; one which is not is
reported in a debug build, except for a negative first and a least second operand; otherwise it
overflows. -/
theorem int_add_cases {c : Cfg} (hv : c.Valid) {p a b : Int} (ha : InPrec c p a)
    (hb : InPrec c p b) :
    (InPrec c p (a + b) → add c p a b = .ok (a + b)) ∧
    (¬ InPrec c p (a + b) → c.ndebug = false → ¬ (a < 0 ∧ IsMin c p b) → add c p a b = .err) ∧
    (¬ InPrec c p (a + b) → c.ndebug = true ∨ (a < 0 ∧ IsMin c p b) →
      Overflow c p (a + b) (add c p a b)) := by
  by_cases hd : c.ndebug = false
  · by_cases hm : a < 0 ∧ IsMin c p b
    · obtain ⟨ha0, w, hk, rfl⟩ := hm
      have hw := kind_fixed hv hk
      have ha' : fits w a := by simpa [InPrec, hk] using ha
      have hn : ¬ fits w (a + cMin w) := by
        rcases hw with rfl | rfl <;> simp only [fits, cMin, cMax] at ha' ⊢ <;> omega
      have hnp : ¬ InPrec c p (a + cMin w) := by simpa [InPrec, hk] using hn
      refine ⟨fun h => absurd h hnp, fun _ _ h => absurd ⟨ha0, w, hk, rfl⟩ h, fun _ _ => ?_⟩
      have hneg : ¬ fits w (- cMin w) := by rcases hw with rfl | rfl <;> decide
      have hlt : cMin w < 0 := by rcases hw with rfl | rfl <;> decide
      have hdf : fits w (a - cMin w) := by
        rcases hw with rfl | rfl <;> simp only [fits, cMin, cMax] at ha' ⊢ <;> omega
      have key : add c p a (cMin w) = sarith c w (a + cMin w) := by
        unfold add
        simp only [hk]
        rw [if_pos hd, if_neg (by omega), if_pos ⟨ha0, hlt⟩, sarith_of_fits hdf, Out.ok_bind]
        cases hc : c.wrapv with
        | false => rw [sarith_not_fits_iso hc hneg, sarith_not_fits_iso hc hn]; rfl
        | true =>
          rw [sarith_not_fits_wrapv hc hneg, Out.ok_bind, if_neg]
          have : wrap w (-cMin w) = cMin w := by rcases hw with rfl | rfl <;> decide
          have hge := ha'.1
          rw [this]; omega
      rw [key]; exact overflow_of hv hk hn
    · have h := int_add_exact_or_error_partial hv hd ha hb hm
      refine ⟨fun hi => ?_, fun hi _ _ => ?_, fun _ h' => ?_⟩
      · rcases h with h | h; exact h.2; exact absurd hi h.1
      · rcases h with h | h; exact absurd h.1 hi; exact h.2
      · rcases h' with h' | h'; simp [hd] at h'; exact absurd h' hm
  · have hd' : c.ndebug = true := by simpa using hd
    cases hk : kind c p with
    | none => exact absurd hk ha.kind_ne_none
    | some k =>
      cases k with
      | mp => simp [add, InPrec, hk]
      | fixed w =>
        have key : add c p a b = sarith c w (a + b) := by
          unfold add; simp only [hk]; rw [if_neg hd]
        rw [key]
        have hi : InPrec c p (a + b) ↔ fits w (a + b) := by simp [InPrec, hk]
        rw [hi]
        exact ⟨sarith_of_fits, fun _ h => absurd h hd, fun h _ => overflow_of hv hk h⟩

/-- All three cases occur. -/
example : InPrec Cfg.std PREC_DP 5 ∧ ¬ InPrec Cfg.std PREC_DP (cMax 64 + 1) ∧
    add Cfg.std PREC_DP (cMax 64) 1 = .err ∧
    add { Cfg.std with ndebug := true } PREC_DP (cMax 64) 1 = .ub ∧
    add { Cfg.std with ndebug := true, wrapv := true } PREC_DP (cMax 64) 1 = .ok (cMin 64) := by
  decide

/-- C01, every case of `osl_int_add_si`.  The guard negates `i` as an `int`: for a negative
variable and the least `int` this is undefined in ISO C even when the sum is representable, and
with wrapping arithmetic the check is skipped. -/
theorem int_add_si_cases {c : Cfg} (hv : c.Valid) {p a i : Int} (ha : InPrec c p a)
    (hi : fits 32 i) :
    (¬ (c.ndebug = false ∧ a < 0 ∧ i = cMin 32 ∧ kind c p ≠ some .mp) →
      (InPrec c p (a + i) → add_si c p a i = .ok (a + i)) ∧
      (¬ InPrec c p (a + i) → c.ndebug = false → add_si c p a i = .err) ∧
      (¬ InPrec c p (a + i) → c.ndebug = true → Overflow c p (a + i) (add_si c p a i))) ∧
    (c.ndebug = false ∧ a < 0 ∧ i = cMin 32 ∧ kind c p ≠ some .mp →
      (c.wrapv = false → add_si c p a i = .ub) ∧
      (c.wrapv = true → (InPrec c p (a + i) → add_si c p a i = .ok (a + i)) ∧
        (¬ InPrec c p (a + i) → Overflow c p (a + i) (add_si c p a i)))) := by
  cases hk : kind c p with
  | none => exact absurd hk ha.kind_ne_none
  | some k =>
    cases k with
    | mp => simp [add_si, InPrec, hk]
    | fixed w =>
      have hw := kind_fixed hv hk
      have hin : InPrec c p (a + i) ↔ fits w (a + i) := by simp [InPrec, hk]
      have ha' : fits w a := by simpa [InPrec, hk] using ha
      by_cases hd : c.ndebug = false
      · refine ⟨fun hm => ?_, ?_⟩
        · have hm' : ¬ (a < 0 ∧ i = cMin 32) := fun h => hm ⟨hd, h.1, h.2, by simp⟩
          have h := int_add_si_exact_or_error_partial hv hd ha hi hm'
          refine ⟨fun hi => ?_, fun hi _ => ?_, fun _ h' => by simp [hd] at h'⟩
          · rcases h with h | h; exact h.2; exact absurd hi h.1
          · rcases h with h | h; exact absurd h.1 hi; exact h.2
        · rintro ⟨_, ha0, rfl, _⟩
          have hneg : ¬ fits 32 (- cMin 32) := by decide
          have hlt : cMin 32 < 0 := by decide
          have hdf : fits w (a - cMin w) := by
            rcases hw with rfl | rfl <;> simp only [fits, cMin, cMax] at ha' ⊢ <;> omega
          have e : add_si c p a (cMin 32) = (do
              let ni ← sarith c 32 (- cMin 32)
              if a - cMin w < ni then .err else sarith c w (a + cMin 32)) := by
            unfold add_si
            simp only [hk]
            rw [if_pos hd, if_neg (by omega), if_pos ⟨ha0, hlt⟩, sarith_of_fits hdf, Out.ok_bind]
          refine ⟨fun hc => ?_, fun hc => ?_⟩
          · rw [e, sarith_not_fits_iso hc hneg]; rfl
          · have hwr : wrap 32 (- cMin 32) = cMin 32 := by decide
            have hge : cMin w ≤ a := ha'.1
            have key : add_si c p a (cMin 32) = sarith c w (a + cMin 32) := by
              rw [e, sarith_not_fits_wrapv hc hneg, Out.ok_bind, hwr, if_neg (by omega)]
            rw [key, hin]
            exact ⟨sarith_of_fits, overflow_of hv hk⟩
      · have hd' : c.ndebug = true := by simpa using hd
        have key : add_si c p a i = sarith c w (a + i) := by
          unfold add_si; simp only [hk]; rw [if_neg hd]
        rw [key, hin]
        exact ⟨fun _ => ⟨sarith_of_fits, fun _ h => absurd h hd, fun h _ => overflow_of hv hk h⟩,
          fun h => absurd h.1 hd⟩

/-- C02, every case of `osl_int_sub`.  The second operand is negated first, so a least second
operand is undefined in ISO C whatever the first one; with wrapping arithmetic no error is then
reported (the result is still right when it is representable). -/
theorem int_sub_cases {c : Cfg} (hv : c.Valid) {p a b : Int} (ha : InPrec c p a)
    (hb : InPrec c p b) :
    (¬ IsMin c p b →
      (InPrec c p (a - b) → sub c p a b = .ok (a - b)) ∧
      (¬ InPrec c p (a - b) → c.ndebug = false → sub c p a b = .err) ∧
      (¬ InPrec c p (a - b) → c.ndebug = true → Overflow c p (a - b) (sub c p a b))) ∧
    (IsMin c p b →
      (c.wrapv = false → sub c p a b = .ub) ∧
      (c.wrapv = true → (InPrec c p (a - b) → sub c p a b = .ok (a - b)) ∧
        (¬ InPrec c p (a - b) → Overflow c p (a - b) (sub c p a b)))) := by
  cases hk : kind c p with
  | none => exact absurd hk ha.kind_ne_none
  | some k =>
    cases k with
    | mp =>
      have e : sub c p a b = .ok (a - b) := by unfold sub; rw [if_pos (kind_mp hk)]
      simp [e, InPrec, IsMin, hk]
    | fixed w =>
      have hw := kind_fixed hv hk
      have ha' : fits w a := by simpa [InPrec, hk] using ha
      have hb' : fits w b := by simpa [InPrec, hk] using hb
      have hin : InPrec c p (a - b) ↔ fits w (a - b) := by simp [InPrec, hk]
      have e : sub c p a b = sarith c w (-b) >>= fun mb => add c p a mb := by
        unfold sub init oppose; rw [if_neg (kind_not_mp hk)]; simp [hk]
      refine ⟨fun hm => ?_, ?_⟩
      · have hb0 : b ≠ cMin w := fun h => hm ⟨w, hk, h⟩
        have hf : fits w (-b) := by
          rcases hw with rfl | rfl <;> simp only [fits, cMin, cMax] at hb' hb0 ⊢ <;> omega
        have e' : sub c p a b = add c p a (-b) := by rw [e, sarith_of_fits hf]; rfl
        have hnm : ¬ (a < 0 ∧ IsMin c p (-b)) := by
          rintro ⟨_, w', hk', h⟩
          rw [hk] at hk'; injection hk' with hk'; injection hk' with hk'; subst hk'
          rcases hw with rfl | rfl <;> simp only [fits, cMin, cMax] at hb' hb0 h <;> omega
        have h := int_add_cases hv ha (b := -b) (by simpa [InPrec, hk] using hf)
        rw [← Int.sub_eq_add_neg] at h
        rw [e']
        exact ⟨h.1, fun h1 h2 => h.2.1 h1 h2 hnm, fun h1 h2 => h.2.2 h1 (.inl h2)⟩
      · rintro ⟨w', hk', rfl⟩
        rw [hk] at hk'; injection hk' with hk'; injection hk' with hk'; subst hk'
        have hneg : ¬ fits w (- cMin w) := by rcases hw with rfl | rfl <;> decide
        refine ⟨fun hc => by rw [e, sarith_not_fits_iso hc hneg]; rfl, fun hc => ?_⟩
        have hwr : wrap w (-cMin w) = cMin w := by rcases hw with rfl | rfl <;> decide
        have e' : sub c p a (cMin w) = add c p a (cMin w) := by
          rw [e, sarith_not_fits_wrapv hc hneg, hwr]; rfl
        have hmin : InPrec c p (cMin w) := by
          simp only [InPrec, hk]; rcases hw with rfl | rfl <;> decide
        have key : sub c p a (cMin w) = sarith c w (a - cMin w) := by
          rw [e', sarith_wrapv hc hw]
          have hwe : wrap w (a + cMin w) = wrap w (a - cMin w) := by
            rcases hw with rfl | rfl <;> simp only [wrap, cMin] <;> omega
          rw [← hwe, ← sarith_wrapv hc hw]
          unfold add
          simp only [hk]
          have hlt : cMin w < 0 := by rcases hw with rfl | rfl <;> decide
          split
          · rw [if_neg (by omega)]
            split
            · rename_i h2
              have hdf : fits w (a - cMin w) := by
                rcases hw with rfl | rfl <;> simp only [fits, cMin, cMax] at ha' ⊢ <;> omega
              have := ha'.1
              rw [sarith_of_fits hdf, Out.ok_bind, sarith_not_fits_wrapv hc hneg, Out.ok_bind, hwr,
                if_neg (by omega)]
            · rfl
          · rfl
        rw [key, hin]
        exact ⟨sarith_of_fits, overflow_of hv hk⟩

example : sub Cfg.std PREC_DP 0 (cMin 64) = .ub ∧ sub Cfg.std PREC_DP (cMin 64) 1 = .err ∧
    sub Cfg.std PREC_DP (-3) (-5) = .ok 2 := by decide

/-- C03, every case of `osl_int_mul` (and of `osl_int_mul_si`, `int_mul_si_eq_mul`): a
representable product is stored; otherwise undefined in ISO C; with wrapping arithmetic reported
in a debug build, except for the least value times -1, where the check itself divides the least
value by -1. -/
theorem int_mul_cases {c : Cfg} (hv : c.Valid) {p a b : Int} (ha : InPrec c p a)
    (hb : InPrec c p b) :
    (InPrec c p (a * b) → mul c p a b = .ok (a * b)) ∧
    (¬ InPrec c p (a * b) → c.wrapv = false → mul c p a b = .ub) ∧
    (¬ InPrec c p (a * b) → c.wrapv = true → c.ndebug = false →
      (IsMin c p a ∧ b = -1 → mul c p a b = .ub) ∧
      (¬ (IsMin c p a ∧ b = -1) → mul c p a b = .err)) ∧
    (¬ InPrec c p (a * b) → c.wrapv = true → c.ndebug = true →
      Overflow c p (a * b) (mul c p a b)) := by
  refine ⟨int_mul_exact hv ha hb, fun h hc => int_mul_overflow_is_ub hc ha h, fun h hc hd => ?_,
    fun h hc hd => ?_⟩
  · refine ⟨fun hm => ?_, fun hm => ?_⟩
    · obtain ⟨⟨w, hk, rfl⟩, rfl⟩ := hm
      have hw := kind_fixed hv hk
      have hn : ¬ fits w (cMin w * -1) := by rcases hw with rfl | rfl <;> decide
      have hwr : wrap w (cMin w * -1) = cMin w := by rcases hw with rfl | rfl <;> decide
      have h0 : cMin w ≠ 0 := by rcases hw with rfl | rfl <;> decide
      unfold mul
      simp only [hk]
      rw [sarith_not_fits_wrapv hc hn, Out.ok_bind, hwr, if_pos ⟨hd, h0, by decide⟩, sdiv_min hw]
      rfl
    · have := int_mul_exact_or_error_partial hv hd hc ha hb hm
      rcases this with h' | h'
      · exact absurd h'.1 h
      · exact h'.2
  · cases hk : kind c p with
    | none => exact absurd hk ha.kind_ne_none
    | some k =>
      cases k with
      | mp => simp [InPrec, hk] at h
      | fixed w =>
        have hn : ¬ fits w (a * b) := by simpa [InPrec, hk] using h
        have key : mul c p a b = sarith c w (a * b) := by
          unfold mul; simp only [hk]
          rw [sarith_not_fits_wrapv hc hn, Out.ok_bind, if_neg (by simp [hd])]
        rw [key]; exact overflow_of hv hk hn

/-- C04, every case of `osl_int_floor_div_q`: undefined for a zero divisor and for the least value
by -1 (whose quotient is not representable), the floor otherwise. -/
theorem int_floor_div_q_cases {c : Cfg} (hv : c.Valid) {p a b : Int} (ha : InPrec c p a) :
    (b = 0 ∨ (IsMin c p a ∧ b = -1) → floor_div_q c p a b = .ub) ∧
    (¬ (b = 0 ∨ (IsMin c p a ∧ b = -1)) →
      ∃ q r, floor_div_q c p a b = .ok q ∧ FloorQR a b q r) := by
  refine ⟨?_, fun h => int_floor_div_q_correct hv ha (fun e => h (.inl e)) (fun e => h (.inr e))⟩
  rintro (rfl | ⟨⟨w, hk, rfl⟩, rfl⟩)
  · exact (int_floor_div_zero ha).1
  · unfold floor_div_q; simp only [hk, sdiv_min (kind_fixed hv hk)]; rfl

/-- C04, every case of the floor remainder in ISO C: besides the two cases of the quotient it is
undefined exactly when the intermediate product `b * floor(a / b)` is not representable. -/
theorem int_floor_div_r_cases {c : Cfg} (hv : c.Valid) (hc : c.wrapv = false) {p a b : Int}
    (ha : InPrec c p a) (hb : InPrec c p b) :
    (b = 0 ∨ (IsMin c p a ∧ b = -1) →
      floor_div_r c p a b = .ub ∧ floor_div_q_r c p a b = .ub) ∧
    (¬ (b = 0 ∨ (IsMin c p a ∧ b = -1)) → ∀ q r, FloorQR a b q r →
      (InPrec c p (b * q) → floor_div_r c p a b = .ok r ∧ floor_div_q_r c p a b = .ok (q, r)) ∧
      (¬ InPrec c p (b * q) → floor_div_r c p a b = .ub ∧ floor_div_q_r c p a b = .ub)) := by
  refine ⟨?_, fun h q r hs => ?_⟩
  · rintro (rfl | ⟨⟨w, hk, rfl⟩, rfl⟩)
    · exact (int_floor_div_zero ha).2
    · have := (int_floor_div_q_cases hv ha (b := -1)).1 (.inr ⟨⟨w, hk, rfl⟩, rfl⟩)
      unfold floor_div_r floor_div_q_r
      simp only [hk, this]; exact ⟨rfl, rfl⟩
  · have hb0 : b ≠ 0 := fun e => h (.inl e)
    have hm : ¬ (IsMin c p a ∧ b = -1) := fun e => h (.inr e)
    have hbq : b * q = a - r := by have := hs.1; omega
    have hr : InPrec c p r := by
      cases hk : kind c p with
      | none => exact absurd hk ha.kind_ne_none
      | some k =>
        cases k with
        | mp => simp [InPrec, hk]
        | fixed w =>
          have hw := kind_fixed hv hk
          simp only [InPrec, hk] at hb ⊢
          have h1 := hs.2.1; have h2 := hs.2.2
          rcases hw with rfl | rfl <;> simp only [fits, cMin, cMax] at hb ⊢ <;> omega
    refine ⟨fun hi => int_floor_div_r_correct_partial hv ha hb0 hm hs hr (hbq ▸ hi), fun hi => ?_⟩
    obtain ⟨rfl, rfl⟩ := floorQR_unique hb0 hs (floorQR_fdiv a b hb0)
    have hq := floor_div_q_eq hv ha hb0 hm
    cases hk : kind c p with
    | none => exact absurd hk ha.kind_ne_none
    | some k =>
      cases k with
      | mp => simp [InPrec, hk] at hi
      | fixed w =>
        simp only [InPrec, hk] at hi
        rw [Int.mul_comm] at hi
        unfold floor_div_r floor_div_q_r
        simp only [hk, hq, Out.ok_bind, sarith_not_fits_iso hc hi]
        exact ⟨rfl, rfl⟩

/-- C05, every case of `osl_int_mod`. -/
theorem int_mod_cases {c : Cfg} (hv : c.Valid) {p a b : Int} (ha : InPrec c p a)
    (hb : InPrec c p b) :
    (b = 0 ∨ (IsMin c p a ∧ b = -1) ∨ (IsMin c p b ∧ a < 0 ∧ a ≠ b) → mod c p a b = .ub) ∧
    (¬ (b = 0 ∨ (IsMin c p a ∧ b = -1) ∨ (IsMin c p b ∧ a < 0 ∧ a ≠ b)) →
      ∃ r, mod c p a b = .ok r ∧ 0 ≤ r ∧ r < b.natAbs ∧ b ∣ (a - r)) := by
  refine ⟨?_, fun h => ?_⟩
  · rintro (rfl | ⟨⟨w, hk, rfl⟩, rfl⟩ | ⟨⟨w, hk, rfl⟩, h0, h1⟩)
    · unfold mod
      cases hk : kind c p with
      | none => exact absurd hk ha.kind_ne_none
      | some k => cases k <;> simp [smod]
    · unfold mod; simp only [hk, smod_min (kind_fixed hv hk)]; rfl
    · have hw := kind_fixed hv hk
      have ha' : fits w a := by simpa [InPrec, hk] using ha
      have hm0 : cMin w ≠ 0 := by rcases hw with rfl | rfl <;> decide
      have hm1 : cMin w ≠ -1 := by rcases hw with rfl | rfl <;> decide
      have hlt : a.natAbs < (cMin w).natAbs := by
        rcases hw with rfl | rfl <;> simp only [fits, cMin, cMax] at ha' h1 ⊢ <;> omega
      have hmod : a.tmod (cMin w) = a := by
        have e1 : (a.tmod (cMin w)).natAbs = a.natAbs := by
          rw [Int.natAbs_tmod]; exact Nat.mod_eq_of_lt hlt
        obtain ⟨r, _, h2, _, _, h5⟩ := tdiv_spec a (cMin w) hm0
        have := h5 (by omega)
        omega
      have hab : ¬ fits w ((cMin w).natAbs : Int) := by rcases hw with rfl | rfl <;> decide
      unfold mod
      simp only [hk, smod_ok hw ha' hm0 (fun h => hm1 h.2), Out.ok_bind, hmod]
      rw [if_pos h0]
      simp [sabs, hab]
  · by_cases hs : IsMin c p b ∧ a < 0
    · have e : a = b := by
        apply Classical.byContradiction; intro hne; exact h (.inr (.inr ⟨hs.1, hs.2, hne⟩))
      subst e
      obtain ⟨⟨w, hk, rfl⟩, _⟩ := hs
      have hw := kind_fixed hv hk
      refine ⟨0, ?_, by omega, ?_, by simp⟩
      · unfold mod
        have e : smod w (cMin w) (cMin w) = .ok 0 := by rcases hw with rfl | rfl <;> decide
        simp only [hk, e, Out.ok_bind]
        rfl
      · rcases hw with rfl | rfl <;> decide
    · exact int_mod_correct_partial hv ha hb (fun e => h (.inl e)) (fun e => h (.inr (.inl e))) hs

/-- C05, every case of `osl_int_divisible`. -/
theorem int_divisible_cases {c : Cfg} (hv : c.Valid) {p a b : Int} (ha : InPrec c p a) :
    ((b = 0 ∧ kind c p ≠ some .mp) ∨ (IsMin c p a ∧ b = -1) → divisible c p a b = .ub) ∧
    (¬ ((b = 0 ∧ kind c p ≠ some .mp) ∨ (IsMin c p a ∧ b = -1)) →
      divisible c p a b = .ok (decide (b ∣ a))) := by
  refine ⟨?_, fun h => ?_⟩
  · rintro (⟨rfl, hn⟩ | ⟨⟨w, hk, rfl⟩, rfl⟩)
    · unfold divisible
      cases hk : kind c p with
      | none => exact absurd hk ha.kind_ne_none
      | some k =>
        cases k with
        | mp => exact absurd hk hn
        | fixed w => simp [smod]
    · unfold divisible; simp only [hk, smod_min (kind_fixed hv hk)]; rfl
  · by_cases hb : b = 0
    · subst hb
      have hk : kind c p = some .mp := by
        apply Classical.byContradiction; intro hne; exact h (.inl ⟨rfl, hne⟩)
      unfold divisible
      simp only [hk, if_true]
      congr 1
      apply decide_eq_decide.mpr
      exact Int.zero_dvd.symm
    · exact int_divisible_iff hv ha hb (fun e => h (.inr e))

/-- C05, every case of `osl_int_div_exact`: undefined for a zero divisor, an unrepresentable
quotient, and (multiple precision only) a division which is not exact; in fixed precision an
inexact division is truncated towards zero. -/
theorem int_div_exact_cases {c : Cfg} (hv : c.Valid) {p a b : Int} (ha : InPrec c p a) :
    (b = 0 ∨ (IsMin c p a ∧ b = -1) ∨ (kind c p = some .mp ∧ ¬ b ∣ a) →
      div_exact c p a b = .ub) ∧
    (¬ (b = 0 ∨ (IsMin c p a ∧ b = -1) ∨ (kind c p = some .mp ∧ ¬ b ∣ a)) →
      ∃ q r, div_exact c p a b = .ok q ∧ a = b * q + r ∧ r.natAbs < b.natAbs ∧
        (0 ≤ a → 0 ≤ r) ∧ (a ≤ 0 → r ≤ 0) ∧ (b ∣ a → r = 0)) := by
  refine ⟨?_, fun h => ?_⟩
  · unfold div_exact
    rintro (rfl | ⟨⟨w, hk, rfl⟩, rfl⟩ | ⟨hk, hn⟩)
    · cases hk : kind c p with
      | none => exact absurd hk ha.kind_ne_none
      | some k => cases k <;> simp [sdiv]
    · simp only [hk, sdiv_min (kind_fixed hv hk)]
    · simp only [hk]
      split
      · rfl
      · rw [if_neg (fun e => hn (Int.dvd_iff_tmod_eq_zero.mpr e))]
  · have hb : b ≠ 0 := fun e => h (.inl e)
    obtain ⟨r, h1, h2, h3, h4, h5⟩ := tdiv_spec a b hb
    refine ⟨a.tdiv b, r, ?_, h1, h3, h4, h5, fun hd => ?_⟩
    · unfold div_exact
      cases hk : kind c p with
      | none => exact absurd hk ha.kind_ne_none
      | some k =>
        cases k with
        | mp =>
          have hd : b ∣ a := by
            apply Classical.byContradiction; intro hne; exact h (.inr (.inr ⟨hk, hne⟩))
          simp [hb, Int.dvd_iff_tmod_eq_zero.mp hd]
        | fixed w =>
          have ha' : fits w a := by simpa [InPrec, hk] using ha
          exact sdiv_ok (kind_fixed hv hk) ha' hb (fun e => h (.inr (.inl ⟨⟨w, hk, e.1⟩, e.2⟩)))
    · rw [← h2]; exact Int.dvd_iff_tmod_eq_zero.mp hd

/-- C09, every case of negation and absolute value. -/
theorem int_oppose_abs_cases {c : Cfg} (hv : c.Valid) {p a : Int} (ha : InPrec c p a) :
    (¬ IsMin c p a → oppose c p a = .ok (-a) ∧ abs c p a = .ok (a.natAbs : Int)) ∧
    (IsMin c p a → Overflow c p (-a) (oppose c p a) ∧ Overflow c p (-a) (abs c p a)) := by
  refine ⟨int_oppose_abs_correct hv ha, ?_⟩
  rintro ⟨w, hk, rfl⟩
  have hw := kind_fixed hv hk
  have hn : ¬ fits w (-cMin w) := by rcases hw with rfl | rfl <;> decide
  have hneg : ¬ cMin w > 0 := by rcases hw with rfl | rfl <;> decide
  constructor
  · unfold oppose; simp only [hk]; exact overflow_of hv hk hn
  · unfold abs; simp only [hk, if_neg hneg]; exact overflow_of hv hk hn

/-! ## C06: gcd and lcm with any operands -/

/-- One step of Euclid's algorithm (source/int.c:1131-1133). -/
theorem llgcd_step {a b m : Int} (hb : b ≠ 0) (h : smod 64 a b = .ok m) :
    llgcd a b = llgcd b m := by
  rw [llgcd.eq_def a b, dif_neg hb]
  split
  · rename_i m' h'; rw [h] at h'; injection h' with h'; rw [h']
  · rename_i h'; rw [h] at h'; cases h'
  · rename_i h'; rw [h] at h'; cases h'

theorem llgcd_ub {a b : Int} (hb : b ≠ 0) (h : smod 64 a b = .ub) : llgcd a b = .ub := by
  rw [llgcd.eq_def a b, dif_neg hb]
  split
  · rename_i m' h'; rw [h] at h'; cases h'
  · rename_i h'; rw [h] at h'; cases h'
  · rfl

theorem llgcd_zero (a : Int) : llgcd a 0 = .ok a := by
  rw [llgcd.eq_def a 0, dif_pos rfl]

/-- A remainder is smaller than the divisor, hence never the least value. -/
theorem tmod_small {a b : Int} (hb : fits 64 b) (h0 : b ≠ 0) :
    fits 64 (a.tmod b) ∧ a.tmod b ≠ cMin 64 := by
  obtain ⟨r, _, h2, h3, _, _⟩ := tdiv_spec a b h0
  rw [h2]
  simp only [fits, cMin, cMax] at hb ⊢
  omega

/-- Euclid's algorithm on all pairs of `long long int`: undefined exactly for the least value and
-1, in either order. -/
theorem llgcd_cases {a b : Int} (ha : fits 64 a) (hb : fits 64 b) :
    ((a = cMin 64 ∧ b = -1) ∨ (a = -1 ∧ b = cMin 64) → llgcd a b = .ub) ∧
    (¬ ((a = cMin 64 ∧ b = -1) ∨ (a = -1 ∧ b = cMin 64)) →
      ∃ g, llgcd a b = .ok g ∧ g.natAbs = Int.gcd a b) := by
  have hm0 : cMin 64 ≠ 0 := by decide
  -- the least value first
  have first : ∀ x, fits 64 x → x ≠ -1 →
      ∃ g, llgcd (cMin 64) x = .ok g ∧ g.natAbs = Int.gcd (cMin 64) x := by
    intro x hx h1
    by_cases hx0 : x = 0
    · subst hx0; exact ⟨_, llgcd_zero _, by simp [Int.gcd]⟩
    · have hs : smod 64 (cMin 64) x = .ok ((cMin 64).tmod x) :=
        smod_ok (.inr rfl) (by decide) hx0 (fun h => h1 h.2)
      obtain ⟨hf, hne⟩ := tmod_small (a := cMin 64) hx hx0
      rw [llgcd_step hx0 hs]
      have hg : Int.gcd x ((cMin 64).tmod x) = Int.gcd (cMin 64) x := by
        rw [Int.gcd_comm (cMin 64) x]
        simp only [Int.gcd, Int.natAbs_tmod]
        rw [Nat.gcd_rec x.natAbs (cMin 64).natAbs]; exact Nat.gcd_comm _ _
      by_cases hxm : x = cMin 64
      · subst hxm
        have e : (cMin 64).tmod (cMin 64) = 0 := by decide
        rw [e]
        exact ⟨_, llgcd_zero _, by simp [Int.gcd]⟩
      · obtain ⟨g, h3, h4⟩ := llgcd_correct x _ hx hf hxm hne
        exact ⟨g, h3, h4.trans hg⟩
  refine ⟨?_, fun h => ?_⟩
  · rintro (⟨rfl, rfl⟩ | ⟨rfl, rfl⟩)
    · exact llgcd_ub (by decide) (smod_min (.inr rfl))
    · have hs : smod 64 (-1) (cMin 64) = .ok (-1) := by decide
      rw [llgcd_step hm0 hs]
      exact llgcd_ub (by decide) (smod_min (.inr rfl))
  · by_cases ham : a = cMin 64
    · subst ham
      exact first b hb (fun e => h (.inl ⟨rfl, e⟩))
    · by_cases hbm : b = cMin 64
      · subst hbm
        have hmod : a.tmod (cMin 64) = a := by
          have hlt : a.natAbs < (cMin 64).natAbs := by
            simp only [fits, cMin, cMax] at ha ham ⊢; omega
          have e1 : (a.tmod (cMin 64)).natAbs = a.natAbs := by
            rw [Int.natAbs_tmod]; exact Nat.mod_eq_of_lt hlt
          obtain ⟨r, _, h2, _, h4, h5⟩ := tdiv_spec a (cMin 64) hm0
          omega
        have hs : smod 64 a (cMin 64) = .ok a := by
          rw [smod_ok (.inr rfl) ha hm0 (fun h => ham h.1), hmod]
        rw [llgcd_step hm0 hs]
        obtain ⟨g, h3, h4⟩ := first a ha (fun e => h (.inr ⟨e, rfl⟩))
        exact ⟨g, h3, h4.trans (Int.gcd_comm _ _)⟩
      · exact llgcd_correct a b ha hb ham hbm

/-- C06, every case of `osl_int_gcd`: the greatest common divisor, undefined exactly when it is
not representable (it is `2 ^ (w - 1)`: both operands zero or least, not both zero) and, at 64
bits, for the least value and -1. -/
theorem int_gcd_cases {c : Cfg} (hv : c.Valid) {p a b : Int} (ha : InPrec c p a)
    (hb : InPrec c p b) :
    (¬ InPrec c p (Int.gcd a b) ∨
      (kind c p = some (.fixed 64) ∧ ((a = cMin 64 ∧ b = -1) ∨ (a = -1 ∧ b = cMin 64))) →
      gcd c p a b = .ub) ∧
    (¬ (¬ InPrec c p (Int.gcd a b) ∨
      (kind c p = some (.fixed 64) ∧ ((a = cMin 64 ∧ b = -1) ∨ (a = -1 ∧ b = cMin 64)))) →
      ∃ g, gcd c p a b = .ok g ∧ 0 ≤ g ∧ g ∣ a ∧ g ∣ b ∧ ∀ d, d ∣ a → d ∣ b → d ∣ g) := by
  have goodAll : gcd c p a b = .ok (Int.gcd a b : Int) →
      ∃ g, gcd c p a b = .ok g ∧ 0 ≤ g ∧ g ∣ a ∧ g ∣ b ∧ ∀ d, d ∣ a → d ∣ b → d ∣ g :=
    fun e => ⟨_, e, by omega, Int.gcd_dvd_left .., Int.gcd_dvd_right ..,
      fun _ h1 h2 => Int.dvd_coe_gcd h1 h2⟩
  cases hk : kind c p with
  | none => exact absurd hk ha.kind_ne_none
  | some k =>
    cases k with
    | mp =>
      have e : gcd c p a b = .ok (Int.gcd a b : Int) := by unfold gcd; simp only [hk]
      have hi : InPrec c p (Int.gcd a b) := by simp [InPrec, hk]
      refine ⟨?_, fun _ => goodAll e⟩
      rintro (h | h)
      · exact absurd hi h
      · cases h.1
    | fixed w =>
      have hw := kind_fixed hv hk
      have ha' : fits w a := by simpa [InPrec, hk] using ha
      have hb' : fits w b := by simpa [InPrec, hk] using hb
      have ha64 : fits 64 a := by
        rcases hw with rfl | rfl <;> simp only [fits, cMin, cMax] at ha' ⊢ <;> omega
      have hb64 : fits 64 b := by
        rcases hw with rfl | rfl <;> simp only [fits, cMin, cMax] at hb' ⊢ <;> omega
      have hin : InPrec c p (Int.gcd a b) ↔ fits w (Int.gcd a b : Int) := by simp [InPrec, hk]
      have hll := llgcd_cases ha64 hb64
      -- the absolute value of the result of Euclid's algorithm
      have habs : ∀ g : Int, g.natAbs = Int.gcd a b → llgcd a b = .ok g →
          gcd c p a b = sabs w g := by
        intro g hg hl
        have hle : Int.gcd a b ≤ 2 ^ (w - 1) := by
          by_cases ha0 : a = 0
          · subst ha0
            rw [Int.gcd_zero_left]
            rcases hw with rfl | rfl <;> simp only [fits, cMin, cMax] at hb' ⊢ <;> omega
          · have h1 : Int.gcd a b ≤ a.natAbs := Nat.le_of_dvd (by omega) (Nat.gcd_dvd_left _ _)
            rcases hw with rfl | rfl <;> simp only [fits, cMin, cMax] at ha' ⊢ <;> omega
        have hsame : sabs w (wrap w g) = sabs w g := by
          by_cases hf : fits w g
          · rw [wrap_of_fits hw hf]
          · have hg2 : g = 2 ^ (w - 1) := by
              rcases hw with rfl | rfl <;> simp only [fits, cMin, cMax] at hf hle ⊢ <;> omega
            rw [hg2]; rcases hw with rfl | rfl <;> decide
        unfold gcd; simp only [hk, hl, Out.ok_bind, hsame]
      refine ⟨?_, fun h => ?_⟩
      · intro h
        by_cases hx : (a = cMin 64 ∧ b = -1) ∨ (a = -1 ∧ b = cMin 64)
        · unfold gcd; simp only [hk, hll.1 hx]; rfl
        · obtain ⟨g, hl, hg⟩ := hll.2 hx
          rw [habs g hg hl]
          have hn : ¬ fits w (Int.gcd a b : Int) := by
            rcases h with h | h
            · exact fun e => h (hin.mpr e)
            · exact absurd h.2 hx
          simp [sabs, hg, hn]
      · have hx : ¬ ((a = cMin 64 ∧ b = -1) ∨ (a = -1 ∧ b = cMin 64)) := by
          intro hx
          rcases hw with rfl | rfl
          · simp only [fits, cMin, cMax] at ha' hb' hx; omega
          · exact h (.inr ⟨hk ▸ rfl, hx⟩)
        obtain ⟨g, hl, hg⟩ := hll.2 hx
        have hf : fits w (Int.gcd a b : Int) :=
          Classical.byContradiction fun e => h (.inl fun e' => e (hin.mp e'))
        apply goodAll
        rw [habs g hg hl]
        simp [sabs, hg, hf]

/-- C06, every case of `osl_int_lcm` in ISO C: the least common multiple, undefined exactly for a
least operand and for an unrepresentable result. -/
theorem int_lcm_cases {c : Cfg} (hv : c.Valid) (hc : c.wrapv = false) {p a b : Int}
    (ha : InPrec c p a) (hb : InPrec c p b) :
    (IsMin c p a ∨ IsMin c p b ∨ ¬ InPrec c p (Int.lcm a b) → lcm c p a b = .ub) ∧
    (¬ (IsMin c p a ∨ IsMin c p b ∨ ¬ InPrec c p (Int.lcm a b)) →
      lcm c p a b = .ok (Int.lcm a b : Int)) := by
  refine ⟨?_, fun h => int_lcm_correct_partial hv ha hb (fun e => h (.inl e))
    (fun e => h (.inr (.inl e))) (Classical.byContradiction fun e => h (.inr (.inr e)))⟩
  intro h
  have hinit : init c p = .ok 0 := by
    unfold init
    cases hk : kind c p with
    | none => exact absurd hk ha.kind_ne_none
    | some k => rfl
  have hmin : ∀ x, IsMin c p x → abs c p x = .ub := by
    rintro x ⟨w, hk, rfl⟩
    have hw := kind_fixed hv hk
    have hn : ¬ fits w (-cMin w) := by rcases hw with rfl | rfl <;> decide
    have hneg : ¬ cMin w > 0 := by rcases hw with rfl | rfl <;> decide
    unfold abs; simp only [hk, if_neg hneg, sarith_not_fits_iso hc hn]
  unfold lcm
  by_cases hma : IsMin c p a
  · simp only [hinit, Out.ok_bind, hmin a hma]; rfl
  · have hpa := (int_oppose_abs_correct hv ha hma).2
    by_cases hmb : IsMin c p b
    · simp only [hinit, Out.ok_bind, hpa, hmin b hmb]; rfl
    · have hpb := (int_oppose_abs_correct hv hb hmb).2
      have hl : ¬ InPrec c p (Int.lcm a b) := by
        rcases h with h | h | h
        · exact absurd h hma
        · exact absurd h hmb
        · exact h
      cases hk : kind c p with
      | none => exact absurd hk ha.kind_ne_none
      | some k =>
        cases k with
        | mp => exact absurd (by simp [InPrec, hk]) hl
        | fixed w =>
          have hw := kind_fixed hv hk
          have ha' : fits w a := by simpa [InPrec, hk] using ha
          have hb' : fits w b := by simpa [InPrec, hk] using hb
          have hma' : a ≠ cMin w := fun e => hma ⟨w, hk, e⟩
          have hmb' : b ≠ cMin w := fun e => hmb ⟨w, hk, e⟩
          have hna : InPrec c p (a.natAbs : Int) ∧ ¬ IsMin c p (a.natAbs : Int) := by
            constructor
            · simp only [InPrec, hk]
              rcases hw with rfl | rfl <;> simp only [fits, cMin, cMax] at ha' hma' ⊢ <;> omega
            · rintro ⟨w', hk', e⟩
              have : 0 < -cMin w' := by
                have := kind_fixed hv hk'
                rcases this with rfl | rfl <;> decide
              omega
          have hnb : InPrec c p (b.natAbs : Int) ∧ ¬ IsMin c p (b.natAbs : Int) := by
            constructor
            · simp only [InPrec, hk]
              rcases hw with rfl | rfl <;> simp only [fits, cMin, cMax] at hb' hmb' ⊢ <;> omega
            · rintro ⟨w', hk', e⟩
              have : 0 < -cMin w' := by
                have := kind_fixed hv hk'
                rcases this with rfl | rfl <;> decide
              omega
          have hg := gcd_eq hv hna.1 hnb.1 hna.2 hnb.2
          have hgg : Int.gcd (a.natAbs : Int) (b.natAbs : Int) = Int.gcd a b := by simp [Int.gcd]
          rw [hgg] at hg
          have hg0 : Int.gcd a b ≠ 0 := by
            intro e
            have := Int.gcd_eq_zero_iff.mp e
            apply hl
            rw [this.1]
            simp only [InPrec, hk, Int.lcm_zero_left]
            rcases hw with rfl | rfl <;> decide
          have hz : zero c p (Int.gcd a b : Int) = .ok false := by
            unfold zero; simp only [hk]
            congr 1
            exact decide_eq_false (by omega)
          have hdv : (Int.gcd a b : Int) ∣ (a.natAbs : Int) :=
            Int.natCast_dvd_natCast.mpr (Nat.gcd_dvd_left _ _)
          obtain ⟨q, hq⟩ := hdv
          have hq' : (a.natAbs : Int) = q * (Int.gcd a b : Int) := by rw [hq, Int.mul_comm]
          have hqf : InPrec c p q := by
            have h1 := hna.1
            simp only [InPrec, hk] at h1 ⊢
            have hq1 : q.natAbs ≤ a.natAbs := by
              have e := congrArg Int.natAbs hq'
              rw [Int.natAbs_mul, Int.natAbs_natCast, Int.natAbs_natCast] at e
              rw [e]; exact Nat.le_mul_of_pos_right _ (by omega)
            rcases hw with rfl | rfl <;> simp only [fits, cMin, cMax] at h1 ⊢ <;> omega
          have hde : div_exact c p (a.natAbs : Int) (Int.gcd a b : Int) = .ok q := by
            rw [hq']; exact int_div_exact_correct (by omega) hqf
          have hlcm : q * (b.natAbs : Int) = (Int.lcm a b : Int) := by
            have h1 : (Int.gcd a b : Int) * (Int.lcm a b : Int) =
                (a.natAbs : Int) * (b.natAbs : Int) := by
              have := Nat.gcd_mul_lcm a.natAbs b.natAbs
              exact_mod_cast this
            rw [hq'] at h1
            have h2 : (Int.gcd a b : Int) * (Int.lcm a b : Int) =
                (Int.gcd a b : Int) * (q * (b.natAbs : Int)) := by
              rw [h1, Int.mul_comm q, Int.mul_assoc]
            exact (Int.eq_of_mul_eq_mul_left (by omega) h2).symm
          have hmul : mul c p q (b.natAbs : Int) = .ub :=
            int_mul_overflow_is_ub hc hqf (by rw [hlcm]; exact hl)
          simp only [hinit, Out.ok_bind, hpa, hpb, hg, hz, hde, hmul]
          rfl

/-! ## C07, C08, C09 -/

/-- C07, every case of the order tests: they decide the order of the values, except in double
precision when `long int` is narrower than `long long int`, where they decide the order of the
values reduced to `long int`. -/
theorem int_order_cases {c : Cfg} (hv : c.Valid) {p a b : Int} (ha : InPrec c p a)
    (hb : InPrec c p b) :
    ∃ f : Int → Int, (c.longBits = 64 ∨ p ≠ PREC_DP → f = id) ∧
      (c.longBits = 32 ∧ p = PREC_DP → ∀ x, fits 32 (f x) ∧ ∃ k, f x = x + k * 2 ^ 32) ∧
      lt c p a b = .ok (decide (f a < f b)) ∧ le c p a b = .ok (decide (f a ≤ f b)) ∧
      gt c p a b = .ok (decide (f a > f b)) ∧ ge c p a b = .ok (decide (f a ≥ f b)) := by
  by_cases h : c.longBits = 64 ∨ p ≠ PREC_DP
  · refine ⟨id, fun _ => rfl, ?_, int_order_correct_partial hv ha hb h⟩
    rintro ⟨h1, h2⟩
    rcases h with h | h
    · omega
    · exact absurd h2 h
  · have hp : p = PREC_DP := Classical.byContradiction fun e => h (.inr e)
    have hl : c.longBits = 32 := by
      rcases hv with hv | hv
      · exact hv
      · exact absurd (.inl hv) h
    refine ⟨wrap 32, fun h' => absurd h' h, fun _ x => ⟨wrap_fits (.inl rfl) x, wrap_eq x⟩, ?_⟩
    subst hp
    have key : ∀ rel, cmpSp c PREC_DP rel a b = .ok (rel (wrap 32 a) (wrap 32 b)) := by
      intro rel; unfold cmpSp viewSp; rw [if_neg (by decide), if_pos rfl, hl]
    exact ⟨key _, key _, key _, key _⟩

/-- C08, every case of `osl_int_set_precision` between different supported precisions: the value
goes through a C `int`.  In a debug build other values are reported; with NDEBUG they are replaced
by another one, an `int` (in fixed precision, by the value modulo `2 ^ 32`). -/
theorem int_set_precision_cases {c : Cfg} (hv : c.Valid) {p np v : Int} (hi : InPrec c p v)
    (hnp : (kind c np).isSome) :
    (p = np → set_precision c p np v = .ok v) ∧
    (p ≠ np → fits 32 v → set_precision c p np v = .ok v) ∧
    (p ≠ np → ¬ fits 32 v → c.ndebug = false → set_precision c p np v = .err) ∧
    (p ≠ np → ¬ fits 32 v → c.ndebug = true → ∃ r, set_precision c p np v = .ok r ∧ r ≠ v ∧
      fits 32 r ∧ (kind c p ≠ some .mp → ∃ k, r = v + k * 2 ^ 32)) := by
  obtain ⟨k2, hk2⟩ := Option.isSome_iff_exists.mp hnp
  have hset : ∀ x, init_set_si c np x = .ok x := by intro x; simp [init_set_si, hk2]
  refine ⟨fun h => by simp [set_precision, h], fun hne hf => ?_, fun hne hf hd => ?_,
    fun hne hf hd => ?_⟩
  · unfold set_precision
    rw [if_pos hne]
    have hw32 := wrap_of_fits (.inl rfl) hf
    have hfl : fits c.longBits v := by
      rcases hv with h | h <;> rw [h]
      · exact hf
      · simp only [fits, cMin, cMax] at hf ⊢; omega
    have hg : get_si c p v = .ok v := by
      unfold get_si
      have h1 := hf.1; have h2 := hf.2
      cases hk : kind c p with
      | none => exact absurd hk hi.kind_ne_none
      | some k =>
        cases k with
        | mp =>
          simp only
          rw [if_neg (fun h => h.2 hf)]
          simp [mpz_get_si, hfl, hw32]
        | fixed w =>
          simp only
          rw [if_neg (by omega), if_neg (by omega), hw32]
    rw [hg]; exact hset v
  · rw [int_set_precision_debug hv hd hi hnp hne, if_neg hf]
  · unfold set_precision
    rw [if_pos hne]
    cases hk : kind c p with
    | none => exact absurd hk hi.kind_ne_none
    | some k =>
      have hnd : ¬ c.ndebug = false := by simp [hd]
      cases k with
      | mp =>
        refine ⟨wrap 32 (mpz_get_si c v), ?_, ?_, wrap_fits (.inl rfl) _, fun h => absurd rfl h⟩
        · unfold get_si
          simp only [hk]
          rw [if_neg (fun h => hnd h.1)]
          exact hset _
        · intro e; exact hf (e ▸ wrap_fits (.inl rfl) _)
      | fixed w =>
        refine ⟨wrap 32 v, ?_, ?_, wrap_fits (.inl rfl) _, fun _ => wrap_eq v⟩
        · unfold get_si
          simp only [hk]
          rw [if_neg (fun h => hnd h.1), if_neg (fun h => hnd h.1)]
          exact hset _
        · intro e; exact hf (e ▸ wrap_fits (.inl rfl) _)

/-- C09, the least `long long int` has no size: `llabs` is undefined. -/
theorem int_size_min_ub {c : Cfg} {p : Int} {w : Nat} (hk : kind c p = some (.fixed w)) :
    size_in_base_2 c p (cMin 64) = .ub ∧ size_in_base_10 c p (cMin 64) = .ub := by
  unfold size_in_base_2 size_in_base_10
  simp only [hk]
  have : sabs 64 (cMin 64) = .ub := by decide
  rw [this]; exact ⟨rfl, rfl⟩

end OInt
end Osl
