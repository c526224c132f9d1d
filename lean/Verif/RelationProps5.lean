import Verif.RelationProps4
/-!
# Properties C21 (array identifier), C22 (integrity), C23 (attributes) and C27 (type)
-/

namespace Osl
namespace Rel
open OInt

/-! ## C21: array identifier -/

/-- Spec: the constraints of the part fix the first output dimension to the constant `k` in the
only way the library recognises: exactly one row involves the first output dimension, and it is
the equality `a*x1 + b = 0` with no other dimension, where `a*k + b = 0`. -/
def FixesFirst (p : Part) (k : Int) : Prop :=
  3 ≤ p.nb_columns ∧ ∃ (i : Nat) (h : i < p.m.length) (a b : Int), a ≠ 0 ∧
    p.m[i] = [0, a] ++ List.replicate (p.nb_columns - 3).toNat 0 ++ [b] ∧ a * k + b = 0 ∧
    ∀ (j : Nat) (h' : j < p.m.length), j ≠ i → (p.m[j][1]?).getD 0 = 0

/-- All entries are in the range of a C `int` (`INT_MIN` excluded, whose opposite is not). -/
def IntEntries (p : Part) : Prop := ∀ row ∈ p.m, ∀ a ∈ row, fits 32 a ∧ a ≠ cMin 32

theorem inPrec_of_fits32 {c : Cfg} (hv : c.Valid) {p a : Int} (hk : kind c p ≠ none) (h : fits 32 a) : InPrec c p a := by
  obtain ⟨k, hk'⟩ := Option.ne_none_iff_exists'.mp hk
  unfold InPrec
  rw [hk']
  cases k with
  | mp => trivial
  | fixed w =>
    rcases kind_fixed hv hk' with rfl | rfl
    · exact h
    · simp only [fits, cMin, cMax] at h ⊢; omega

theorem arrayIdRows_spec {c : Cfg} {p : Part} (h : p.WF c) (hc : 2 ≤ p.nb_columns) (row0 : Int) :
    ∃ n i, arrayIdRows c p row0 = .ok (n, i) ∧
      ((n = 0 ∧ ∀ x, 0 ≤ x → x < p.nb_rows → cell p.m x 1 = 0) ∨
       (n = 1 ∧ 0 ≤ i ∧ i < p.nb_rows ∧ cell p.m i 1 ≠ 0 ∧ ∀ x, 0 ≤ x → x < p.nb_rows → x ≠ i → cell p.m x 1 = 0) ∨
       (2 ≤ n ∧ ∃ i j, i ≠ j ∧ 0 ≤ i ∧ i < p.nb_rows ∧ 0 ≤ j ∧ j < p.nb_rows ∧ cell p.m i 1 ≠ 0 ∧ cell p.m j 1 ≠ 0)) := by
  obtain ⟨k, hk⟩ := Option.ne_none_iff_exists'.mp h.prec
  unfold arrayIdRows
  obtain ⟨s, e, hinv, _⟩ := loop_rule (body := fun i (s : Int × Int) => do
      let a ← get2 p.m i 1
      let z ← OInt.zero c p.precision a
      return (if z then s else (s.1 + 1, i))) (lo := 0) (hi := p.nb_rows) (s := (0, row0))
    (fun x s => (s.1 = 0 ∧ ∀ y, 0 ≤ y → y < x → cell p.m y 1 = 0) ∨
       (s.1 = 1 ∧ 0 ≤ s.2 ∧ s.2 < x ∧ cell p.m s.2 1 ≠ 0 ∧ ∀ y, 0 ≤ y → y < x → y ≠ s.2 → cell p.m y 1 = 0) ∨
       (2 ≤ s.1 ∧ ∃ i j, i ≠ j ∧ 0 ≤ i ∧ i < x ∧ 0 ≤ j ∧ j < x ∧ cell p.m i 1 ≠ 0 ∧ cell p.m j 1 ≠ 0))
    (.inl ⟨rfl, by intros; omega⟩)
    (by
      intro i s hi hi' hs
      rw [get2_ok h.rect hi hi' (by omega) (by omega)]
      simp only [Out.ok_bind, OInt.zero, hk, Out.pure_eq]
      refine ⟨_, rfl, ?_⟩
      by_cases hz : cell p.m i 1 = 0
      · simp only [hz, decide_true, if_true]
        rcases hs with ⟨h1, h2⟩ | ⟨h1, h2, h3, h4, h5⟩ | ⟨h1, i', j', h2⟩
        · refine .inl ⟨h1, fun y hy hy' => ?_⟩
          by_cases hyi : y = i
          · rw [hyi]; exact hz
          · exact h2 y hy (by omega)
        · refine .inr (.inl ⟨h1, h2, by omega, h4, fun y hy hy' hne => ?_⟩)
          by_cases hyi : y = i
          · rw [hyi]; exact hz
          · exact h5 y hy (by omega) hne
        · exact .inr (.inr ⟨h1, i', j', h2.1, h2.2.1, by omega, h2.2.2.2.1, by omega, h2.2.2.2.2.2⟩)
      · simp only [hz, decide_false, Bool.false_eq_true, if_false]
        rcases hs with ⟨h1, h2⟩ | ⟨h1, h2, h3, h4, h5⟩ | ⟨h1, i', j', h2⟩
        · refine .inr (.inl ⟨by omega, hi, by omega, hz, fun y hy hy' hne => h2 y hy (by omega)⟩)
        · refine .inr (.inr ⟨by omega, s.2, i, by omega, h2, by omega, hi, by omega, h4, hz⟩)
        · exact .inr (.inr ⟨by omega, i', j', h2.1, h2.2.1, by omega, h2.2.2.2.1, by omega, h2.2.2.2.2.2⟩))
  exact ⟨s.1, s.2, e, hinv h.rows⟩

theorem arrayIdRowOk_spec {c : Cfg} {p : Part} (h : p.WF c) {row : Int} (hr : 0 ≤ row) (hr' : row < p.nb_rows)
    (n : Nat) (j : Int) (hj : 0 ≤ j) (hn : j + n ≤ p.nb_columns) :
    ∃ b, arrayIdRowOk c p row n j = .ok b ∧
      (b = true ↔ ∀ y, j ≤ y → y < j + n → y ≠ 1 → cell p.m row y = 0) := by
  obtain ⟨k, hk⟩ := Option.ne_none_iff_exists'.mp h.prec
  induction n generalizing j with
  | zero => exact ⟨true, rfl, by simp; intros; omega⟩
  | succ n ih =>
    obtain ⟨b, e, hb⟩ := ih (j + 1) (by omega) (by omega)
    unfold arrayIdRowOk
    by_cases h1 : j = 1
    · rw [if_neg (by omega)]
      refine ⟨b, e, hb.trans ?_⟩
      constructor
      · intro h y hy hy' hne; exact h y (by omega) (by omega) hne
      · intro h y hy hy' hne; exact h y (by omega) (by omega) hne
    · rw [if_pos (by omega), get2_ok h.rect hr hr' hj (by omega)]
      simp only [OInt.zero, hk]
      by_cases hz : cell p.m row j = 0
      · simp only [hz, decide_true]
        refine ⟨b, e, hb.trans ?_⟩
        constructor
        · intro h y hy hy' hne
          by_cases hyj : y = j
          · rw [hyj]; exact hz
          · exact h y (by omega) (by omega) hne
        · intro h y hy hy' hne; exact h y (by omega) (by omega) hne
      · simp only [hz, decide_false]
        refine ⟨false, rfl, ?_⟩
        constructor
        · intro h; cases h
        · intro h; exact absurd (h j (by omega) (by omega) h1) hz

/-- `FixesFirst` in terms of cells. -/
theorem fixesFirst_iff {c : Cfg} {p : Part} (h : p.WF c) (k : Int) :
    FixesFirst p k ↔ 3 ≤ p.nb_columns ∧ ∃ i, 0 ≤ i ∧ i < p.nb_rows ∧ cell p.m i 1 ≠ 0 ∧
      (∀ y, 0 ≤ y → y < p.nb_columns - 1 → y ≠ 1 → cell p.m i y = 0) ∧
      cell p.m i 1 * k + cell p.m i (p.nb_columns - 1) = 0 ∧
      ∀ x, 0 ≤ x → x < p.nb_rows → x ≠ i → cell p.m x 1 = 0 := by
  have hlen := h.rect.1
  have hcell : ∀ (j : Nat) (hj : j < p.m.length) (y : Nat), cell p.m j y = (p.m[j][y]?).getD 0 := by
    intro j hj y
    unfold cell
    rw [if_neg (by omega)]
    simp [List.getElem?_eq_getElem hj]
  unfold FixesFirst
  constructor
  · rintro ⟨h3, i, hi, a, b, ha, hrow, hk, hoth⟩
    have hrl := h.rect.2 _ (List.getElem_mem hi)
    have hcr : ∀ y : Int, cell p.m i y = rc ([0, a] ++ List.replicate (p.nb_columns - 3).toNat 0 ++ [b]) y := by
      intro y
      rw [cell_eq_rc, rowAt_get hi, hrow]
    have hrc : ∀ y : Int, 0 ≤ y → cell p.m i y = if y = 1 then a else if y = p.nb_columns - 1 then b else 0 := by
      intro y hy
      rw [hcr, rc_append hy]
      have hl : ((([0, a] ++ List.replicate (p.nb_columns - 3).toNat (0 : Int)).length : Nat) : Int) = p.nb_columns - 1 := by
        simp; omega
      rw [hl]
      by_cases h1 : y < p.nb_columns - 1
      · rw [if_pos h1, rc_append hy]
        by_cases h2 : y < 2
        · have : y = 0 ∨ y = 1 := by omega
          rcases this with rfl | rfl
          · rw [if_pos (by simp)]
            rw [if_neg (by omega), if_neg (by omega)]; rfl
          · rw [if_pos (by simp), if_pos rfl]; rfl
        · rw [if_neg (by simpa using h2), if_neg (by omega), if_neg (by omega)]
          exact rc_replicate
      · rw [if_neg h1]
        by_cases h2 : y = p.nb_columns - 1
        · rw [if_neg (by omega), if_pos h2, h2]; simp [rc]
        · rw [if_neg (by omega), if_neg h2]
          apply rc_beyond; simp; omega
    refine ⟨h3, i, by omega, by omega, ?_, ?_, ?_, ?_⟩
    · rw [hrc 1 (by omega), if_pos rfl]; exact ha
    · intro y hy hy' hne
      rw [hrc y hy, if_neg hne, if_neg (by omega)]
    · rw [hrc 1 (by omega), hrc _ (by omega), if_pos rfl, if_neg (by omega), if_pos rfl]
      exact hk
    · intro x hx hx' hne
      have hxl : x.toNat < p.m.length := by omega
      have := hoth x.toNat hxl (by omega)
      rw [← hcell _ hxl 1] at this
      rwa [Int.toNat_of_nonneg hx] at this
  · rintro ⟨h3, i, hi, hi', ha, hz, hk, hoth⟩
    have hil : i.toNat < p.m.length := by omega
    have hrl := h.rect.2 _ (List.getElem_mem hil)
    have hti : ((i.toNat : Nat) : Int) = i := Int.toNat_of_nonneg hi
    refine ⟨h3, i.toNat, hil, cell p.m i 1, cell p.m i (p.nb_columns - 1), ha, ?_, hk, ?_⟩
    · apply list_ext_rc
      · simp; omega
      · intro y hy hy'
        rw [hrl] at hy'
        have e : rc p.m[i.toNat] y = cell p.m i y := by
          have e1 := rowAt_get hil
          rw [hti] at e1
          rw [cell_eq_rc, e1]
        rw [e, rc_append hy]
        have hl : ((([0, cell p.m i 1] ++ List.replicate (p.nb_columns - 3).toNat (0 : Int)).length : Nat) : Int) = p.nb_columns - 1 := by
          simp; omega
        rw [hl]
        by_cases h1 : y < p.nb_columns - 1
        · rw [if_pos h1, rc_append hy]
          by_cases h2 : y < 2
          · have : y = 0 ∨ y = 1 := by omega
            rcases this with rfl | rfl
            · rw [if_pos (by simp), hz 0 (by omega) (by omega) (by omega)]; rfl
            · rw [if_pos (by simp)]; rfl
          · rw [if_neg (by simpa using h2), hz y hy h1 (by omega), rc_replicate]
        · rw [if_neg h1]
          have : y = p.nb_columns - 1 := by omega
          rw [this]; simp [rc]
    · intro j hj hne
      have := hoth j (by omega) (by omega) (by omega)
      rw [← hcell j hj 1]; exact this

theorem FixesFirst.unique {c : Cfg} {p : Part} (h : p.WF c) {k k' : Int} (h1 : FixesFirst p k) (h2 : FixesFirst p k') :
    k = k' := by
  obtain ⟨_, i, hi, hi', ha, _, hk, ho⟩ := (fixesFirst_iff h k).mp h1
  obtain ⟨_, j, hj, hj', hb, _, hk', ho'⟩ := (fixesFirst_iff h k').mp h2
  have : i = j := by
    by_cases hij : i = j
    · exact hij
    · exact absurd (ho' i hi hi' hij) ha
  subst this
  have e : cell p.m i 1 * k = cell p.m i 1 * k' := by omega
  exact Int.eq_of_mul_eq_mul_left ha e

theorem cell_mem {m : Matrix} {R C : Int} (h : Rect m R C) {i j : Int} (hi : 0 ≤ i) (hi' : i < R) (hj : 0 ≤ j)
    (hj' : j < C) : ∃ row ∈ m, cell m i j ∈ row := by
  refine ⟨rowAt m i, mem_rowAt h hi hi', ?_⟩
  rw [cell_eq_rc]
  exact rc_mem hj (by rw [rowAt_length h hi hi']; exact hj')

theorem fits_tdiv {l o : Int} (hl : fits 32 l) (hl' : l ≠ cMin 32) (ho : o ≠ 0) : fits 32 ((-l).tdiv o) := by
  have h1 : ((-l).tdiv o).natAbs ≤ (-l).natAbs := by
    rw [Int.natAbs_tdiv]
    exact Nat.div_le_self _ _
  simp only [fits, cMin, cMax] at hl hl' ⊢
  omega

/-- What the body of the loop computes on one part. -/
theorem arrayIdPart_spec {c : Cfg} (hv : c.Valid) (hd : c.ndebug = false) {p : Part} (h : p.WF c) (hint : IntEntries p)
    (row0 : Int) :
    ∃ res, arrayIdPart c p row0 = .ok res ∧
      ∀ k, (∃ row, res = some (k, row)) ↔ FixesFirst p k ∧ 0 < k := by
  by_cases hsz : p.nb_rows < 1 ∨ p.nb_columns < 3
  · refine ⟨none, by unfold arrayIdPart; rw [if_pos hsz], fun k => ⟨(by rintro ⟨_, h⟩; cases h), ?_⟩⟩
    rintro ⟨hf, _⟩
    obtain ⟨h3, i, hi, hi', _⟩ := (fixesFirst_iff h k).mp hf
    omega
  · have hcol : 3 ≤ p.nb_columns := by omega
    obtain ⟨n, i, e, hn⟩ := arrayIdRows_spec h (by omega) row0
    rcases hn with ⟨rfl, hz⟩ | ⟨rfl, hi, hi', hnz, hz⟩ | ⟨hn, i1, j1, hne, hi1, hi1', hj1, hj1', ha, hb⟩
    · refine ⟨none, by unfold arrayIdPart; rw [if_neg hsz, e]; rfl, fun k => ⟨(by rintro ⟨_, h⟩; cases h), ?_⟩⟩
      rintro ⟨hf, _⟩
      obtain ⟨h3, i, hi, hi', ha, _⟩ := (fixesFirst_iff h k).mp hf
      exact absurd (hz i hi hi') ha
    · obtain ⟨b, e2, hb⟩ := arrayIdRowOk_spec h hi hi' (p.nb_columns - 1).toNat 0 (by omega) (by omega)
      -- uniqueness of the row
      have hrowu : ∀ k, FixesFirst p k ↔
          ((∀ y, 0 ≤ y → y < p.nb_columns - 1 → y ≠ 1 → cell p.m i y = 0) ∧
            cell p.m i 1 * k + cell p.m i (p.nb_columns - 1) = 0) := by
        intro k
        rw [fixesFirst_iff h k]
        constructor
        · rintro ⟨_, i', g1, g2, g3, g4, g5, g6⟩
          have : i' = i := by
            by_cases hij : i' = i
            · exact hij
            · exact absurd (hz i' g1 g2 hij) g3
          subst this
          exact ⟨g4, g5⟩
        · rintro ⟨g4, g5⟩
          exact ⟨hcol, i, hi, hi', hnz, g4, g5, hz⟩
      cases b with
      | false =>
        refine ⟨none, ?_, fun k => ⟨(by rintro ⟨_, h⟩; cases h), ?_⟩⟩
        · unfold arrayIdPart
          rw [if_neg hsz, e]
          simp only [Out.ok_bind]
          rw [if_neg (by omega), if_neg (by omega), e2]
          rfl
        · rintro ⟨hf, _⟩
          have := ((hrowu k).mp hf).1
          have hh := hb.mpr (fun y hy hy' hne => this y hy (by omega) hne)
          cases hh
      | true =>
        have hzero := hb.mp rfl
        obtain ⟨rl, hrl1, hrl2⟩ := cell_mem h.rect hi hi' (j := p.nb_columns - 1) (by omega) (by omega)
        obtain ⟨ro, hro1, hro2⟩ := cell_mem h.rect hi hi' (j := 1) (by omega) (by omega)
        obtain ⟨fl, fl'⟩ := hint rl hrl1 _ hrl2
        obtain ⟨fo, fo'⟩ := hint ro hro1 _ hro2
        have pl := inPrec_of_fits32 hv h.prec fl
        have po := inPrec_of_fits32 hv h.prec fo
        have hdiv := int_divisible_iff hv pl hnz (by
          rintro ⟨⟨w, hkw, hw⟩, _⟩
          have hw32 := kind_fixed hv hkw
          rcases hw32 with rfl | rfl
          · exact fl' hw
          · simp only [fits, cMin, cMax] at fl; simp only [cMin] at hw; omega)
        have hneg : sarith c 32 (-(cell p.m i (p.nb_columns - 1))) = .ok (-(cell p.m i (p.nb_columns - 1))) := by
          unfold sarith
          rw [if_pos (by simp only [fits, cMin, cMax] at fl fl' ⊢; omega)]
        have hunf : arrayIdPart c p row0 = if decide (cell p.m i 1 ∣ cell p.m i (p.nb_columns - 1)) = false then .ok none
            else if (-(cell p.m i (p.nb_columns - 1))).tdiv (cell p.m i 1) ≤ 0 then .ok none
            else .ok (some ((-(cell p.m i (p.nb_columns - 1))).tdiv (cell p.m i 1), i)) := by
          unfold arrayIdPart
          rw [if_neg hsz, e]
          simp only [Out.ok_bind]
          rw [if_neg (by omega), if_neg (by omega), e2]
          simp only [Out.ok_bind]
          rw [if_neg (by simp), get2_ok h.rect hi hi' (by omega) (by omega), get2_ok h.rect hi hi' (by omega) (by omega)]
          simp only [Out.ok_bind, hdiv]
          split
          · rfl
          · rw [int_get_si_exact hv hd pl, if_pos fl, int_get_si_exact hv hd po, if_pos fo]
            simp only [Out.ok_bind, hneg]
            unfold sdiv
            rw [if_neg hnz, if_pos (fits_tdiv fl fl' hnz)]
            rfl
        by_cases hdv : cell p.m i 1 ∣ cell p.m i (p.nb_columns - 1)
        · obtain ⟨q, hq⟩ := hdv
          have hq' : (-(cell p.m i (p.nb_columns - 1))).tdiv (cell p.m i 1) = -q := by
            rw [hq, ← Int.mul_neg]
            exact Int.mul_tdiv_cancel_left _ hnz
          have hkq : ∀ k, FixesFirst p k ↔ k = -q := by
            intro k
            rw [hrowu k]
            constructor
            · rintro ⟨_, g⟩
              rw [hq, ← Int.mul_add] at g
              rcases Int.mul_eq_zero.mp g with g | g
              · exact absurd g hnz
              · omega
            · rintro rfl
              refine ⟨fun y hy hy' hne => hzero y hy (by omega) hne, ?_⟩
              rw [hq, Int.mul_neg]; omega
          rw [hq'] at hunf
          have hdd : decide (cell p.m i 1 ∣ cell p.m i (p.nb_columns - 1)) = true := by
            simp only [decide_eq_true_eq]; exact ⟨q, hq⟩
          rw [hdd, if_neg (by simp)] at hunf
          by_cases hpos : -q ≤ 0
          · rw [if_pos hpos] at hunf
            refine ⟨none, hunf, fun k => ⟨(by rintro ⟨_, h⟩; cases h), ?_⟩⟩
            rintro ⟨hf, hk⟩
            have := (hkq k).mp hf
            omega
          · rw [if_neg hpos] at hunf
            refine ⟨_, hunf, fun k => ⟨?_, ?_⟩⟩
            · rintro ⟨row, hr⟩
              injection hr with hr
              injection hr with h1 h2
              exact ⟨(hkq k).mpr h1.symm, by omega⟩
            · rintro ⟨hf, _⟩
              exact ⟨i, by rw [(hkq k).mp hf]⟩
        · rw [show decide (cell p.m i 1 ∣ cell p.m i (p.nb_columns - 1)) = false by simpa using hdv, if_pos rfl] at hunf
          refine ⟨none, hunf, fun k => ⟨(by rintro ⟨_, h⟩; cases h), ?_⟩⟩
          rintro ⟨hf, _⟩
          have g := ((hrowu k).mp hf).2
          exact absurd ⟨-k, by rw [Int.mul_neg]; omega⟩ hdv
    · refine ⟨none, ?_, fun k => ⟨(by rintro ⟨_, h⟩; cases h), ?_⟩⟩
      · unfold arrayIdPart
        rw [if_neg hsz, e]
        simp only [Out.ok_bind]
        rw [if_neg (by omega), if_pos (by omega)]
      · rintro ⟨hf, _⟩
        obtain ⟨h3, i, hi, hi', _, _, _, ho⟩ := (fixesFirst_iff h k).mp hf
        by_cases h1 : i1 = i
        · exact absurd (ho j1 hj1 hj1' (by omega)) hb
        · exact absurd (ho i1 hi1 hi1' h1) ha

theorem arrayIdLoop_spec {c : Cfg} (hv : c.Valid) (hd : c.ndebug = false) (r : Rel) (h : WF c r)
    (hint : ∀ p ∈ r, IntEntries p) (ref : Option Int) (aid row0 : Int) (href : ∀ k, ref = some k → k = aid ∧ 0 < k)
    (hnone : ref = none → r ≠ []) :
    ∃ id, arrayIdLoop c r ref aid row0 = .ok id ∧
      ((∃ k, 0 < k ∧ (∀ p ∈ r, FixesFirst p k) ∧ (∀ k', ref = some k' → k' = k) ∧ id = k) ∨
       (id = UNDEFINED ∧ ¬ ∃ k, 0 < k ∧ (∀ p ∈ r, FixesFirst p k) ∧ (∀ k', ref = some k' → k' = k))) := by
  induction r generalizing ref aid row0 with
  | nil =>
    cases ref with
    | none => exact absurd rfl (hnone rfl)
    | some k =>
      obtain ⟨rfl, hk⟩ := href k rfl
      exact ⟨k, rfl, .inl ⟨k, hk, by simp, by simp, rfl⟩⟩
  | cons p rest ih =>
    have hp := h p (by simp)
    obtain ⟨res, e, hres⟩ := arrayIdPart_spec hv hd hp (hint p (by simp)) row0
    unfold arrayIdLoop
    rw [e]
    cases res with
    | none =>
      refine ⟨UNDEFINED, rfl, .inr ⟨rfl, ?_⟩⟩
      rintro ⟨k, hk, hall, _⟩
      have := (hres k).mpr ⟨hall p (by simp), hk⟩
      obtain ⟨_, h⟩ := this
      cases h
    | some kr =>
      obtain ⟨id, row'⟩ := kr
      obtain ⟨hf, hidpos⟩ := (hres id).mp ⟨row', rfl⟩
      cases ref with
      | none =>
        simp only
        obtain ⟨id2, e2, h2⟩ := ih (fun q hq => h q (by simp [hq])) (fun q hq => hint q (by simp [hq])) (some id) id row'
          (by rintro k hk; injection hk with hk; exact ⟨hk.symm, hk ▸ hidpos⟩) (by simp)
        refine ⟨id2, e2, ?_⟩
        rcases h2 with ⟨k, hk, hall, hkk, hid⟩ | ⟨hid, hno⟩
        · have hki := hkk id rfl
          subst hki
          refine .inl ⟨_, hk, ?_, by simp, hid⟩
          intro q hq
          rcases List.mem_cons.mp hq with rfl | hq
          · exact hf
          · exact hall q hq
        · refine .inr ⟨hid, ?_⟩
          rintro ⟨k, hk, hall, _⟩
          have hki : k = id := FixesFirst.unique hp (hall p (by simp)) hf
          exact hno ⟨k, hk, fun q hq => hall q (by simp [hq]), by rintro k' hk'; injection hk' with hk'; rw [← hk', hki]⟩
      | some k0 =>
        simp only
        by_cases hk0 : k0 = id
        · subst hk0
          rw [if_neg (by simp)]
          obtain ⟨id2, e2, h2⟩ := ih (fun q hq => h q (by simp [hq])) (fun q hq => hint q (by simp [hq])) (some k0) k0 row'
            (by rintro k hk; injection hk with hk; exact ⟨hk.symm, hk ▸ hidpos⟩) (by simp)
          refine ⟨id2, e2, ?_⟩
          rcases h2 with ⟨k, hk, hall, hkk, hid⟩ | ⟨hid, hno⟩
          · have hki := hkk k0 rfl
            subst hki
            refine .inl ⟨_, hk, ?_, by simp, hid⟩
            intro q hq
            rcases List.mem_cons.mp hq with rfl | hq
            · exact hf
            · exact hall q hq
          · refine .inr ⟨hid, ?_⟩
            rintro ⟨k, hk, hall, hkk⟩
            exact hno ⟨k, hk, fun q hq => hall q (by simp [hq]), hkk⟩
        · rw [if_pos hk0]
          refine ⟨UNDEFINED, rfl, .inr ⟨rfl, ?_⟩⟩
          rintro ⟨k, hk, hall, hkk⟩
          have h1 : k = id := FixesFirst.unique hp (hall p (by simp)) hf
          have h2 := hkk k0 rfl
          omega

/-- C21: on an access relation with entries in the C `int` range, the identifier found is the
positive `k` to which every part fixes the first output dimension, and `OSL_UNDEFINED` (-1) is
returned exactly when there is no such `k`. -/
theorem relation_get_array_id_iff {c : Cfg} (hv : c.Valid) (hd : c.ndebug = false) {r : Rel}
    (hr : Rel.Valid c r) (hint : ∀ p ∈ r, IntEntries p) (hacc : is_access r = true) :
    ∃ id, get_array_id c r = .ok id ∧
      (∀ k, 0 < k → (id = k ↔ ∀ p ∈ r, FixesFirst p k)) ∧
      (id = UNDEFINED ↔ ¬ ∃ k, 0 < k ∧ ∀ p ∈ r, FixesFirst p k) := by
  cases r with
  | nil => cases hacc
  | cons p rest =>
    have ha : isAccessPart p = true := hacc
    obtain ⟨id, e, h⟩ := arrayIdLoop_spec hv hd (p :: rest) hr.wf hint none UNDEFINED 0 (by simp) (by simp)
    refine ⟨id, by simp only [get_array_id, ha, if_true]; exact e, ?_⟩
    rcases h with ⟨k, hk, hall, _, rfl⟩ | ⟨rfl, hno⟩
    · refine ⟨fun k' hk' => ⟨?_, ?_⟩, ?_⟩
      · rintro rfl; exact hall
      · intro h'
        exact FixesFirst.unique (hr.wf p (by simp)) (hall p (by simp)) (h' p (by simp))
      · constructor
        · intro h; rw [h] at hk; exact absurd hk (by decide)
        · intro h; exact absurd ⟨_, hk, hall⟩ h
    · have hno' : ¬ ∃ k, 0 < k ∧ ∀ q ∈ p :: rest, FixesFirst q k := by
        rintro ⟨k, hk, hall⟩
        exact hno ⟨k, hk, hall, by simp⟩
      refine ⟨fun k hk => ⟨?_, ?_⟩, ⟨fun _ => hno', fun _ => rfl⟩⟩
      · rintro rfl; exact absurd hk (by decide)
      · intro h'; exact absurd ⟨k, hk, h'⟩ hno'

/-- C21: relations of other types have no array identifier. -/
theorem relation_get_array_id_not_access {c : Cfg} {r : Rel} (h : is_access r = false) :
    get_array_id c r = .ok UNDEFINED := by
  cases r with
  | nil => rfl
  | cons p rest =>
    have : isAccessPart p = false := h
    simp [get_array_id, this]

/-- C21, semantic meaning: every point of a relation with array identifier `k` has `k` as its
first output coordinate. -/
theorem relation_array_id_points {p : Part} {k : Int} (hd : p.Dims) (ho : 1 ≤ p.nb_output_dims) (h : FixesFirst p k)
    {x y n : List Int} (hm : Part.Mem p x y n) : x.head? = some k := by
  obtain ⟨h3, i, hi, a, b, ha, hrow, hk, _⟩ := h
  obtain ⟨hx, hy, hn, loc, hloc, hh⟩ := hm
  have := hh _ (List.getElem_mem hi)
  rw [hrow] at this
  cases x with
  | nil => simp at hx; omega
  | cons x0 xs =>
    simp only [RowHolds, List.cons_append, List.nil_append, if_true, dot] at this
    have e : xs ++ y ++ loc ++ n ++ [1] = (xs ++ y ++ loc ++ n) ++ [1] := rfl
    have hl : (List.replicate (p.nb_columns - 3).toNat (0 : Int)).length = (xs ++ y ++ loc ++ n).length := by
      obtain ⟨_, _, _, _, h5⟩ := hd
      simp at hx ⊢; omega
    have e2 : List.append (List.append (List.append xs y) loc) n = xs ++ y ++ loc ++ n := rfl
    rw [dot_append hl, dot_zero] at this
    simp only [dot, Int.mul_one] at this
    have h0 : a * x0 = a * k := by omega
    have := Int.eq_of_mul_eq_mul_left ha h0
    simp [this]

/-- A write access to array 5, `A[i]`. -/
def exAccess : Part :=
  { type := TYPE_WRITE, precision := 64, nb_rows := 2, nb_columns := 6, nb_output_dims := 2,
    nb_input_dims := 1, nb_local_dims := 0, nb_parameters := 1,
    m := [[0, -1, 0, 0, 0, 5], [0, 0, -1, 1, 0, 0]] }

theorem exAccess_valid : exAccess.Valid Cfg.std := ⟨rfl, by decide, by decide, by decide, by decide⟩

example : get_array_id Cfg.std [exAccess] = .ok 5 ∧ FixesFirst exAccess 5 ∧ IntEntries exAccess := by
  refine ⟨by decide, ⟨by decide, 0, by decide, -1, 5, by decide, by decide, by decide, by decide⟩, ?_⟩
  intro row hrow a ha
  simp only [exAccess, List.mem_cons, List.not_mem_nil, or_false] at hrow
  rcases hrow with rfl | rfl <;>
  · simp only [List.mem_cons, List.not_mem_nil, or_false] at ha
    rcases ha with rfl | rfl | rfl | rfl | rfl | rfl <;> decide

end Rel
end Osl
