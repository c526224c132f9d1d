import Verif.IntLemmas
/-!
# Loops over arrays of osl_int_t

The matrices of relations (`osl_int_t** m`) are lists of rows.  Reading or writing outside of
the allocated rows and columns is undefined behaviour (`ub`), so that a successful outcome of
a modelled function entails that all its accesses were in bounds.  A matrix without rows or
columns is a NULL pointer in C (source/relation.c:1612-1614); no cell of it can be accessed.
-/

namespace Osl

abbrev Matrix := List (List Int)

/-- C expression `m[i][j]`. -/
def get2 (m : Matrix) (i j : Int) : Out Int :=
  if i < 0 ∨ j < 0 then .ub
  else match m[i.toNat]? with
    | none => .ub
    | some r => match r[j.toNat]? with
      | none => .ub
      | some v => .ok v

/-- C assignment `m[i][j] = v`. -/
def set2 (m : Matrix) (i j : Int) (v : Int) : Out Matrix :=
  if i < 0 ∨ j < 0 then .ub
  else match m[i.toNat]? with
    | none => .ub
    | some r =>
      if j.toNat < r.length then .ok (m.set i.toNat (r.set j.toNat v)) else .ub

/-- `n` iterations of a `for` loop from index `i` on. -/
def loopN {σ : Type} (body : Int → σ → Out σ) : Nat → Int → σ → Out σ
  | 0, _, s => .ok s
  | n + 1, i, s =>
    match body i s with
    | .ok s' => loopN body n (i + 1) s'
    | .err => .err
    | .ub => .ub

/-- C loop `for (i = lo; i < hi; i++) body`. -/
def loop {σ : Type} (lo hi : Int) (body : Int → σ → Out σ) (s : σ) : Out σ :=
  loopN body (hi - lo).toNat lo s

/-- The double copy loop which all the row and column functions of source/relation.c use
(e.g. 1722-1724):
```
for (i = ilo; i < ihi; i++)
  for (j = jlo; j < jhi; j++)
    osl_int_assign(precision, &dst[i + dro][j + dco], src[i + sro][j + sco]);
``` -/
def copyBlock (c : Cfg) (p : Int) (src : Matrix) (ilo ihi dro sro jlo jhi dco sco : Int)
    (dst : Matrix) : Out Matrix :=
  loop ilo ihi (fun i d =>
    loop jlo jhi (fun j d => do
      let v ← get2 src (i + sro) (j + sco)
      let v ← OInt.assign c p v
      set2 d (i + dro) (j + dco) v) d) dst

/-! ## Lemmas -/

/-- Hoare rule for `loop`. -/
theorem loop_rule {σ : Type} {body : Int → σ → Out σ} (Inv : Int → σ → Prop) {lo hi : Int} {s : σ}
    (h0 : Inv lo s)
    (hstep : ∀ i s, lo ≤ i → i < hi → Inv i s → ∃ s', body i s = .ok s' ∧ Inv (i + 1) s') :
    ∃ s', loop lo hi body s = .ok s' ∧ (lo ≤ hi → Inv hi s') ∧ (hi < lo → s' = s) := by
  unfold loop
  obtain ⟨n, hn⟩ : ∃ n, n = (hi - lo).toNat := ⟨_, rfl⟩
  rw [← hn]
  by_cases hle : lo ≤ hi
  · have key : ∀ (n : Nat) (i : Int) s, i + n = hi → lo ≤ i → Inv i s →
        ∃ s', loopN body n i s = .ok s' ∧ Inv hi s' := by
      intro n
      induction n with
      | zero => intro i s h1 h2 h3; exact ⟨s, rfl, by have : i = hi := by omega
                                                      subst this; exact h3⟩
      | succ n ih =>
        intro i s h1 h2 h3
        obtain ⟨s', e, h4⟩ := hstep i s h2 (by omega) h3
        obtain ⟨s'', e', h5⟩ := ih (i + 1) s' (by omega) (by omega) h4
        exact ⟨s'', by simp [loopN, e, e'], h5⟩
    obtain ⟨s', e, h⟩ := key n lo s (by omega) (by omega) h0
    exact ⟨s', e, fun _ => h, fun h' => by omega⟩
  · have : n = 0 := by omega
    subst this
    exact ⟨s, rfl, fun h => by omega, fun _ => rfl⟩

/-- Partial-correctness rule for `loop`. -/
theorem loop_rule_partial {σ : Type} {body : Int → σ → Out σ} (Inv : Int → σ → Prop) {lo hi : Int}
    {s s' : σ} (h : loop lo hi body s = .ok s') (h0 : Inv lo s)
    (hstep : ∀ i s s', lo ≤ i → i < hi → Inv i s → body i s = .ok s' → Inv (i + 1) s')
    (hle : lo ≤ hi) : Inv hi s' := by
  unfold loop at h
  obtain ⟨n, hn⟩ : ∃ n, n = (hi - lo).toNat := ⟨_, rfl⟩
  rw [← hn] at h
  have key : ∀ (n : Nat) (i : Int) s, i + n = hi → lo ≤ i → Inv i s → loopN body n i s = .ok s' → Inv hi s' := by
    intro n
    induction n with
    | zero => intro i s h1 h2 h3 h4; simp [loopN] at h4; have : i = hi := by omega
              subst this; subst h4; exact h3
    | succ n ih =>
      intro i s h1 h2 h3 h4
      simp only [loopN] at h4
      cases hb : body i s with
      | ok s1 => rw [hb] at h4; exact ih (i + 1) s1 (by omega) (by omega) (hstep i s s1 h2 (by omega) h3 hb) h4
      | err => rw [hb] at h4; cases h4
      | ub => rw [hb] at h4; cases h4
  exact key n lo s (by omega) (by omega) h0 h

/-- `m` has `R` rows of `C` entries. -/
def Rect (m : Matrix) (R C : Int) : Prop := (m.length : Int) = R ∧ ∀ r ∈ m, (r.length : Int) = C

instance (m : Matrix) (R C : Int) : Decidable (Rect m R C) := by unfold Rect; infer_instance

/-- Total view of a cell, 0 outside. -/
def cell (m : Matrix) (i j : Int) : Int :=
  if i < 0 ∨ j < 0 then 0 else ((m[i.toNat]?.getD [])[j.toNat]?).getD 0

theorem get2_ok {m : Matrix} {R C : Int} (h : Rect m R C) {i j : Int} (hi : 0 ≤ i) (hi' : i < R)
    (hj : 0 ≤ j) (hj' : j < C) : get2 m i j = .ok (cell m i j) := by
  unfold get2 cell
  rw [if_neg (by omega), if_neg (by omega)]
  have h1 : i.toNat < m.length := by have := h.1; omega
  rw [List.getElem?_eq_getElem h1]
  have h2 : ((m[i.toNat]).length : Int) = C := h.2 _ (List.getElem_mem h1)
  have h3 : j.toNat < (m[i.toNat]).length := by omega
  simp [List.getElem?_eq_getElem h3]

theorem set2_ok {m : Matrix} {R C : Int} (h : Rect m R C) {i j : Int} (hi : 0 ≤ i) (hi' : i < R)
    (hj : 0 ≤ j) (hj' : j < C) (v : Int) :
    ∃ m', set2 m i j v = .ok m' ∧ Rect m' R C ∧
      ∀ x y, cell m' x y = if x = i ∧ y = j then v else cell m x y := by
  unfold set2
  rw [if_neg (by omega)]
  have h1 : i.toNat < m.length := by have := h.1; omega
  have h2 : ((m[i.toNat]).length : Int) = C := h.2 _ (List.getElem_mem h1)
  have h3 : j.toNat < (m[i.toNat]).length := by omega
  simp only [List.getElem?_eq_getElem h1, h3, if_true]
  refine ⟨_, rfl, ⟨by simp [h.1], ?_⟩, ?_⟩
  · intro r hr
    rcases List.mem_or_eq_of_mem_set hr with hr | hr
    · exact h.2 r hr
    · subst hr; simpa using h2
  · intro x y
    unfold cell
    by_cases hneg : x < 0 ∨ y < 0
    · rw [if_pos hneg, if_pos hneg, if_neg (by omega)]
    · rw [if_neg hneg, if_neg hneg]
      rw [List.getElem?_set]
      by_cases hx : x = i
      · subst hx
        simp only [if_true, true_and]
        simp only [h1, if_true, Option.getD_some, List.getElem?_set]
        by_cases hy : y = j
        · subst hy; simp [h3]
        · rw [if_neg (by omega)]
          simp only [if_neg hy, List.getElem?_eq_getElem h1, Option.getD_some]
      · rw [if_neg (by omega)]
        simp [hx]

/-- Two matrices of the same shape with the same cells are equal. -/
theorem rect_ext {m m' : Matrix} {R C : Int} (h : Rect m R C) (h' : Rect m' R C)
    (hc : ∀ i j, 0 ≤ i → i < R → 0 ≤ j → j < C → cell m i j = cell m' i j) : m = m' := by
  apply List.ext_getElem
  · have := h.1; have := h'.1; omega
  · intro i h1 h2
    have e1 := h.2 _ (List.getElem_mem h1)
    have e2 := h'.2 _ (List.getElem_mem h2)
    apply List.ext_getElem
    · omega
    · intro j h3 h4
      have hcc := hc i j (by omega) (by have := h.1; omega) (by omega) (by omega)
      unfold cell at hcc
      rw [if_neg (by omega), if_neg (by omega)] at hcc
      simpa [List.getElem?_eq_getElem h1, List.getElem?_eq_getElem h2, List.getElem?_eq_getElem h3,
        List.getElem?_eq_getElem h4] using hcc

/-- Effect of a block copy all of whose accesses are in bounds. -/
theorem copyBlock_ok {c : Cfg} {p : Int} (hk : kind c p ≠ none) {src dst : Matrix}
    {R C R' C' ilo ihi dro sro jlo jhi dco sco : Int} (hs : Rect src R' C') (hd : Rect dst R C)
    (hi : ilo < ihi → 0 ≤ ilo + dro ∧ ihi + dro ≤ R ∧ 0 ≤ ilo + sro ∧ ihi + sro ≤ R')
    (hj : ilo < ihi → jlo < jhi → 0 ≤ jlo + dco ∧ jhi + dco ≤ C ∧ 0 ≤ jlo + sco ∧ jhi + sco ≤ C') :
    ∃ d', copyBlock c p src ilo ihi dro sro jlo jhi dco sco dst = .ok d' ∧ Rect d' R C ∧
      ∀ x y, cell d' x y = if (ilo ≤ x - dro ∧ x - dro < ihi) ∧ (jlo ≤ y - dco ∧ y - dco < jhi)
        then cell src (x - dro + sro) (y - dco + sco) else cell dst x y := by
  obtain ⟨k, hk'⟩ := Option.ne_none_iff_exists'.mp hk
  have hassign : ∀ v, OInt.assign c p v = .ok v := fun v => by simp [OInt.assign, hk']
  unfold copyBlock
  have hrow : ∀ i d, ilo ≤ i → i < ihi → Rect d R C →
      ∃ d', loop jlo jhi (fun j d => do
        let v ← get2 src (i + sro) (j + sco)
        let v ← OInt.assign c p v
        set2 d (i + dro) (j + dco) v) d = .ok d' ∧ Rect d' R C ∧
        ∀ x y, cell d' x y = if x - dro = i ∧ (jlo ≤ y - dco ∧ y - dco < jhi)
          then cell src (i + sro) (y - dco + sco) else cell d x y := by
    intro i d h1 h2 hrd
    have hib := hi (by omega)
    obtain ⟨d', e, h3, h4⟩ := loop_rule (body := fun j d => do
        let v ← get2 src (i + sro) (j + sco)
        let v ← OInt.assign c p v
        set2 d (i + dro) (j + dco) v) (lo := jlo) (hi := jhi) (s := d)
      (fun j d' => Rect d' R C ∧ ∀ x y, cell d' x y = if x - dro = i ∧ (jlo ≤ y - dco ∧ y - dco < j)
          then cell src (i + sro) (y - dco + sco) else cell d x y)
      ⟨hrd, by intro x y; rw [if_neg (by omega)]⟩
      (by
        rintro j d1 hj1 hj2 ⟨hr1, hc1⟩
        have hjb := hj (by omega) (by omega)
        obtain ⟨d2, e2, hr2, hc2⟩ := set2_ok hr1 (i := i + dro) (j := j + dco) (by omega) (by omega)
          (by omega) (by omega) (cell src (i + sro) (j + sco))
        refine ⟨d2, ?_, hr2, ?_⟩
        · rw [get2_ok hs (by omega) (by omega) (by omega) (by omega)]
          simp only [Out.ok_bind, hassign]; exact e2
        · intro x y
          rw [hc2, hc1]
          by_cases hx : x = i + dro ∧ y = j + dco
          · obtain ⟨rfl, rfl⟩ := hx
            rw [if_pos ⟨rfl, rfl⟩, if_pos (by omega)]
            congr 1; omega
          · rw [if_neg hx]
            by_cases hx2 : x - dro = i ∧ (jlo ≤ y - dco ∧ y - dco < j)
            · rw [if_pos hx2, if_pos (by omega)]
            · rw [if_neg hx2, if_neg (by omega)])
    refine ⟨d', e, ?_⟩
    by_cases hjle : jlo ≤ jhi
    · exact h3 hjle
    · rw [h4 (by omega)]
      exact ⟨hrd, by intro x y; rw [if_neg (by omega)]⟩
  obtain ⟨d', e, h3, h4⟩ := loop_rule (body := fun i d =>
      loop jlo jhi (fun j d => do
        let v ← get2 src (i + sro) (j + sco)
        let v ← OInt.assign c p v
        set2 d (i + dro) (j + dco) v) d) (lo := ilo) (hi := ihi) (s := dst)
    (fun i d' => Rect d' R C ∧ ∀ x y, cell d' x y =
        if (ilo ≤ x - dro ∧ x - dro < i) ∧ (jlo ≤ y - dco ∧ y - dco < jhi)
        then cell src (x - dro + sro) (y - dco + sco) else cell dst x y)
    ⟨hd, by intro x y; rw [if_neg (by omega)]⟩
    (by
      rintro i d1 hi1 hi2 ⟨hr1, hc1⟩
      obtain ⟨d2, e2, hr2, hc2⟩ := hrow i d1 hi1 hi2 hr1
      refine ⟨d2, e2, hr2, ?_⟩
      intro x y
      rw [hc2, hc1]
      by_cases hx : x - dro = i ∧ (jlo ≤ y - dco ∧ y - dco < jhi)
      · rw [if_pos hx, if_pos (by omega), hx.1]
      · rw [if_neg hx]
        by_cases hx2 : (ilo ≤ x - dro ∧ x - dro < i) ∧ (jlo ≤ y - dco ∧ y - dco < jhi)
        · rw [if_pos hx2, if_pos (by omega)]
        · rw [if_neg hx2, if_neg (by omega)])
  refine ⟨d', e, ?_⟩
  by_cases hile : ilo ≤ ihi
  · exact h3 hile
  · rw [h4 (by omega)]
    exact ⟨hd, by intro x y; rw [if_neg (by omega)]⟩

/-! ### Cells of common list operations -/

theorem cell_neg {m : Matrix} {i j : Int} (h : i < 0 ∨ j < 0) : cell m i j = 0 := by
  simp [cell, h]

theorem cell_append {m m' : Matrix} {i j : Int} (hi : 0 ≤ i) :
    cell (m ++ m') i j = if i < m.length then cell m i j else cell m' (i - m.length) j := by
  unfold cell
  by_cases hj : j < 0
  · simp [hj]
  · by_cases h : i < m.length
    · rw [if_pos h, if_neg (by omega), if_neg (by omega), List.getElem?_append_left (by omega)]
    · rw [if_neg h, if_neg (by omega), if_neg (by omega), List.getElem?_append_right (by omega)]
      congr 4; omega

theorem cell_take {m : Matrix} {n : Nat} {i j : Int} (h : i < n) :
    cell (m.take n) i j = cell m i j := by
  unfold cell
  by_cases hneg : i < 0 ∨ j < 0
  · rw [if_pos hneg, if_pos hneg]
  · rw [if_neg hneg, if_neg hneg, List.getElem?_take, if_pos (by omega)]

theorem cell_drop {m : Matrix} {n : Nat} {i j : Int} (h : 0 ≤ i) :
    cell (m.drop n) i j = cell m (i + n) j := by
  unfold cell
  by_cases hj : j < 0
  · simp [hj]
  · rw [if_neg (by omega), if_neg (by omega), List.getElem?_drop]
    congr 4; omega

theorem rect_append {m m' : Matrix} {R R' C : Int} (h : Rect m R C) (h' : Rect m' R' C) :
    Rect (m ++ m') (R + R') C := by
  refine ⟨by have := h.1; have := h'.1; simp; omega, fun r hr => ?_⟩
  rcases List.mem_append.mp hr with hr | hr
  · exact h.2 r hr
  · exact h'.2 r hr

theorem rect_take {m : Matrix} {R C : Int} (h : Rect m R C) {n : Nat} (hn : (n : Int) ≤ R) :
    Rect (m.take n) n C :=
  ⟨by have := h.1; simp; omega, fun r hr => h.2 r (List.mem_of_mem_take hr)⟩

theorem rect_drop {m : Matrix} {R C : Int} (h : Rect m R C) {n : Nat} (hn : (n : Int) ≤ R) :
    Rect (m.drop n) (R - n) C :=
  ⟨by have := h.1; simp; omega, fun r hr => h.2 r (List.mem_of_mem_drop hr)⟩

theorem rect_replicate (R C : Nat) (x : Int) : Rect (List.replicate R (List.replicate C x)) R C :=
  ⟨by simp, fun r hr => by rw [List.eq_of_mem_replicate hr]; simp⟩

theorem cell_map {m : Matrix} {f : List Int → List Int} {i j : Int} (hi : 0 ≤ i) (hi' : i < m.length)
    (hj : 0 ≤ j) : cell (m.map f) i j = ((f (m[i.toNat]'(by omega)))[j.toNat]?).getD 0 := by
  unfold cell
  rw [if_neg (by omega)]
  have h : i.toNat < m.length := by omega
  simp [List.getElem?_eq_getElem h]

theorem cell_eq_row {m : Matrix} {i j : Int} (hi : 0 ≤ i) (hi' : i < m.length)
    (hj : 0 ≤ j) : cell m i j = ((m[i.toNat]'(by omega))[j.toNat]?).getD 0 := by
  have := cell_map (f := id) hi hi' hj; simpa using this

end Osl
