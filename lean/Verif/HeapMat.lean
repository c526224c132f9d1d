import Verif.HeapRel
/-!
# Matrices of integers in memory: assertions and effect of the access functions
-/

namespace Osl.Mem

/-! ## Assertions (specification) -/

/-- The memory of one integer. -/
def cellAt (k : Option Kind) (x : Cell) (v : Int) : Assn :=
  match k with
  | none => pur False
  | some (.fixed _) => pur (x = .val v)
  | some .mp => ex fun q => pur (x = .mp q) ∗ q ↦ .mpz v

/-- The memory of the integers of an array. -/
def cellsAt (k : Option Kind) : List Cell → List Int → Assn
  | [], [] => emp
  | x :: xs, v :: vs => cellAt k x v ∗ cellsAt k xs vs
  | _, _ => pur False

/-- The memory of a matrix with `R` rows and `C` columns: NULL when there is no element, otherwise an array of pointers to the rows,
which are consecutive in one array. -/
def matAt (k : Option Kind) (m : Ptr) (R C : Int) (mat : Matrix) : Assn :=
  pur (Rect mat R C) ∗
  (if R = 0 ∨ C = 0 then pur (m = 0)
   else ex fun q => ex fun cells => m ↦ .rows (rowPtrs q R C) ∗ q ↦ .ints cells ∗ cellsAt k cells mat.flatten)

/-! ## Lists -/

theorem split_at {α : Type} {l : List α} {n : Nat} (h : n < l.length) : l = l.take n ++ l[n] :: l.drop (n + 1) := by
  have := List.take_append_drop n l
  rw [List.drop_eq_getElem_cons h] at this
  exact this.symm

theorem cellsAt_append {k : Option Kind} : ∀ {l1 l2 : List Cell} {v1 v2 : List Int}, l1.length = v1.length →
    cellsAt k (l1 ++ l2) (v1 ++ v2) = (cellsAt k l1 v1 ∗ cellsAt k l2 v2)
  | [], _, [], _, _ => by simp [cellsAt]
  | x :: l1, l2, v :: v1, v2, h => by
    have ih := cellsAt_append (k := k) (l1 := l1) (l2 := l2) (v1 := v1) (v2 := v2) (by simpa using h)
    simp only [List.cons_append, cellsAt, ih]
    ac_rfl
  | [], _, _ :: _, _, h => by simp at h
  | _ :: _, _, [], _, h => by simp at h

theorem cellsAt_length {k : Option Kind} : ∀ {l : List Cell} {v : List Int} {h : PHeap}, cellsAt k l v h → l.length = v.length
  | [], [], _, _ => rfl
  | x :: l, v :: vs, h, hh => by
    obtain ⟨_, b, _, _, _, h2⟩ := hh
    simp [cellsAt_length h2]
  | [], _ :: _, _, hh => hh.1.elim
  | _ :: _, [], _, hh => hh.1.elim

theorem flatten_length {mat : Matrix} {R C : Int} (hr : Rect mat R C) : mat.flatten.length = R.toNat * C.toNat := by
  obtain ⟨h1, h2⟩ := hr
  have : R.toNat = mat.length := by omega
  rw [this]
  clear h1 this
  induction mat with
  | nil => simp
  | cons r mat ih =>
    have hr := h2 r (by simp)
    simp only [List.flatten_cons, List.length_append, List.length_cons, ih (fun r' hr' => h2 r' (by simp [hr']))]
    have : r.length = C.toNat := by omega
    rw [this, Nat.add_mul, Nat.one_mul, Nat.add_comm]

/-- The index of an element in the array of the elements. -/
def flatIdx (C i j : Int) : Nat := i.toNat * C.toNat + j.toNat

theorem flatten_get {mat : Matrix} {C : Int} : ∀ {i : Nat} {j : Nat}, (∀ r ∈ mat, (r.length : Int) = C) → (j : Int) < C →
    mat.flatten[i * C.toNat + j]? = (mat[i]?.getD [])[j]? := by
  induction mat with
  | nil => intro i j _ _; simp
  | cons r mat ih =>
    intro i j h hj
    have hr : r.length = C.toNat := by have := h r (by simp); omega
    cases i with
    | zero =>
      simp only [List.flatten_cons, Nat.zero_mul, Nat.zero_add, List.getElem?_cons_zero, Option.getD_some]
      rw [List.getElem?_append_left (by omega)]
    | succ i =>
      simp only [List.flatten_cons, List.getElem?_cons_succ]
      rw [List.getElem?_append_right (by rw [hr, Nat.add_mul]; omega)]
      rw [← ih (fun r' hr' => h r' (by simp [hr'])) hj]
      congr 1
      rw [hr, Nat.add_mul]; omega

theorem flatten_set {mat : Matrix} {C : Int} : ∀ {i j : Nat} {v : Int} (hi : i < mat.length),
    (∀ r ∈ mat, (r.length : Int) = C) → (j : Int) < C →
    (mat.set i (mat[i].set j v)).flatten = mat.flatten.set (i * C.toNat + j) v := by
  induction mat with
  | nil => intro i j v hi; simp at hi
  | cons r mat ih =>
    intro i j v hi h hj
    have hr : r.length = C.toNat := by have := h r (by simp); omega
    cases i with
    | zero =>
      simp only [List.set_cons_zero, List.getElem_cons_zero, List.flatten_cons, Nat.zero_mul, Nat.zero_add]
      rw [List.set_append_left _ _ (by omega)]
    | succ i =>
      simp only [List.set_cons_succ, List.getElem_cons_succ, List.flatten_cons]
      rw [ih (by simpa using hi) (fun r' hr' => h r' (by simp [hr'])) hj]
      rw [List.set_append_right _ _ (by rw [hr, Nat.add_mul]; omega)]
      congr 2
      rw [hr, Nat.add_mul]; omega

/-! ## Focus on one element -/

/-- A matrix without its element array at `q` and without the memory of one element. -/
def hole (k : Option Kind) (m : Ptr) (R C : Int) (q : Ptr) (l1 l2 : List Cell) (v1 v2 : List Int) : Assn :=
  m ↦ .rows (rowPtrs q R C) ∗ cellsAt k l1 v1 ∗ cellsAt k l2 v2

theorem idx_lt {R C i j : Int} (hi : 0 ≤ i) (hi' : i < R) (hj : 0 ≤ j) (hj' : j < C) : flatIdx C i j < R.toNat * C.toNat := by
  unfold flatIdx
  have h1 : i.toNat + 1 ≤ R.toNat := by omega
  have := Nat.mul_le_mul_right C.toNat h1
  rw [Nat.add_mul] at this
  omega

theorem get2_bounds {mat : Matrix} {R C i j v : Int} (hr : Rect mat R C) (h : get2 mat i j = .ok v) :
    0 ≤ i ∧ i < R ∧ 0 ≤ j ∧ j < C ∧ mat.flatten[flatIdx C i j]? = some v := by
  unfold get2 at h
  split at h
  · cases h
  · rename_i hn
    split at h
    · cases h
    · rename_i r e
      split at h
      · cases h
      · rename_i x ex
        injection h with h
        subst h
        obtain ⟨h1, e1⟩ := List.getElem?_eq_some_iff.mp e
        have hl := hr.2 r (by rw [← e1]; exact List.getElem_mem h1)
        obtain ⟨h2, e2⟩ := List.getElem?_eq_some_iff.mp ex
        have := hr.1
        refine ⟨by omega, by omega, by omega, by omega, ?_⟩
        unfold flatIdx
        rw [flatten_get hr.2 (by omega), e]
        exact ex

theorem set2_bounds {mat mat' : Matrix} {R C i j v : Int} (hr : Rect mat R C) (h : set2 mat i j v = .ok mat') :
    0 ≤ i ∧ i < R ∧ 0 ≤ j ∧ j < C ∧ mat'.flatten = mat.flatten.set (flatIdx C i j) v ∧ Rect mat' R C := by
  unfold set2 at h
  split at h
  · cases h
  · rename_i hn
    split at h
    · cases h
    · rename_i r e
      split at h
      · rename_i hjl
        injection h with h
        obtain ⟨h1, e1⟩ := List.getElem?_eq_some_iff.mp e
        have hl := hr.2 r (by rw [← e1]; exact List.getElem_mem h1)
        have := hr.1
        have hb : 0 ≤ i ∧ i < R ∧ 0 ≤ j ∧ j < C := ⟨by omega, by omega, by omega, by omega⟩
        refine ⟨hb.1, hb.2.1, hb.2.2.1, hb.2.2.2, ?_, ?_⟩
        · rw [← h, ← e1]
          exact flatten_set h1 hr.2 (by omega)
        · obtain ⟨m2, e2, r2, _⟩ := set2_ok hr hb.1 hb.2.1 hb.2.2.1 hb.2.2.2 v
          unfold set2 at e2
          rw [if_neg hn, e] at e2
          simp only [hjl, if_true] at e2
          injection e2 with e2
          rw [← h, e2]; exact r2
      · cases h

/-- A non empty matrix, seen around one element. -/
theorem matAt_focus {k : Option Kind} {m : Ptr} {R C : Int} {mat : Matrix} {i j v : Int} (hi : 0 ≤ i) (hi' : i < R) (hj : 0 ≤ j) (hj' : j < C)
    (hv : mat.flatten[flatIdx C i j]? = some v) {h : PHeap} (hh : matAt k m R C mat h) :
    Rect mat R C ∧ ∃ q l1 x l2 v1 v2, l1.length = flatIdx C i j ∧ l1.length = v1.length ∧ mat.flatten = v1 ++ v :: v2 ∧
      (q ↦ .ints (l1 ++ x :: l2) ∗ cellAt k x v ∗ hole k m R C q l1 l2 v1 v2) h := by
  unfold matAt at hh
  rw [pur_sep_iff, if_neg (by omega)] at hh
  obtain ⟨hr, q, cells, hh⟩ := hh
  have hl : cells.length = mat.flatten.length := by
    obtain ⟨_, _, _, _, _, hh⟩ := hh
    obtain ⟨_, _, _, _, _, hh⟩ := hh
    exact cellsAt_length hh
  obtain ⟨hlt, ev⟩ := List.getElem?_eq_some_iff.mp hv
  generalize flatIdx C i j = n at *
  refine ⟨hr, q, cells.take n, cells[n]'(by omega), cells.drop (n + 1), mat.flatten.take n, mat.flatten.drop (n + 1), by simp only [List.length_take]; omega,
    by simp only [List.length_take]; omega, ?_, ?_⟩
  · rw [← ev]; exact split_at hlt
  · have e1 : cells = cells.take n ++ cells[n]'(by omega) :: cells.drop (n + 1) := split_at (by omega)
    have e2 : mat.flatten = mat.flatten.take n ++ v :: mat.flatten.drop (n + 1) := by rw [← ev]; exact split_at hlt
    rw [← e1]
    have e3 : cellsAt k cells mat.flatten = (cellsAt k (cells.take n) (mat.flatten.take n) ∗ cellAt k (cells[n]'(by omega)) v ∗
        cellsAt k (cells.drop (n + 1)) (mat.flatten.drop (n + 1))) := by
      have := cellsAt_append (k := k) (l1 := cells.take n) (l2 := cells[n]'(by omega) :: cells.drop (n + 1))
        (v1 := mat.flatten.take n) (v2 := v :: mat.flatten.drop (n + 1)) (by simp only [List.length_take]; omega)
      rw [← e1, ← e2] at this
      rw [this]; rfl
    rw [e3] at hh
    unfold hole
    have e4 : ∀ A B X Y Z : Assn, (B ∗ X ∗ A ∗ Y ∗ Z) = (A ∗ B ∗ Y ∗ X ∗ Z) := by intros; ac_rfl
    rw [e4]; exact hh

theorem matAt_unfocus {k : Option Kind} {m : Ptr} {R C : Int} {mat : Matrix} {i j v : Int} (hr : Rect mat R C) (hi : 0 ≤ i) (hi' : i < R) (hj : 0 ≤ j) (hj' : j < C)
    {q : Ptr} {l1 l2 : List Cell} {v1 v2 : List Int} {x : Cell} (hl : l1.length = v1.length) (hm : mat.flatten = v1 ++ v :: v2) :
    ∀ h, (q ↦ .ints (l1 ++ x :: l2) ∗ cellAt k x v ∗ hole k m R C q l1 l2 v1 v2) h → matAt k m R C mat h := by
  intro h hh
  unfold matAt
  rw [pur_sep_iff, if_neg (by omega)]
  refine ⟨hr, q, l1 ++ x :: l2, ?_⟩
  show (m ↦ .rows (rowPtrs q R C) ∗ q ↦ .ints (l1 ++ x :: l2) ∗ cellsAt k (l1 ++ x :: l2) mat.flatten) h
  rw [hm, cellsAt_append hl, show cellsAt k (x :: l2) (v :: v2) = (cellAt k x v ∗ cellsAt k l2 v2) from rfl]
  unfold hole at hh
  have e4 : ∀ A B X Y Z : Assn, (A ∗ B ∗ Y ∗ X ∗ Z) = (B ∗ X ∗ A ∗ Y ∗ Z) := by intros; ac_rfl
  rw [e4]; exact hh

theorem rowPtrs_nth {q : Ptr} {R C i : Int} (hi : 0 ≤ i) (hi' : i < R) : nth (rowPtrs q R C) i = .ok (q, i.toNat * C.toNat) := by
  unfold nth rowPtrs
  rw [if_neg (by omega), List.getElem?_map, List.getElem?_range (by omega)]
  rfl

theorem nth_mid {α : Type} {l1 l2 : List α} {x : α} {i : Int} (h : (l1.length : Int) = i) : nth (l1 ++ x :: l2) i = .ok x := by
  unfold nth
  rw [if_neg (by omega), List.getElem?_append_right (by omega)]
  have : i.toNat - l1.length = 0 := by omega
  rw [this]; rfl

theorem setNth_mid {α : Type} {l1 l2 : List α} {x y : α} {i : Int} (h : (l1.length : Int) = i) :
    setNth (l1 ++ x :: l2) i y = .ok (l1 ++ y :: l2) := by
  unfold setNth
  rw [if_neg (by simp; omega), List.set_append_right _ _ (by omega)]
  have : i.toNat - l1.length = 0 := by omega
  rw [this]; rfl

/-! ## Access to one element -/

theorem readCell_spec {m q : Ptr} {R C i j : Int} {l1 l2 : List Cell} {x : Cell} (hi : 0 ≤ i) (hi' : i < R) (hj : 0 ≤ j)
    (hl : l1.length = flatIdx C i j) :
    Triple (m ↦ .rows (rowPtrs q R C) ∗ q ↦ .ints (l1 ++ x :: l2)) (readCell m i j)
      (fun r => pur (r = x) ∗ m ↦ .rows (rowPtrs q R C) ∗ q ↦ .ints (l1 ++ x :: l2)) := by
  unfold readCell
  refine Triple.loadStep rfl ?_
  refine Triple.liftStep rfl ?_
  refine Triple.liftStep (rowPtrs_nth hi hi') ?_
  refine Triple.loadStep (b := .ints (l1 ++ x :: l2)) (F := m ↦ .rows (rowPtrs q R C)) (by ac_rfl) ?_
  refine Triple.liftStep rfl ?_
  refine Triple.liftLast (nth_mid (x := x) ?_)
  unfold flatIdx at hl
  rw [hl]
  simp only [Int.natCast_add, Int.toNat_of_nonneg hj]

theorem writeCell_spec {m q : Ptr} {R C i j : Int} {l1 l2 : List Cell} {x : Cell} (y : Cell) (hi : 0 ≤ i) (hi' : i < R) (hj : 0 ≤ j)
    (hl : l1.length = flatIdx C i j) :
    Triple (m ↦ .rows (rowPtrs q R C) ∗ q ↦ .ints (l1 ++ x :: l2)) (writeCell m i j y)
      (fun _ => m ↦ .rows (rowPtrs q R C) ∗ q ↦ .ints (l1 ++ y :: l2)) := by
  unfold writeCell
  refine Triple.loadStep rfl ?_
  refine Triple.liftStep rfl ?_
  refine Triple.liftStep (rowPtrs_nth hi hi') ?_
  refine Triple.loadStep (b := .ints (l1 ++ x :: l2)) (F := m ↦ .rows (rowPtrs q R C)) (by ac_rfl) ?_
  refine Triple.liftStep rfl ?_
  refine Triple.liftStep (setNth_mid (x := x) (y := y) ?_) ?_
  · unfold flatIdx at hl
    rw [hl]
    simp only [Int.natCast_add, Int.toNat_of_nonneg hj]
  · refine Triple.last (Triple.store q _ (.ints (l1 ++ y :: l2))) (F := m ↦ .rows (rowPtrs q R C)) (by ac_rfl) ?_
    intro _ h hh
    rw [sep_comm]; exact hh

end Osl.Mem
