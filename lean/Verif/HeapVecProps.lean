import Verif.HeapVec
import Verif.HeapTac
import Verif.HeapRelationMem
/-!
# Vectors in memory: what the functions do (C73)
-/

set_option linter.unusedSectionVars false

namespace Osl.Mem

variable {α β : Type}

/-! ## Assertions (specification) -/

/-- The memory of an array of integers: NULL when it is empty. -/
def arrAt (k : Option Kind) (v : Ptr) (l : List Int) : Assn :=
  if l = [] then pur (v = 0) else ex fun cells => v ↦ .ints cells ∗ cellsAt k cells l

/-- The memory of the vector `x` at the address `p`: the structure, the array and the GMP integers. -/
def vecAt (c : Cfg) (p : Ptr) (x : Vec) : Assn :=
  ex fun v => p ↦ .vec x.precision x.size v ∗ arrAt (kind c x.precision) v x.v

/-- The memory of a vector which may be NULL. -/
def optVecAt (c : Cfg) (p : Ptr) : Option Vec → Assn
  | none => pur (p = 0)
  | some x => vecAt c p x

theorem vecAt_ne {c : Cfg} {p : Ptr} {x : Vec} : ∀ h, vecAt c p x h → p ≠ 0 := by
  rintro h ⟨v, hh⟩
  exact pto_ne_sep h hh

theorem loadVec_spec {p : Ptr} {pr s : Int} {v : Ptr} : Triple (p ↦ .vec pr s v) (loadVec p) (fun r => pur (r = (pr, s, v)) ∗ p ↦ .vec pr s v) := by
  unfold loadVec
  refine Triple.loadStep (F := emp) (by rw [sep_emp]) ?_
  exact Triple.liftLast rfl

/-! ## One integer -/

theorem readLoc_spec {q : Ptr} {i : Int} {l1 l2 : List Cell} {x : Cell} (hl : (l1.length : Int) = i) :
    Triple (q ↦ .ints (l1 ++ x :: l2)) (readLoc (q, i)) (fun r => pur (r = x) ∗ q ↦ .ints (l1 ++ x :: l2)) := by
  unfold readLoc
  refine Triple.loadStep (F := emp) (by rw [sep_emp]) ?_
  refine Triple.liftStep rfl ?_
  exact Triple.liftLast (nth_mid hl)

theorem writeLoc_spec {q : Ptr} {i : Int} {l1 l2 : List Cell} {x : Cell} (y : Cell) (hl : (l1.length : Int) = i) :
    Triple (q ↦ .ints (l1 ++ x :: l2)) (writeLoc (q, i) y) (fun _ => q ↦ .ints (l1 ++ y :: l2)) := by
  unfold writeLoc
  refine Triple.loadStep (F := emp) (by rw [sep_emp]) ?_
  refine Triple.liftStep rfl ?_
  refine Triple.liftStep (setNth_mid hl) ?_
  exact Triple.store q _ _

/-- The value of one integer is read. -/
theorem getLoc_spec {k : Option Kind} {q : Ptr} {i v : Int} {l1 l2 : List Cell} {x : Cell} (hl : (l1.length : Int) = i) :
    Triple (q ↦ .ints (l1 ++ x :: l2) ∗ cellAt k x v) (getLoc k (q, i)) (fun r => pur (r = v) ∗ q ↦ .ints (l1 ++ x :: l2) ∗ cellAt k x v) := by
  unfold getLoc cellAt
  match k with
  | none => exact Triple.of_fact (φ := False) (by rintro h ⟨_, _, _, _, _, hf, _⟩; exact hf) (fun h => h.elim)
  | some (.fixed w) =>
    dsimp only
    hstep (readLoc_spec (x := x) (l2 := l2) hl)
    hlast (lift_spec (x := asVal (.val v)) (a := v) rfl)
    hret
  | some .mp =>
    dsimp only
    hstep (readLoc_spec (x := x) (l2 := l2) hl)
    refine Triple.liftStep rfl ?_
    hstep Triple.load
    hlast (lift_spec (x := asMpz (.mpz v)) (a := v) rfl)
    hret

/-- The value of one integer is written. -/
theorem setLoc_spec {k : Option Kind} {q : Ptr} {i v : Int} (w : Int) {l1 l2 : List Cell} {x : Cell} (hl : (l1.length : Int) = i) :
    Triple (q ↦ .ints (l1 ++ x :: l2) ∗ cellAt k x v) (setLoc k (q, i) w) (fun _ => ex fun y => q ↦ .ints (l1 ++ y :: l2) ∗ cellAt k y w) := by
  unfold setLoc cellAt
  match k with
  | none => exact Triple.of_fact (φ := False) (by rintro h ⟨_, _, _, _, _, hf, _⟩; exact hf) (fun h => h.elim)
  | some (.fixed _) =>
    dsimp only
    hlast (writeLoc_spec (x := x) (l2 := l2) (.val w) hl)
    hret
  | some .mp =>
    dsimp only
    hstep (readLoc_spec (x := x) (l2 := l2) hl)
    refine Triple.liftStep rfl ?_
    hstep Triple.load
    refine Triple.liftStep (a := v) rfl ?_
    hlast Triple.store
    hret

/-! ## An element of an array or of a matrix -/

theorem arrAt_focus {k : Option Kind} {q : Ptr} {l : List Int} {i : Nat} {v : Int} (hv : l[i]? = some v) {h : PHeap} (hh : arrAt k q l h) :
    ∃ l1 x l2, l1.length = i ∧ (q ↦ .ints (l1 ++ x :: l2) ∗ cellAt k x v ∗ cellsAt k l1 (l.take i) ∗ cellsAt k l2 (l.drop (i + 1))) h := by
  obtain ⟨hlt, ev⟩ := List.getElem?_eq_some_iff.mp hv
  unfold arrAt at hh
  rw [if_neg (by rintro rfl; simp at hlt)] at hh
  obtain ⟨cells, hh⟩ := hh
  have hl : cells.length = l.length := by
    obtain ⟨_, _, _, _, _, hh⟩ := hh
    exact cellsAt_length hh
  have e1 : cells = cells.take i ++ cells[i]'(by omega) :: cells.drop (i + 1) := split_at (by omega)
  have e2 : l = l.take i ++ v :: l.drop (i + 1) := by rw [← ev]; exact split_at hlt
  have e3 : cellsAt k cells l = (cellsAt k (cells.take i) (l.take i) ∗ cellAt k (cells[i]'(by omega)) v ∗ cellsAt k (cells.drop (i + 1)) (l.drop (i + 1))) := by
    have := cellsAt_append (k := k) (l1 := cells.take i) (l2 := cells[i]'(by omega) :: cells.drop (i + 1)) (v1 := l.take i) (v2 := v :: l.drop (i + 1))
      (by simp only [List.length_take]; omega)
    rw [← e1, ← e2] at this
    rw [this]; rfl
  refine ⟨cells.take i, cells[i]'(by omega), cells.drop (i + 1), by simp only [List.length_take]; omega, ?_⟩
  rw [← e1]
  rw [e3] at hh
  exact hh.perm (by ac_rfl)

theorem arrAt_unfocus {k : Option Kind} {q : Ptr} {l : List Int} {i : Nat} {v : Int} (hi : i < l.length) {l1 l2 : List Cell} {x : Cell} (hl : l1.length = i) :
    ∀ h, (q ↦ .ints (l1 ++ x :: l2) ∗ cellAt k x v ∗ cellsAt k l1 (l.take i) ∗ cellsAt k l2 (l.drop (i + 1))) h → arrAt k q (l.set i v) h := by
  intro h hh
  unfold arrAt
  rw [if_neg (by intro e; have := congrArg List.length e; simp at this; rw [this] at hi; simp at hi)]
  refine ⟨l1 ++ x :: l2, ?_⟩
  have e2 : l.set i v = l.take i ++ v :: l.drop (i + 1) := by rw [List.set_eq_take_append_cons_drop, if_pos hi]
  show (q ↦ .ints (l1 ++ x :: l2) ∗ cellsAt k (l1 ++ x :: l2) (l.set i v)) h
  rw [e2, cellsAt_append (by simp only [List.length_take]; omega)]
  show (q ↦ .ints (l1 ++ x :: l2) ∗ cellsAt k l1 (l.take i) ∗ cellAt k x v ∗ cellsAt k l2 (l.drop (i + 1))) h
  exact hh.perm (by ac_rfl)

/-- Reading `v[i]`. -/
theorem arr_get {k : Option Kind} {q : Ptr} {l : List Int} {i : Nat} {v : Int} (hv : l[i]? = some v) :
    Triple (arrAt k q l) (getLoc k (q, (i : Int))) (fun r => pur (r = v) ∗ arrAt k q l) := by
  refine Triple.opened_all (fun h0 hh => ?_)
  obtain ⟨l1, x, l2, hl, hh⟩ := arrAt_focus hv hh
  obtain ⟨hlt, ev⟩ := List.getElem?_eq_some_iff.mp hv
  refine ⟨_, hh, ?_⟩
  have e : l.set i v = l := by rw [← ev]; exact List.set_getElem_self hlt
  refine Triple.last (getLoc_spec (k := k) (q := q) (v := v) (l1 := l1) (x := x) (l2 := l2) (by omega)) (F := cellsAt k l1 (l.take i) ∗ cellsAt k l2 (l.drop (i + 1))) (by ac_rfl) (fun r h hh => ?_)
  rw [sep_assoc] at hh
  obtain ⟨hr, hh⟩ := pur_sep_iff.mp hh
  refine pur_sep_iff.mpr ⟨hr, ?_⟩
  have := arrAt_unfocus (k := k) (q := q) (l := l) (v := v) (x := x) (l2 := l2) hlt hl h (hh.perm (by ac_rfl))
  rwa [e] at this

/-- Writing `v[i]`. -/
theorem arr_set {k : Option Kind} {q : Ptr} {l : List Int} {i : Nat} (w : Int) (hi : i < l.length) :
    Triple (arrAt k q l) (setLoc k (q, (i : Int)) w) (fun _ => arrAt k q (l.set i w)) := by
  refine Triple.opened_all (fun h0 hh => ?_)
  obtain ⟨l1, x, l2, hl, hh⟩ := arrAt_focus (List.getElem?_eq_getElem hi) hh
  refine ⟨_, hh, ?_⟩
  refine Triple.last (setLoc_spec (k := k) (q := q) (v := l[i]) (l1 := l1) (x := x) (l2 := l2) w (by omega)) (F := cellsAt k l1 (l.take i) ∗ cellsAt k l2 (l.drop (i + 1))) (by ac_rfl) (fun r h hh => ?_)
  rw [ex_sep] at hh
  obtain ⟨y, hh⟩ := hh
  exact arrAt_unfocus (k := k) (q := q) (l := l) (x := y) (l2 := l2) hi hl h (hh.perm (by ac_rfl))

theorem mloc_spec {m q : Ptr} {R C i j : Int} (hi : 0 ≤ i) (hi' : i < R) (hj : 0 ≤ j) :
    Triple (m ↦ .rows (rowPtrs q R C)) (mloc m i j) (fun r => pur (r = (q, (flatIdx C i j : Int))) ∗ m ↦ .rows (rowPtrs q R C)) := by
  unfold mloc
  refine Triple.loadStep (F := emp) (by rw [sep_emp]) ?_
  refine Triple.liftStep rfl ?_
  refine Triple.liftStep (rowPtrs_nth hi hi') ?_
  refine Triple.ret (fun h hh => pur_sep_iff.mpr ⟨?_, hh⟩)
  unfold flatIdx
  simp only [Int.natCast_add, Int.toNat_of_nonneg hj]

/-- Reading `m[i][j]`. -/
theorem mat_get {k : Option Kind} {m : Ptr} {R C i j v : Int} {mat : Matrix} (hv : get2 mat i j = .ok v) :
    Triple (matAt k m R C mat) (mget k m i j) (fun r => pur (r = v) ∗ matAt k m R C mat) := by
  refine Triple.opened_all (fun h0 hh => ?_)
  obtain ⟨b1, b2, b3, b4, b5⟩ := get2_bounds (matAt_rect hh) hv
  obtain ⟨hr, q, l1, x, l2, v1, v2, hl, hl', hm, hh⟩ := matAt_focus b1 b2 b3 b4 b5 hh
  refine ⟨_, hh, ?_⟩
  unfold hole mget
  refine Triple.stepEq (mloc_spec (q := q) (C := C) b1 b2 b3) (F := q ↦ .ints (l1 ++ x :: l2) ∗ cellAt k x v ∗ cellsAt k l1 v1 ∗ cellsAt k l2 v2) (by ac_rfl) ?_
  refine Triple.last (getLoc_spec (k := k) (v := v) (by rw [hl])) (F := m ↦ .rows (rowPtrs q R C) ∗ cellsAt k l1 v1 ∗ cellsAt k l2 v2) (by ac_rfl) (fun r h hh => ?_)
  rw [sep_assoc] at hh
  obtain ⟨hr', hh⟩ := pur_sep_iff.mp hh
  refine pur_sep_iff.mpr ⟨hr', matAt_unfocus hr b1 b2 b3 b4 (q := q) (x := x) (l2 := l2) hl' hm h ?_⟩
  unfold hole
  exact hh.perm (by ac_rfl)

/-- Writing `m[i][j]`. -/
theorem mat_set {k : Option Kind} {m : Ptr} {R C i j w : Int} {mat mat' : Matrix} (hv : set2 mat i j w = .ok mat') :
    Triple (matAt k m R C mat) (mset k m i j w) (fun _ => matAt k m R C mat') := by
  refine Triple.opened_all (fun h0 hh => ?_)
  obtain ⟨b1, b2, b3, b4, b5, b6⟩ := set2_bounds (matAt_rect hh) hv
  have hlt := idx_lt b1 b2 b3 b4
  rw [← flatten_length (matAt_rect hh)] at hlt
  obtain ⟨hr, q, l1, x, l2, v1, v2, hl, hl', hm, hh⟩ := matAt_focus b1 b2 b3 b4 (List.getElem?_eq_getElem hlt) hh
  refine ⟨_, hh, ?_⟩
  unfold hole mset
  refine Triple.stepEq (mloc_spec (q := q) (C := C) b1 b2 b3) (F := q ↦ .ints (l1 ++ x :: l2) ∗ cellAt k x (mat.flatten[flatIdx C i j]) ∗ cellsAt k l1 v1 ∗ cellsAt k l2 v2) (by ac_rfl) ?_
  refine Triple.last (setLoc_spec (k := k) w (by rw [hl])) (F := m ↦ .rows (rowPtrs q R C) ∗ cellsAt k l1 v1 ∗ cellsAt k l2 v2) (by ac_rfl) (fun r h hh => ?_)
  rw [ex_sep] at hh
  obtain ⟨y, hh⟩ := hh
  refine matAt_unfocus b6 b1 b2 b3 b4 (q := q) (x := y) (l2 := l2) (v := w) (v2 := v2) hl' ?_ h ?_
  · rw [b5]; exact list_set_mid hm (by omega)
  · unfold hole
    exact hh.perm (by ac_rfl)

/-! ## Allocation and deallocation -/

/-- The first `n` elements of a new array are initialised. -/
def arrInv (k : Option Kind) (v : Ptr) (N n : Nat) : Assn :=
  ex fun l : List Cell => pur (l.length = n) ∗ v ↦ .ints (l ++ List.replicate (N - n) .garbage) ∗ cellsAt k l (List.replicate n 0)

theorem arrInit_spec [Allocator] {k : Option Kind} (hk : k ≠ none) {v : Ptr} {N : Nat} :
    Triple (v ↦ .ints (List.replicate N .garbage)) (Mem.forM 0 N (fun i => do let x ← initSi k 0; writeLoc (v, i) x))
      (fun _ => ex fun l => v ↦ .ints l ∗ cellsAt k l (List.replicate N 0)) := by
  have loop : Triple (arrInv k v N (0 : Int).toNat) (Mem.forM 0 N (fun i => do let x ← initSi k 0; writeLoc (v, i) x)) (fun _ => arrInv k v N (N : Int).toNat) := by
    refine Triple.forM (Inv := fun i => arrInv k v N i.toNat) (by omega) (fun i hi hi' => ?_)
    refine Triple.exi (fun l => Triple.fact (fun hl => ?_))
    refine Triple.step (F := v ↦ .ints (l ++ List.replicate (N - i.toNat) .garbage) ∗ cellsAt k l (List.replicate i.toNat 0)) (initSi_spec hk 0) (by rw [emp_sep]) (fun x => ?_)
    have hg : List.replicate (N - i.toNat) Cell.garbage = .garbage :: List.replicate (N - (i.toNat + 1)) .garbage := by
      rw [← List.replicate_succ]; congr 1; omega
    rw [hg]
    refine Triple.last (F := cellAt k x 0 ∗ cellsAt k l (List.replicate i.toNat 0))
      (writeLoc_spec (q := v) (x := .garbage) (l1 := l) (l2 := List.replicate (N - (i.toNat + 1)) .garbage) x (by omega)) (by ac_rfl) ?_
    intro _ h hh
    have e : (i + 1).toNat = i.toNat + 1 := by omega
    rw [e]
    refine ⟨l ++ [x], pur_sep_iff.mpr ⟨by simp [hl], ?_⟩⟩
    rw [cellsAt_snoc hl, List.append_assoc]
    exact hh.perm (by simp only [List.singleton_append]; ac_rfl)
  refine loop.conseq ?_ ?_
  · intro h hh
    refine ⟨[], pur_sep_iff.mpr ⟨rfl, ?_⟩⟩
    simpa [cellsAt] using hh
  · rintro _ h ⟨l, hh⟩
    obtain ⟨hl, hh⟩ := pur_sep_iff.mp hh
    refine ⟨l, ?_⟩
    simpa using hh

theorem Vec.pmalloc_inv {c : Cfg} {pr size : Int} {x : Vec} (h : Vec.pmalloc c pr size = .ok x) :
    0 ≤ size ∧ x = ⟨pr, List.replicate size.toNat 0⟩ ∧ (size ≠ 0 → kind c pr ≠ none) := by
  unfold Vec.pmalloc at h
  split at h
  · cases h
  · rename_i hs
    cases hk : kind c pr with
    | some k =>
      have e : size = (size.toNat : Int) := by omega
      have := Vec.pmalloc_ok (c := c) (p := pr) (by rw [hk]; simp) size.toNat
      unfold Vec.pmalloc at this
      rw [if_neg (by omega)] at this
      rw [← e] at this
      rw [this] at h
      cases h
      exact ⟨by omega, rfl, by simp⟩
    | none =>
      by_cases h0 : size = 0
      · subst h0
        cases h
        exact ⟨by omega, rfl, by simp⟩
      · obtain ⟨n, hn⟩ : ∃ n, size.toNat = n + 1 := ⟨size.toNat - 1, by omega⟩
        rw [hn] at h
        simp [Out.mapOut, List.replicate_succ, OInt.init_set_si, hk] at h

theorem arrAt_of {k : Option Kind} {v : Ptr} {n : Nat} (hn : n ≠ 0) {l : List Cell} : ∀ h, (v ↦ .ints l ∗ cellsAt k l (List.replicate n 0)) h → arrAt k v (List.replicate n 0) h := by
  intro h hh
  unfold arrAt
  rw [if_neg (by cases n with | zero => exact absurd rfl hn | succ n => simp [List.replicate_succ])]
  exact ⟨l, hh⟩

/-- C73: `osl_vector_pmalloc` allocates exactly a vector of zeros. -/
theorem vector_pmalloc_memory [Allocator] {c : Cfg} {pr size : Int} {x : Vec} (h : Vec.pmalloc c pr size = .ok x) :
    Triple emp (vecPmalloc c pr size) (fun p => vecAt c p x) := by
  obtain ⟨hs, rfl, hk⟩ := Vec.pmalloc_inv h
  unfold vecPmalloc
  refine Triple.bind (Triple.alloc _) (fun vector => ?_)
  by_cases h0 : size = 0
  · subst h0
    rw [if_pos rfl]
    refine Triple.ret (fun h hh => ⟨0, ?_⟩)
    show (vector ↦ .vec pr 0 0 ∗ arrAt (kind c pr) 0 []) h
    unfold arrAt
    rw [if_pos rfl, pur_true rfl, sep_emp]
    exact hh
  · rw [if_neg h0, if_neg (by omega)]
    hstep (Triple.alloc (.ints (List.replicate size.toNat .garbage)))
    rename_i v
    hstep (Triple.store (p := vector))
    have e : (size.toNat : Int) = size := by omega
    have := arrInit_spec (hk h0) (v := v) (N := size.toNat)
    rw [e] at this
    hstep this
    rename_i l
    hconv (arrAt_of (k := kind c pr) (v := v) (l := l) (n := size.toNat) (by omega))
    refine Triple.ret (fun h hh => ⟨v, ?_⟩)
    show (vector ↦ .vec pr ((List.replicate size.toNat (0 : Int)).length : Nat) v ∗ arrAt (kind c pr) v (List.replicate size.toNat 0)) h
    rw [List.length_replicate, e]
    exact hh.perm (by ac_rfl)

/-- C73: `osl_vector_malloc` likewise, with the precision of the environment. -/
theorem vector_malloc_memory [Allocator] {c : Cfg} {e : Option Str} {size : Int} {x : Vec} (h : Vec.pmalloc c (Util.get_precision c e) size = .ok x) :
    Triple emp (vecMalloc c e size) (fun p => vecAt c p x) := vector_pmalloc_memory h

/-- One element of the array is cleared. -/
theorem clearLoc_spec {k : Option Kind} {q : Ptr} {i v : Int} {l1 l2 : List Cell} {x : Cell} (hl : (l1.length : Int) = i) :
    Triple (q ↦ .ints (l1 ++ x :: l2) ∗ cellAt k x v) (clearLoc k (q, i)) (fun _ => ex fun y => q ↦ .ints (l1 ++ y :: l2)) := by
  unfold clearLoc cellAt
  match k with
  | none => exact Triple.of_fact (φ := False) (by rintro h ⟨_, _, _, _, _, hf, _⟩; exact hf) (fun h => h.elim)
  | some (.fixed _) =>
    dsimp only
    hlast (writeLoc_spec (x := x) (l2 := l2) (.val 0) hl)
    hret
  | some .mp =>
    dsimp only
    hstep (readLoc_spec (x := x) (l2 := l2) hl)
    refine Triple.liftStep rfl ?_
    hstep Triple.load
    refine Triple.liftStep (a := v) rfl ?_
    hlast Triple.free
    hret

theorem clearAll_spec {k : Option Kind} {q : Ptr} : ∀ (vals : List Int) (l1 l2 : List Cell),
    Triple (q ↦ .ints (l1 ++ l2) ∗ cellsAt k l2 vals) (Mem.forN (fun i => clearLoc k (q, i)) vals.length l1.length) (fun _ => ex fun l => q ↦ .ints l)
  | [], l1, [] => by
    refine Triple.ret (fun h hh => ⟨l1, ?_⟩)
    simpa [cellsAt] using hh
  | [], l1, x :: l2 => by
    refine Triple.of_fact (φ := False) ?_ (fun h => h.elim)
    rintro h ⟨_, _, _, _, _, hf⟩
    exact hf.1
  | v :: vals, l1, [] => by
    refine Triple.of_fact (φ := False) ?_ (fun h => h.elim)
    rintro h ⟨_, _, _, _, _, hf⟩
    exact hf.1
  | v :: vals, l1, x :: l2 => by
    refine Triple.step (clearLoc_spec (k := k) (q := q) (v := v) (l1 := l1) (x := x) (l2 := l2) rfl) (F := cellsAt k l2 vals) (by simp only [cellsAt]; ac_rfl) (fun _ => ?_)
    rw [ex_sep]
    refine Triple.exi (fun y => ?_)
    have := clearAll_spec (k := k) (q := q) vals (l1 ++ [y]) l2
    simp only [List.append_assoc, List.singleton_append, List.length_append, List.length_cons, List.length_nil] at this
    exact this

/-- C73: `osl_vector_free` frees exactly the vector: the structure, the array and the GMP integers. -/
theorem vector_free_memory {c : Cfg} (p : Ptr) (x : Vec) : Triple (vecAt c p x) (vecFree c p) (fun _ => emp) := by
  refine Triple.of_fact (fun h hh => vecAt_ne h hh) (fun hp => ?_)
  unfold vecFree
  rw [if_neg hp]
  refine Triple.exi (fun v => ?_)
  hstep loadVec_spec
  unfold arrAt
  by_cases h0 : x.v = []
  · rw [if_pos h0]
    hnorm
    rw [if_neg (by simp)]
    hlast Triple.free
    hret
  · rw [if_neg h0]
    hnorm
    hfact (fun h => pto_ne h (p := v) (b := .ints cells))
    intro hv
    rw [if_pos hv]
    have := clearAll_spec (k := kind c x.precision) (q := v) x.v [] cells
    simp only [List.nil_append, List.length_nil] at this
    have e : Mem.forM 0 (x.size : Int) (fun i => clearLoc (kind c x.precision) (v, i)) = Mem.forN (fun i => clearLoc (kind c x.precision) (v, i)) x.v.length ((0 : Nat) : Int) := rfl
    dsimp only
    rw [e]
    hstep this
    hstep Triple.free
    hlast Triple.free
    hret

/-- C73: `osl_vector_free` accepts NULL. -/
theorem vector_free_null_memory {c : Cfg} : Triple emp (vecFree c 0) (fun _ => emp) := by
  unfold vecFree
  rw [if_pos rfl]
  exact Triple.ret (fun h hh => hh)

end Osl.Mem
