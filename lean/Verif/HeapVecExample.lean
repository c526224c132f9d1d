import Verif.HeapVecRel
import Verif.HeapExample
/-!
# Vectors in memory: concrete runs, misuses, and vectors in memory for every value (C73)
-/

namespace Osl.Mem

section
local instance vecAllocator : Allocator := bumpAlloc

set_option maxRecDepth 8000 in
/-- A run with GMP integers: two vectors of 3 elements and their sum take 3 * (1 + 1 + 3) blocks; a relation of one row made of a
vector takes 1 + 2 + 3 blocks; after a blank row, the insertion of a vector, the concatenation, a swap, an addition and the
deallocations, nothing is left. -/
example : blocksLeft (do
      let v ← vecPmalloc Cfg.std PREC_MP 3
      let w ← vecAddScalar Cfg.std v 5
      vecAdd Cfg.std v w) = some 15 ∧
    blocksLeft (do
      let v ← vecPmalloc Cfg.std PREC_MP 3
      vecTagInequality Cfg.std v
      relFromVector Cfg.std v) = some 11 ∧
    blocksLeft (do
      let v ← vecPmalloc Cfg.std PREC_MP 3
      vecTagInequality Cfg.std v
      let p ← relFromVector Cfg.std v
      relInsertBlankRow Cfg.std p 0
      relInsertVector Cfg.std p v (-1)
      let q ← relConcatVector Cfg.std p v
      relSwap Cfg.std q 0 3
      relAddVector Cfg.std q v 0
      relSubVector Cfg.std q v 1
      vecFree Cfg.std v
      relFree Cfg.std p
      relFree Cfg.std q) = some 0 := by decide +kernel

/-- What a run vecGives. -/
def runGives {α : Type} (m : M α) : Option α :=
  match m ⟨[]⟩ with
  | .ok (a, _) => some a
  | _ => none

set_option maxRecDepth 8000 in
/-- The values: 2 * (1, 0, 5) - (0, 0, 5) equals (2, 0, 5), and the second vector is a scalar. -/
example : runGives (do
      let v ← vecPmalloc Cfg.std PREC_MP 3
      let s ← vecAddScalar Cfg.std v 5
      let one ← vecPmalloc Cfg.std PREC_MP 3
      vecTagInequality Cfg.std one
      let a ← vecAdd Cfg.std one s
      let b ← vecMulScalar Cfg.std a 2
      let d ← vecSub Cfg.std b s
      let e ← vecAdd Cfg.std a one
      let r1 ← vecEqual Cfg.std d e
      let r2 ← vecEqual Cfg.std d a
      let r3 ← vecIsScalar Cfg.std s
      let r4 ← vecIsScalar Cfg.std a
      pure (r1, r2, r3, r4)) = some (true, false, true, false) := by decide +kernel

/-- Freeing a vector twice is undefined; a vector is not freed with the relation which is made of it. -/
theorem vector_double_free_ub :
    undefinedRun (do
      let v ← vecPmalloc Cfg.std PREC_MP 2
      vecFree Cfg.std v
      vecFree Cfg.std v) = true ∧
    blocksLeft (do
      let v ← vecPmalloc Cfg.std PREC_MP 2
      let p ← relFromVector Cfg.std v
      relFree Cfg.std p) = some 4 := by decide +kernel

end

/-! ## Every vector can be in memory -/

/-- Allocate a vector. -/
def buildVec [Allocator] (c : Cfg) (x : Vec) : M Ptr :=
  if x.v = [] then alloc (.vec x.precision x.size 0)
  else do
    let cs ← buildCells (kind c x.precision) x.v
    let q ← alloc (.ints cs)
    alloc (.vec x.precision x.size q)

theorem buildVec_spec [Allocator] {c : Cfg} {x : Vec} (hk : kind c x.precision ≠ none) : Triple emp (buildVec c x) (fun p => vecAt c p x) := by
  unfold buildVec
  by_cases h0 : x.v = []
  · rw [if_pos h0]
    refine (Triple.alloc _).post (fun p h hh => ⟨0, ?_⟩)
    show (p ↦ .vec x.precision x.size 0 ∗ arrAt (kind c x.precision) 0 x.v) h
    unfold arrAt
    rw [if_pos h0, pur_true rfl, sep_emp]
    exact hh
  · rw [if_neg h0]
    refine Triple.bind (buildCells_spec hk _) (fun cs => ?_)
    refine Triple.step (P := emp) (Triple.alloc _) (by rw [emp_sep]) (fun q => ?_)
    refine Triple.last (P := emp) (Triple.alloc _) (by rw [emp_sep]) (fun p h hh => ⟨q, ?_⟩)
    show (p ↦ .vec x.precision x.size q ∗ arrAt (kind c x.precision) q x.v) h
    unfold arrAt
    rw [if_neg h0, sep_ex]
    exact ⟨cs, hh⟩

/-- The hypothesis of the theorems of C73 can be met for every vector in a supported precision, beside every relation. -/
theorem vecAt_exists {c : Cfg} {r : Rel} {x y : Vec} (hr : ∀ a ∈ r, kind c a.precision ≠ none ∧ Rect a.m a.nb_rows a.nb_columns)
    (hx : kind c x.precision ≠ none) (hy : kind c y.precision ≠ none) :
    ∃ (h : Heap) (p v w : Ptr), (relAt c p r ∗ vecAt c v x ∗ vecAt c w y) h.get := by
  letI := bumpAlloc
  have t : Triple emp (do
      let p ← buildRel c r
      let v ← buildVec c x
      let w ← buildVec c y
      pure (p, v, w)) (fun q => relAt c q.1 r ∗ vecAt c q.2.1 x ∗ vecAt c q.2.2 y) := by
    refine Triple.bind (buildRel_spec hr) (fun p => ?_)
    refine Triple.step (P := emp) (buildVec_spec hx) (by rw [emp_sep]) (fun v => ?_)
    refine Triple.step (P := emp) (buildVec_spec hy) (by rw [emp_sep]) (fun w => ?_)
    exact Triple.ret (fun h hh => hh.perm (by ac_rfl))
  obtain ⟨q, h', _, hh⟩ := t emp ⟨[]⟩ (by rw [sep_emp]; rfl)
  rw [sep_emp] at hh
  exact ⟨h', q.1, q.2.1, q.2.2, hh⟩

/-- A relation `{ i >= 0, 0 == 0 }` and a vector `i - N >= 0`: the functions succeed (the first hypotheses of the theorems). -/
def vecExPart : Part := { precision := PREC_MP, type := TYPE_DOMAIN, nb_rows := 2, nb_columns := 4, nb_output_dims := 1, nb_input_dims := 0, nb_local_dims := 0, nb_parameters := 1, m := [[1, 1, 0, 0], [0, 0, 0, 0]] }

/-- The vector of the example. -/
def vecExVec : Vec := { precision := PREC_MP, v := [1, 1, -1, 0] }

/-- Whether the outcome is the given one. -/
def vecGives {α : Type} [DecidableEq α] (o : Out α) (a : α) : Bool :=
  match o with
  | .ok b => b = a
  | _ => false

example : vecGives (Rel.add_vector Cfg.std [vecExPart] (some vecExVec) 1) [{ vecExPart with m := [[1, 1, 0, 0], [1, 1, -1, 0]] }] = true ∧
    vecGives (Rel.sub_vector Cfg.std [vecExPart] (some vecExVec) 0) [{ vecExPart with m := [[1, 0, 1, 0], [0, 0, 0, 0]] }] = true ∧
    vecGives (Rel.replace_vector Cfg.std [vecExPart] (some vecExVec) 0) [{ vecExPart with m := [[1, 1, -1, 0], [0, 0, 0, 0]] }] = true ∧
    vecGives (Rel.insert_vector Cfg.std [vecExPart] (some vecExVec) 1) [{ vecExPart with nb_rows := 3, m := [[1, 1, 0, 0], [1, 1, -1, 0], [0, 0, 0, 0]] }] = true ∧
    vecGives (Rel.insert_blank_row Cfg.std [vecExPart] 0) [{ vecExPart with nb_rows := 3, m := [[0, 0, 0, 0], [1, 1, 0, 0], [0, 0, 0, 0]] }] = true ∧
    vecGives (Rel.swap_constraints Cfg.std [vecExPart] 0 1) [{ vecExPart with m := [[0, 0, 0, 0], [1, 1, 0, 0]] }] = true ∧
    vecGives (Vec.sub Cfg.std (some vecExVec) (some vecExVec)) { precision := PREC_MP, v := [0, 0, 0, 0] } = true ∧
    vecGives (Vec.mul_scalar Cfg.std (some vecExVec) (-3)) { precision := PREC_MP, v := [-3, -3, 3, 0] } = true := by decide +kernel

end Osl.Mem
