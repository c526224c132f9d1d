import Verif.HeapRelationMem
/-!
# A concrete allocator, concrete runs, and misuses which are undefined
-/

namespace Osl.Mem

/-- The greatest address in use. -/
def maxAddr : List (Ptr × Block) → Nat
  | [] => 0
  | x :: l => Nat.max x.1 (maxAddr l)

theorem lookup_above : ∀ {l : List (Ptr × Block)} {p : Nat}, maxAddr l < p → lookup l p = none
  | [], _, _ => rfl
  | x :: l, p, h => by
    obtain ⟨q, b⟩ := x
    have h1 : q < p := Nat.lt_of_le_of_lt (Nat.le_max_left q (maxAddr l)) h
    have h2 : maxAddr l < p := Nat.lt_of_le_of_lt (Nat.le_max_right q (maxAddr l)) h
    simp only [lookup]
    rw [if_neg (Nat.ne_of_lt h1)]
    exact lookup_above h2

/-- An allocator: the first address after those in use. -/
@[reducible] def bumpAlloc : Allocator where
  pick h := maxAddr h.cells + 1
  fresh h := lookup_above (Nat.lt_succ_self _)
  nonnull h := Nat.succ_ne_zero _

/-- The number of blocks which are left by a run from the empty memory; `none` when it is undefined or an error. -/
def blocksLeft {α : Type} (m : M α) : Option Nat :=
  match m ⟨[]⟩ with
  | .ok (_, h) => some h.size
  | _ => none

/-- The run is undefined. -/
def undefinedRun {α : Type} (m : M α) : Bool :=
  match m ⟨[]⟩ with
  | .ub => true
  | _ => false

section
local instance : Allocator := bumpAlloc

set_option maxRecDepth 8000 in
/-- A run with multiple precision integers: three relations of 2 rows and 3 columns are in memory after a copy and a union (with a part
more): 1 + 1 + 2 parts of 1 + 2 + 6 blocks; then everything is freed. -/
example : blocksLeft (do
      let p ← pmalloc Cfg.std PREC_MP 2 3
      let q ← relClone Cfg.std p
      relUnion Cfg.std p q) = some 36 ∧
    blocksLeft (do
      let p ← pmalloc Cfg.std PREC_MP 2 3
      let q ← relClone Cfg.std p
      let u ← relUnion Cfg.std p q
      relInsert Cfg.std p p (-1)
      relRemoveRow Cfg.std u 0
      relFree Cfg.std p
      relFree Cfg.std q
      relFree Cfg.std u) = some 0 := by decide +kernel

/-- Finding (C50): adding a relation to itself makes a cycle: the relation cannot be freed (a part is used after it is freed) and its
parts cannot be counted. -/
theorem relation_add_self_violates :
    undefinedRun (do
      let p ← pmalloc Cfg.std PREC_SP 1 2
      let p ← relAdd p p
      relFree Cfg.std p) = true ∧
    undefinedRun (do
      let p ← pmalloc Cfg.std PREC_SP 1 2
      let p ← relAdd p p
      relCount p) = true := by decide +kernel

/-- Freeing a relation twice, or a relation which was linked in another one, is undefined. -/
theorem relation_double_free_ub :
    undefinedRun (do
      let p ← pmalloc Cfg.std PREC_SP 1 2
      relFree Cfg.std p
      relFree Cfg.std p) = true ∧
    undefinedRun (do
      let p ← pmalloc Cfg.std PREC_SP 1 2
      let q ← pmalloc Cfg.std PREC_SP 1 2
      let p ← relAdd p q
      relFree Cfg.std p
      relFree Cfg.std q) = true := by decide +kernel

/-- Finding (C50): after the removal of the first of two parts and the deallocation of the relation, 3 blocks (the first part)
are left; after the removal of the second one, none. -/
theorem relation_remove_part_leak :
    blocksLeft (do
      let p ← pmalloc Cfg.std PREC_SP 1 2
      let q ← pmalloc Cfg.std PREC_SP 1 2
      let r ← relAdd p q
      let r ← relRemovePart Cfg.std r p
      relFree Cfg.std r) = some 3 ∧
    blocksLeft (do
      let p ← pmalloc Cfg.std PREC_SP 1 2
      let q ← pmalloc Cfg.std PREC_SP 1 2
      let r ← relAdd p q
      let r ← relRemovePart Cfg.std r q
      relFree Cfg.std r) = some 0 := by decide +kernel

end

/-! ## Every relation can be in memory -/

/-- Allocate the integers of a list. -/
def buildCells [Allocator] (k : Option Kind) : List Int → M (List Cell)
  | [] => pure []
  | v :: l => do
    let x ← initSi k v
    let cs ← buildCells k l
    pure (x :: cs)

theorem buildCells_spec [Allocator] {k : Option Kind} (hk : k ≠ none) : ∀ l : List Int, Triple emp (buildCells k l) (fun cs => cellsAt k cs l)
  | [] => Triple.ret (fun _ h => h)
  | v :: l => by
    refine Triple.bind (initSi_spec hk v) (fun x => ?_)
    refine Triple.step (P := emp) (buildCells_spec hk l) (by rw [emp_sep]) (fun cs => ?_)
    exact Triple.ret (fun h hh => hh.perm (by simp only [cellsAt]; ac_rfl))

/-- Allocate a matrix with given elements. -/
def buildMat [Allocator] (k : Option Kind) (R C : Int) (m : Matrix) : M Ptr :=
  if R = 0 ∨ C = 0 then pure 0
  else do
    let cs ← buildCells k m.flatten
    let q ← alloc (.ints cs)
    alloc (.rows (rowPtrs q R C))

/-- Allocate a relation. -/
def buildRel [Allocator] (c : Cfg) : Rel → M Ptr
  | [] => pure 0
  | a :: l => do
    let n ← buildRel c l
    let m ← buildMat (kind c a.precision) a.nb_rows a.nb_columns a.m
    alloc (.rel (hdr a) m n)

theorem buildMat_spec [Allocator] {k : Option Kind} (hk : k ≠ none) {R C : Int} {m : Matrix} (hr : Rect m R C) :
    Triple emp (buildMat k R C m) (fun p => matAt k p R C m) := by
  unfold buildMat matAt
  simp only [pur_true hr, emp_sep]
  by_cases h0 : R = 0 ∨ C = 0
  · simp only [if_pos h0]
    exact Triple.ret (fun _ h => ⟨rfl, h⟩)
  · simp only [if_neg h0]
    refine Triple.bind (buildCells_spec hk _) (fun cs => ?_)
    refine Triple.step (P := emp) (Triple.alloc _) (by rw [emp_sep]) (fun q => ?_)
    refine Triple.last (P := emp) (Triple.alloc _) (by rw [emp_sep]) (fun p h hh => ⟨q, cs, hh⟩)

theorem buildRel_spec [Allocator] {c : Cfg} : ∀ {r : Rel}, (∀ a ∈ r, kind c a.precision ≠ none ∧ Rect a.m a.nb_rows a.nb_columns) →
    Triple emp (buildRel c r) (fun p => relAt c p r)
  | [], _ => Triple.ret (fun h hh => ⟨rfl, hh⟩)
  | a :: l, hr => by
    obtain ⟨hk, hm⟩ := hr a (by simp)
    refine Triple.bind (buildRel_spec (fun x hx => hr x (by simp [hx]))) (fun n => ?_)
    refine Triple.step (P := emp) (buildMat_spec hk hm) (by rw [emp_sep]) (fun m => ?_)
    refine Triple.last (P := emp) (Triple.alloc _) (by rw [emp_sep]) (fun p h hh => ?_)
    refine relAt_close (n := n) h ?_
    have hh' : ((p ↦ .rel (hdr a) m n ∗ matAt (kind c a.precision) m a.nb_rows a.nb_columns a.m) ∗ relAt c n l) h := hh.perm (by ac_rfl)
    exact sep_mono (fun h hh => ⟨m, hh⟩) (fun _ h => h) hh'

/-- The hypothesis of the theorems of C50 can be met for every relation whose matrices have the sizes they say, in a
supported precision. -/
theorem relAt_exists {c : Cfg} {r : Rel} (hr : ∀ a ∈ r, kind c a.precision ≠ none ∧ Rect a.m a.nb_rows a.nb_columns) :
    ∃ (h : Heap) (p : Ptr), relAt c p r h.get := by
  have := @buildRel_spec bumpAlloc c r hr emp ⟨[]⟩ (by rw [sep_emp]; rfl)
  obtain ⟨p, h', _, hh⟩ := this
  rw [sep_emp] at hh
  exact ⟨h', p, hh⟩

end Osl.Mem
