import Verif.HeapListProps
import Verif.HeapExample
/-!
# Relation lists in memory: concrete runs and misuses
-/

namespace Osl.Mem

section
local instance : Allocator := bumpAlloc

/-- A relation with one element in simple precision (3 blocks) and a list with two copies of it (2 nodes): 3 + 2 * 4 blocks. -/
def demoList [Allocator] : M (Ptr × Ptr) := do
  let r ← pmalloc Cfg.std PREC_SP 1 2
  let a ← listNode Cfg.std r
  let b ← listNode Cfg.std r
  let h ← listPush 0 a
  let h ← listPush h b
  pure (r, h)

set_option maxRecDepth 8000 in
/-- A run: a stack of two elements is built, duplicated (12 blocks in the stack), filtered (no element is an access: nothing is
left of the copy), and everything is freed. -/
example : blocksLeft demoList = some 11 ∧
    blocksLeft (do
      let d ← demoList
      listDup Cfg.std d.2) = some 15 ∧
    blocksLeft (do
      let d ← demoList
      let h ← listDup Cfg.std d.2
      listFilter Cfg.std h TYPE_ACCESS) = some 15 ∧
    blocksLeft (do
      let d ← demoList
      listSetType d.2 TYPE_READ
      listFilter Cfg.std d.2 TYPE_ACCESS) = some 19 ∧
    blocksLeft (do
      let d ← demoList
      let h ← listDup Cfg.std d.2
      let h ← listDrop Cfg.std h
      let t ← listPop h
      listFree Cfg.std t.1
      let h ← listDestroy Cfg.std t.2
      relFree Cfg.std d.1
      pure h) = some 0 := by decide +kernel

set_option maxRecDepth 8000 in
/-- Finding (C51): pushing a list of two nodes loses the second node: after the deallocation of the stack, its 4 blocks (node,
relation, matrix) are left. -/
theorem list_push_leak :
    blocksLeft (do
      let d ← demoList
      let h ← listPush 0 d.2
      let h ← listDestroy Cfg.std h
      relFree Cfg.std d.1
      pure h) = some 4 := by decide +kernel

set_option maxRecDepth 8000 in
/-- Pushing the stack on itself, or adding a list to itself, makes a cycle: the deallocation then uses a freed node, or a list cannot be counted. -/
theorem list_cycle_ub :
    undefinedRun (do
      let d ← demoList
      let h ← listPush d.2 d.2
      listFree Cfg.std h) = true ∧
    undefinedRun (do
      let d ← demoList
      let h ← listAdd d.2 d.2
      listCount h) = true := by decide +kernel

end

/-- Allocate a relation list. -/
def buildList [Allocator] (c : Cfg) : RList → M Ptr
  | [] => pure 0
  | e :: l => do
    let n ← buildList c l
    let x ← buildRel c e
    alloc (.ptrs [x, n])

theorem buildList_spec [Allocator] {c : Cfg} : ∀ {l : RList}, (∀ e ∈ l, ∀ a ∈ e, kind c a.precision ≠ none ∧ Rect a.m a.nb_rows a.nb_columns) →
    Triple emp (buildList c l) (fun p => rlistAt c p l)
  | [], _ => Triple.ret (fun h hh => ⟨rfl, hh⟩)
  | e :: l, hl => by
    refine Triple.bind (buildList_spec (fun x hx => hl x (by simp [hx]))) (fun n => ?_)
    refine Triple.step (P := emp) (buildRel_spec (hl e (by simp))) (by rw [emp_sep]) (fun x => ?_)
    refine Triple.last (P := emp) (Triple.alloc _) (by rw [emp_sep]) (fun p h hh => ?_)
    have hh' : ((p ↦ .ptrs [x, n] ∗ relAt c x e) ∗ rlistAt c n l) h := hh.perm (by ac_rfl)
    exact ⟨n, sep_mono (fun h hh => ⟨x, hh⟩) (fun _ h => h) hh'⟩

/-- The hypothesis of the theorems of C51 can be met for every list of such relations. -/
theorem rlistAt_exists {c : Cfg} {l : RList} (hl : ∀ e ∈ l, ∀ a ∈ e, kind c a.precision ≠ none ∧ Rect a.m a.nb_rows a.nb_columns) :
    ∃ (h : Heap) (p : Ptr), rlistAt c p l h.get := by
  have := @buildList_spec bumpAlloc c l hl emp ⟨[]⟩ (by rw [sep_emp]; rfl)
  obtain ⟨p, h', _, hh⟩ := this
  rw [sep_emp] at hh
  exact ⟨h', p, hh⟩

end Osl.Mem
