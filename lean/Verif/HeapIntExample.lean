import Verif.HeapIntProps3
import Verif.HeapVecExample
/-!
# Integers in memory: concrete runs, misuses, and arrays in memory for every value (C77)
-/

namespace Osl.Mem

section
local instance intAllocator : Allocator := bumpAlloc

/-- An array of three GMP integers 12, -18, 7, and a run. -/
def threeInts (m : Ptr → M Unit) : M (List Int) := do
  let x ← initSi (some .mp) 12
  let y ← initSi (some .mp) (-18)
  let z ← initSi (some .mp) 7
  let v ← alloc (.ints [x, y, z])
  m v
  let a ← getLoc (some .mp) (v, 0)
  let b ← getLoc (some .mp) (v, 1)
  let d ← getLoc (some .mp) (v, 2)
  pure [a, b, d]

/-- The same in single precision. -/
def threeNums (m : Ptr → M Unit) : M (List Int) := do
  let v ← alloc (.ints [.val 12, .val (-18), .val 7])
  m v
  let a ← getLoc (some (.fixed 64)) (v, 0)
  let b ← getLoc (some (.fixed 64)) (v, 1)
  let d ← getLoc (some (.fixed 64)) (v, 2)
  pure [a, b, d]

set_option maxRecDepth 8000 in
/-- Results stored in operands: `v[0] = lcm(v[0], v[1])`, `v[1] = v[1] - v[1]`, `v[1] = floor(v[1] / v[2])`, and a quotient and a remainder in their operands; the
run ends with the array and its integers, and nothing else. -/
example : runGives (threeInts (fun v => call2 (intLcm Cfg.std PREC_MP) v 0 0 1)) = some [36, -18, 7] ∧
    runGives (threeNums (fun v => call2 (intLcm Cfg.std PREC_SP) v 0 0 1)) = some [36, -18, 7] ∧
    runGives (threeNums (fun v => call2 (intSub Cfg.std PREC_SP) v 1 1 1)) = some [12, 0, 7] ∧
    runGives (threeNums (fun v => call2 (intFloorDivQ Cfg.std PREC_SP) v 1 1 2)) = some [12, -3, 7] ∧
    runGives (threeNums (fun v => intSwap (some (.fixed 64)) (v, 0) (v, 1))) = some [-18, 12, 7] ∧
    runGives (threeInts (fun v => intSwap (some .mp) (v, 2) (v, 2))) = some [12, -18, 7] ∧
    runGives (threeInts (fun v => do
      let x ← readLoc (v, 1)
      let y ← readLoc (v, 2)
      intFloorDivQR Cfg.std PREC_MP (v, 2) (v, 1) x y)) = some [12, 3, -3] ∧
    blocksLeft (threeInts (fun v => call2 (intLcm Cfg.std PREC_MP) v 0 0 1)) = some 4 ∧
    blocksLeft (threeNums (fun v => call2 (intLcm Cfg.std PREC_SP) v 0 0 1)) = some 1 ∧
    blocksLeft (threeInts (fun v => call1 (intIncrement Cfg.std PREC_MP) v 2 2)) = some 4 := by decide +kernel

set_option maxRecDepth 8000 in
/-- Misuses: with GMP, the quotient and the remainder in the same variable; an integer freed twice; a GMP integer whose content is used after it was cleared; a GMP
integer initialised with `osl_int_init_set_long`. -/
theorem int_misuse_ub :
    undefinedRun (threeInts (fun v => do
      let x ← readLoc (v, 0)
      let y ← readLoc (v, 1)
      intFloorDivQR Cfg.std PREC_MP (v, 2) (v, 2) x y)) = true ∧
    undefinedRun (do
      let v ← intMalloc Cfg.std PREC_MP
      intFree Cfg.std PREC_MP v
      intFree Cfg.std PREC_MP v) = true ∧
    undefinedRun (threeInts (fun v => do
      let x ← readLoc (v, 0)
      clearLoc (some .mp) (v, 0)
      intAssign Cfg.std PREC_MP (v, 1) x)) = true ∧
    undefinedRun (do
      let v ← alloc (.ints [.garbage])
      intInitSetLong Cfg.std PREC_MP (v, 0) 1) = true := by decide +kernel

end

/-- Every array of integers can be in memory. -/
theorem arrAt_exists {c : Cfg} {p : Int} {vs : List Int} (hk : kind c p ≠ none) : ∃ (h : Heap) (v : Ptr), (arrAt (kind c p) v vs) h.get := by
  letI := bumpAlloc
  by_cases h0 : vs = []
  · refine ⟨⟨[]⟩, 0, ?_⟩
    unfold arrAt
    rw [if_pos h0, pur_true rfl]
    rfl
  · have t : Triple emp (do
        let cs ← buildCells (kind c p) vs
        alloc (.ints cs)) (fun v => arrAt (kind c p) v vs) := by
      refine Triple.bind (buildCells_spec hk _) (fun cs => ?_)
      refine Triple.last (P := emp) (Triple.alloc _) (by rw [emp_sep]) (fun v h hh => ?_)
      unfold arrAt
      rw [if_neg h0]
      exact ⟨cs, hh⟩
    obtain ⟨v, h', _, hh⟩ := t emp ⟨[]⟩ (by rw [sep_emp]; rfl)
    rw [sep_emp] at hh
    exact ⟨h', v, hh⟩

end Osl.Mem
