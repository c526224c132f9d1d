import Verif.HeapQueryLib
import Verif.HeapLibExample
import Verif.HeapPrintExample
import Verif.LibraryExample
import Verif.ReadScopExample
/-!
# The read-only functions in memory: the hypotheses can be met, and concrete runs (C75)
-/

set_option linter.unusedSectionVars false

namespace Osl.Mem

/-- Two copies of every such list of scops can be in memory at the same time. -/
theorem two_scops_exist (c : Cfg) (e : Option Str) (n : Nat) {l k : Scops (DataAt n)} (hl : ∀ s ∈ l, LibScopFine c n s) (hk : ∀ s ∈ k, LibScopFine c n s) :
    ∃ (h : Heap) (p q : Ptr), (@libScopsAt bumpAlloc c e n p l ∗ @libScopsAt bumpAlloc c e n q k) h.get := by
  obtain ⟨m1, hm1⟩ := @makes_scops bumpAlloc c e n l hl
  obtain ⟨m2, hm2⟩ := @makes_scops bumpAlloc c e n k hk
  obtain ⟨p, h1, _, hh1⟩ := hm1 emp ⟨[]⟩ (by rw [sep_emp]; rfl)
  rw [sep_emp] at hh1
  obtain ⟨q, h2, _, hh2⟩ := hm2 (@libScopsAt bumpAlloc c e n p l) h1 (by rw [emp_sep]; exact hh1)
  exact ⟨h2, p, q, by rw [sep_comm]; exact hh2⟩

set_option maxRecDepth 20000 in
/-- A scop with strings, comments, bodies, arrays, coordinates and symbols, twice in memory: it is compared to its copy, and nothing changes. -/
example : ∃ (h : Heap) (p q : Ptr), @scopEqual Cfg.std (@equalAt Cfg.std 1) p q h = .ok (true, h) := by
  obtain ⟨h, p, q, hh⟩ := two_scops_exist Cfg.std (some "64".toList) 1 (l := [Data.exScopL]) (k := [Data.exScopL]) (all_cons exScopL_fine all_nil) (all_cons exScopL_fine all_nil)
  exact ⟨h, p, q, @lib_scop_equal_query bumpAlloc _ _ _ p q _ _ true (by decide +kernel) h (sep_anything hh)⟩

/-- The scop of `ReadScopExample` meets the conditions. -/
theorem handScop_fine : LibScopFine Cfg.std 0 Data.handScop := by
  have plain : ∀ d : Data Empty, fineAt Cfg.std 0 d → GenericFine (fitsAt 0) (fineAt Cfg.std 0) (Data.ext d) := fun d h => ext_fine (fine := fineAt Cfg.std 0) d h
  refine ⟨all_cons ⟨by decide, by decide, by decide⟩ all_nil, all_cons (plain _ trivial) all_nil, all_cons ⟨?_, ?_, all_nil, ?_⟩ all_nil, all_cons (plain _ trivial) all_nil⟩
  · exact all_cons ⟨by decide, by decide, by decide⟩ all_nil
  · exact all_cons ⟨by decide, by decide, by decide⟩ all_nil
  · exact all_cons (plain _ trivial) all_nil

set_option maxRecDepth 20000 in
/-- In memory, it is checked, and nothing changes. -/
example : ∃ (h : Heap) (p : Ptr), scopIntegrity Cfg.std p h = .ok (true, h) := by
  obtain ⟨h, p, hh⟩ := libScopsAt_exists Cfg.std (some "64".toList) 0 (l := [Data.handScop]) (all_cons handScop_fine all_nil)
  exact ⟨h, p, (@lib_scop_integrity_check_query bumpAlloc _ _ _ p _ true (by decide +kernel)) h (sep_anything hh)⟩

/-! ## Runs -/

section
local instance queryExampleAlloc : Allocator := bumpAlloc

set_option maxRecDepth 20000 in
/-- A relation and its copy: equal; the number of unions of a domain; the eight blocks of the relations are the only ones left. -/
example : runLeaves (do
      let p ← buildRel Cfg.std [Rel.exDomain, Rel.exDomain2]
      let q ← buildRel Cfg.std [Rel.exDomain, Rel.exDomain]
      let a ← relEqual Cfg.std p p
      let b ← relEqual Cfg.std p q
      let n ← relIsAccess p
      relFree Cfg.std p
      relFree Cfg.std q
      pure (a, b, n)) = some ((true, false, false), 0) := by decide +kernel

set_option maxRecDepth 20000 in
/-- Dependences are compared only if neither of the lists is NULL. -/
theorem dependence_equal_null_undefined :
    undefinedRun (do
      let d ← alloc (.node [0, 0, 0, 0, 0, 0, 0, 0, 0, 0, 0, 0, 0, 0] [0, 0, 0, 0, 0, 0, 0])
      depEqual Cfg.std d 0) = true := by decide +kernel

end

end Osl.Mem
