import Verif.HeapPrintList
import Verif.HeapExample
import Verif.RelationPrintProps
/-!
# Printing in memory: concrete runs, and printing for every relation which can be printed (C74)
-/

namespace Osl.Mem

section
local instance printAllocator : Allocator := bumpAlloc

/-- What a run gives, and the number of blocks which are left. -/
def runLeaves {α : Type} (m : M α) : Option (α × Nat) :=
  match m ⟨[]⟩ with
  | .ok (a, h) => some (a, h.size)
  | _ => none

set_option maxRecDepth 20000 in
/-- A run: the text of a domain and of an access; only the relation is left, and nothing after its deallocation. -/
example : runLeaves (do
      let p ← buildRel Cfg.std [Rel.exPart]
      relPrint Cfg.std p) = some (Rel.exText, 3) ∧
    blocksLeft (do
      let p ← buildRel Cfg.std [Rel.exRead]
      let _ ← relPrint Cfg.std p
      relFree Cfg.std p) = some 0 := by decide +kernel

end

/-- The relations which can be printed (C35) have values which fit. -/
theorem partFits_fits {c : Cfg} {a : Part} (h : Rel.PartFits c a) : MatFits c a.precision a.m := by
  exact fun row hr v hv => h.valid.ents row hr v hv

variable [Allocator]

/-- C74: every relation which fits the buffers and has known types is printed, in any memory which holds it: the text is the one of `osl_relation_sprint`, and the memory is
the same before and after. -/
theorem relation_print_total_memory {c : Cfg} (hc : c.Valid) (hnd : c.ndebug = false) {p : Ptr} {r : Rel} (hf : ∀ a ∈ r, Rel.PartFits c a) (ht : Rel.Typed r) :
    ∃ t, Rel.sprint c r = .ok t ∧ Triple (relAt c p r) (relPrint c p) (fun s => pur (s = t) ∗ relAt c p r) := by
  obtain ⟨t, h⟩ := Rel.relation_sprint_total hc hnd hf ht
  exact ⟨t, h, relation_print_memory hc (fun a ha => partFits_fits (hf a ha)) h⟩

end Osl.Mem
