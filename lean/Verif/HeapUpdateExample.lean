import Verif.HeapUpdateProps
import Verif.HeapUpdateQuery
import Verif.HeapUpdateScop
import Verif.HeapQueryExample
/-!
# Updates and searches in memory: the hypotheses can be met, and concrete runs (C76)
-/

set_option linter.unusedSectionVars false

namespace Osl.Mem

local instance updateExampleAlloc : Allocator := bumpAlloc

/-- Two things which can be made can be in memory at the same time. -/
theorem both_exist {A B : Ptr → Assn} (ha : Makes A) (hb : Makes B) : ∃ (h : Heap) (p q : Ptr), (A p ∗ B q) h.get := by
  obtain ⟨m1, hm1⟩ := ha
  obtain ⟨m2, hm2⟩ := hb
  obtain ⟨p, h1, _, hh1⟩ := hm1 emp ⟨[]⟩ (by rw [sep_emp]; rfl)
  rw [sep_emp] at hh1
  obtain ⟨q, h2, _, hh2⟩ := hm2 (A p) h1 (by rw [emp_sep]; exact hh1)
  exact ⟨h2, p, q, by rw [sep_comm]; exact hh2⟩

/-- The relation of `RelationProps`, with another precision. -/
def exDomainMP : Part := { Rel.exDomain with precision := PREC_MP }

/-- A relation of two parts can be changed to the multiple precision. -/
example : Rel.set_precision Cfg.std PREC_MP [Rel.exDomain, Rel.exDomain2] = .ok [exDomainMP, { Rel.exDomain2 with precision := PREC_MP }] := by decide +kernel

/-- Two relations with different precisions get the same one. -/
example : Rel.set_same_precision Cfg.std [Rel.exDomain] [exDomainMP] = .ok ([exDomainMP], [exDomainMP]) := by decide +kernel

/-- In memory, the second string of a list is found, and nothing changes. -/
example : ∃ (h : Heap) (p q : Ptr), strFind p q h = .ok (1, h) := by
  obtain ⟨h, p, q, hh⟩ := both_exist (makes_strings (some ⟨some ["ab".toList, "cd".toList, "cd".toList]⟩)) (makes_uri (some "cd".toList))
  exact ⟨h, p, q, strings_find_query (s := some ⟨some ["ab".toList, "cd".toList, "cd".toList]⟩) (t := "cd".toList) h (sep_anything hh)⟩

/-- Two arrays. -/
def exArrays : Ext.Arrays := { pairs := [(3, "A".toList), (7, "B".toList)] }

/-- In memory, the index of the array `B` is 1, that of the identifier 3 is 0, that of the unknown identifier 4 is 2. -/
example : ∃ (h : Heap) (p q : Ptr), arrIndexFromName p q h = .ok (1, h) ∧ arrIndexFromId p 3 h = .ok (0, h) ∧ arrIndexFromId p 4 h = .ok (2, h) := by
  obtain ⟨h, p, q, hh⟩ := both_exist (makes_arrays exArrays) (makes_uri (some "B".toList))
  refine ⟨h, p, q, ?_, ?_, ?_⟩
  · exact arrays_get_index_from_name_query (d := some exArrays) (t := some "B".toList) h (sep_anything hh)
  · exact arrays_get_index_from_id_query (d := some exArrays) (id := 3) h (sep_mono (fun _ h => h) (fun _ _ => trivial) hh)
  · exact arrays_get_index_from_id_query (d := some exArrays) (id := 4) h (sep_mono (fun _ h => h) (fun _ _ => trivial) hh)

set_option maxRecDepth 20000 in
/-- In memory, an interface can be registered in the scop of `ReadScopExample`. -/
example : ∃ (h h' : Heap) (p i : Ptr), scopRegister p i h = .ok ((), h') := by
  obtain ⟨h, p, i, hh⟩ := both_exist (makes_scops Cfg.std (some "64".toList) 0 (l := [Data.handScop]) (all_cons handScop_fine all_nil)) (makes_registry [Ifaces.mk 18 "mine"])
  have e : (libScopsAt Cfg.std (some "64".toList) 0 p [Data.handScop] ∗ ifacesAt i [Ifaces.mk 18 "mine"]) =
      ex fun n => (scopAt Cfg.std (libMem Cfg.std (some "64".toList) 0) p Data.handScop n ∗ ifacesAt i [Ifaces.mk 18 "mine"]) ∗ pur (n = 0) := by
    show (ex fun n => _ ∗ pur (n = 0)) ∗ _ = _
    rw [ex_sep]
    congr 1
    funext n
    show (scopAt Cfg.std (libMem Cfg.std (some "64".toList) 0) p Data.handScop n ∗ pur (n = 0)) ∗ _ = _
    ac_rfl
  rw [e] at hh
  obtain ⟨n, hh⟩ := hh
  obtain ⟨_, h', hr, _⟩ := scop_register_extension_memory (s := Data.handScop) (l := [Ifaces.mk 18 "mine"]) (by decide +kernel : _ = Out.ok { Data.handScop with registry := Data.handScop.registry ++ [Ifaces.mk 18 "mine"] }) p n i _ h hh
  exact ⟨h, h', p, i, hr⟩

/-! ## Runs -/

set_option maxRecDepth 20000 in
/-- A relation changed to the multiple precision owns one more block for each of its eight elements, and is equal to the one made with that precision; nothing is left after its deallocation. -/
example : blocksLeft (do
      let p ← buildRel Cfg.std [Rel.exDomain]
      relSetPrecision Cfg.std PREC_MP p) = some 11 ∧
    runLeaves (do
      let p ← buildRel Cfg.std [Rel.exDomain]
      let q ← buildRel Cfg.std [exDomainMP]
      relSetSamePrecision Cfg.std p q
      relSetType p TYPE_CONTEXT
      relSetType q TYPE_CONTEXT
      let b ← relEqual Cfg.std p q
      relFree Cfg.std p
      relFree Cfg.std q
      pure b) = some (true, 0) := by decide +kernel

end Osl.Mem
