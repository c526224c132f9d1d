import Verif.HeapPrintTopProps3
import Verif.HeapPrintLibExample
import Verif.HeapQueryExample
/-!
# Printing statements and scops in memory: the theorems for the library, and a concrete case (C74)
-/

set_option linter.unusedSectionVars false

namespace Osl.Mem

open Osl.Ext

section

variable [Allocator]

/-- The data of the library, as `osl_scop_print` sees it. -/
theorem data_texts {S : Type} {so : Ops S} {c : Cfg} (e : Option Str) {sm : KindMem S so} (hs : sm.nullOk = true) :
    TextView (Data.lib c e so) (dataMem c e sm hs) where
  body := fun {d b} hb p => by
    have : d = .body b := by cases d <;> cases hb <;> rfl
    subst this
    rfl
  bodies := data_bodies e hs
  strings := fun {d s} hd p => by
    have : d = .strings s := by cases d <;> cases hd <;> rfl
    subst this
    rfl
  arrays := fun {d r} hd => by
    cases d <;> first | (rename_i x; exact ⟨x, fun _ => rfl, hd⟩) | (cases hd)

theorem lib_texts (c : Cfg) (e : Option Str) : ∀ n, TextView (libAt c e n) (libMem c e n)
  | 0 => data_texts e rfl
  | _ + 1 => data_texts e rfl

variable {c : Cfg} {e : Option Str} {n : Nat}

/-- C74: `osl_statement_pprint` with the extensions of the default registry: it writes the text of the function on values; the statements and the names are unchanged, and nothing
else is left in memory. -/
theorem lib_statement_pprint_memory (hc : c.Valid) {p q : Ptr} {l : Stmts (DataAt n)} (hl : StmtsFit c (goodAt c n) l) {names : Option Names} {t : Str}
    (h : Stmts.pprint c (libAt c e n).toLib l names = .ok t) :
    Triple (libStmtsAt c e n p l ∗ namesAt q names) (stmtPprint c (sprintAt c n) p q) (fun s => pur (s = t) ∗ libStmtsAt c e n p l ∗ namesAt q names) := by
  have := statement_pprint_memory (L := (libAt c e n).toLib) (O := libMem c e n) hc (lib_texts c e n).body (libPrint hc e n) (l := l) (by rw [libPrint_good]; exact hl) (p := p) (q := q) h
  rwa [libPrint_sprint] at this

/-- C74: `osl_statement_print` with the extensions of the default registry. -/
theorem lib_statement_print_memory (hc : c.Valid) {p : Ptr} {l : Stmts (DataAt n)} (hl : StmtsFit c (goodAt c n) l) {t : Str} (h : Stmts.print c (libAt c e n).toLib l = .ok t) :
    Triple (libStmtsAt c e n p l) (stmtPrint c (sprintAt c n) p) (fun s => pur (s = t) ∗ libStmtsAt c e n p l) := by
  have := statement_print_memory (L := (libAt c e n).toLib) (O := libMem c e n) hc (lib_texts c e n).body (libPrint hc e n) (l := l) (by rw [libPrint_good]; exact hl) (p := p) h
  rwa [libPrint_sprint] at this

/-- C74: `osl_scop_print` with the extensions of the default registry: it writes the text of the function on values; the scops are unchanged, and nothing else is left in memory. -/
theorem lib_scop_print_memory (hc : c.Valid) {p : Ptr} {l : Scops (DataAt n)} (hl : ∀ s ∈ l, ScopFits c (goodAt c n) s) {release t : Str}
    (h : Scops.print c (libAt c e n) release l = .ok t) :
    Triple (libScopsAt c e n p l) (scopPrint c (sprintAt c n) release p) (fun s => pur (s = t) ∗ libScopsAt c e n p l) := by
  have := scop_print_memory (L := libAt c e n) (O := libMem c e n) hc (lib_texts c e n) (libPrint hc e n) (l := l) (by rw [libPrint_good]; exact hl) (p := p) h
  rwa [libPrint_sprint] at this

end

/-- The scop of `ReadScopExample`, with names for its parameters, its arrays and the iterators of its statement, meets the conditions. -/
theorem handScop_fits : ScopFits Cfg.std (goodAt Cfg.std 0) Data.handScop := by
  have hp : goodList (goodAt Cfg.std 0) Data.handScop.parameters := all_cons (fun x hx => by cases hx; trivial) all_nil
  have he : goodList (goodAt Cfg.std 0) Data.handScop.extension := all_cons (fun x hx => by cases hx; trivial) all_nil
  refine ⟨?_, hp, all_cons ⟨⟨?_, ?_, all_nil⟩, all_cons (fun x hx => by cases hx; trivial) all_nil⟩ all_nil, he⟩ <;>
    exact all_cons (by unfold MatFits; decide) all_nil

set_option maxRecDepth 20000 in
/-- In memory, it is printed: the text is the one of the function on values, and the memory holds it as before. -/
example : ∃ (h : Heap) (p : Ptr) (t : Str) (h' : Heap), Scops.print Cfg.std (libAt Cfg.std (some "64".toList) 0) "0.9".toList [Data.handScop] = .ok t ∧
    @scopPrint bumpAlloc Cfg.std (@sprintAt bumpAlloc Cfg.std 0) "0.9".toList p h = .ok (t, h') ∧ @libScopsAt bumpAlloc Cfg.std (some "64".toList) 0 p [Data.handScop] h'.get := by
  obtain ⟨h, p, hh⟩ := libScopsAt_exists Cfg.std (some "64".toList) 0 (l := [Data.handScop]) (all_cons handScop_fine all_nil)
  obtain ⟨t, ht⟩ : ∃ t, Scops.print Cfg.std (libAt Cfg.std (some "64".toList) 0) "0.9".toList [Data.handScop] = .ok t := Data.ok_of (p := fun _ => true) (by decide +kernel)
  obtain ⟨r, h', hr, hh'⟩ := @lib_scop_print_memory bumpAlloc Cfg.std (some "64".toList) 0 (by decide) p [Data.handScop] (all_cons handScop_fits all_nil) _ _ ht emp h (by rw [sep_emp]; exact hh)
  rw [sep_emp] at hh'
  obtain ⟨hrt, hk⟩ := pur_sep_iff.mp hh'
  subst hrt
  exact ⟨h, p, r, h', ht, hr, hk⟩

end Osl.Mem
