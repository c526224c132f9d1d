import Verif.HeapScoplibProps5
import Verif.HeapPrintScopLib
import Verif.ScoplibExample
/-!
# Printing in the SCoPLib format in memory: the theorems for the library, and a concrete case (C79)
-/

set_option linter.unusedSectionVars false

namespace Osl.Mem

open Osl.Ext

/-- The library as the SCoPLib printer sees it, `n` being the depth of the symbols (see `Data.scoplib`). -/
def scoplibAt (c : Cfg) (e : Option Str) : (n : Nat) → ScoplibLib (DataAt n)
  | 0 => Data.scoplib c e noSymbols
  | n + 1 => Data.scoplib c e (Symbol.ops (envAt c e n) defaultRegistry)

theorem scoplibAt_text (c : Cfg) (e : Option Str) : ∀ n, (scoplibAt c e n).toTextLib = libAt c e n
  | 0 => rfl
  | _ + 1 => rfl

section

variable [Allocator]

/-- The memory of the data, as the SCoPLib printer sees it. -/
def scoplibMem (c : Cfg) (e : Option Str) : (n : Nat) → DataMem (DataAt n) (scoplibAt c e n).toEnv
  | 0 => libMem c e 0
  | n + 1 => libMem c e (n + 1)

theorem data_scoplib {S : Type} {so : Ops S} {c : Cfg} (e : Option Str) {sm : KindMem S so} (hs : sm.nullOk = true) :
    ScoplibView (Data.scoplib c e so) (dataMem c e sm hs) where
  text := data_texts e hs
  arraysText := fun {d r} hd => by
    cases d <;> first | (rename_i x; exact ⟨x, fun _ => rfl, hd⟩) | (cases hd)

theorem lib_scoplib (c : Cfg) (e : Option Str) : ∀ n, ScoplibView (scoplibAt c e n) (scoplibMem c e n)
  | 0 => data_scoplib e rfl
  | _ + 1 => data_scoplib e rfl

theorem scoplib_scopsAt (c : Cfg) (e : Option Str) : ∀ n (p : Ptr) (l : Scops (DataAt n)), scopsAt c (scoplibMem c e n) p l = libScopsAt c e n p l
  | 0, _, _ => rfl
  | _ + 1, _, _ => rfl

theorem scoplib_glistAt (c : Cfg) (e : Option Str) : ∀ n (p : Ptr) (l : GList (DataAt n)), glistAt (scoplibMem c e n) p l = glistAt (libMem c e n) p l
  | 0, _, _ => rfl
  | _ + 1, _, _ => rfl

variable {c : Cfg} {e : Option Str} {n : Nat}

/-- C79: `osl_statement_pprint_scoplib` with the extensions of the default registry: it writes the text of the function on values; the statements and the names are unchanged, and
nothing else is left in memory. -/
theorem lib_statement_pprint_scoplib_memory (hc : c.Valid) {p q : Ptr} {l : Stmts (DataAt n)} (hl : ∀ s ∈ l, StmtFits c s) {names : Option Names} {t : Str}
    (h : Stmts.pprint_scoplib c (libAt c e n).toLib l names = .ok t) :
    Triple (libStmtsAt c e n p l ∗ namesAt q names) (stmtPprintScoplib c p q) (fun s => pur (s = t) ∗ libStmtsAt c e n p l ∗ namesAt q names) :=
  statement_pprint_scoplib_memory (L := (libAt c e n).toLib) (O := libMem c e n) hc (lib_texts c e n).body hl h

/-- C79: `osl_generic_print_options_scoplib` with the extensions of the default registry. -/
theorem lib_generic_print_options_scoplib_memory {p : Ptr} {l : GList (DataAt n)} {t : Str} (h : GList.print_options_scoplib (scoplibAt c e n) l = .ok t) :
    Triple (glistAt (libMem c e n) p l) (genPrintOptions p) (fun s => pur (s = t) ∗ glistAt (libMem c e n) p l) := by
  have := generic_print_options_scoplib_memory (lib_scoplib c e n) (p := p) h
  rwa [scoplib_glistAt] at this

/-- C79: `osl_scop_print_scoplib` with the extensions of the default registry: it writes the text of the function on values; the scops are unchanged, and nothing else is left in
memory. -/
theorem lib_scop_print_scoplib_memory (hc : c.Valid) {p : Ptr} {l : Scops (DataAt n)} (hl : ∀ s ∈ l, ScopFitsScoplib c s) {release t : Str}
    (h : Scops.print_scoplib c (scoplibAt c e n) release l = .ok t) :
    Triple (libScopsAt c e n p l) (scopPrintScoplib c release p) (fun s => pur (s = t) ∗ libScopsAt c e n p l) := by
  have := scop_print_scoplib_memory (L := scoplibAt c e n) (O := scoplibMem c e n) hc (lib_scoplib c e n) hl (p := p) h
  rwa [scoplib_scopsAt] at this

end

/-- The scop of `ReadScopExample` meets the conditions. -/
theorem handScop_scoplib : ScopFitsScoplib Cfg.std Data.handScop := ⟨handScop_fits.1, fun s hs => (handScop_fits.2.2.1 s hs).1⟩

set_option maxRecDepth 20000 in
/-- In memory, it is printed: the text is the one of the function on values, and the memory holds it as before. -/
example : ∃ (h : Heap) (p : Ptr) (t : Str) (h' : Heap), Scops.print_scoplib Cfg.std (scoplibAt Cfg.std (some "64".toList) 0) "0.9".toList [Data.handScop] = .ok t ∧
    @scopPrintScoplib bumpAlloc Cfg.std "0.9".toList p h = .ok (t, h') ∧ @libScopsAt bumpAlloc Cfg.std (some "64".toList) 0 p [Data.handScop] h'.get := by
  obtain ⟨h, p, hh⟩ := libScopsAt_exists Cfg.std (some "64".toList) 0 (l := [Data.handScop]) (all_cons handScop_fine all_nil)
  obtain ⟨t, ht⟩ : ∃ t, Scops.print_scoplib Cfg.std (scoplibAt Cfg.std (some "64".toList) 0) "0.9".toList [Data.handScop] = .ok t := Data.ok_of (p := fun _ => true) (by decide +kernel)
  obtain ⟨r, h', hr, hh'⟩ := @lib_scop_print_scoplib_memory bumpAlloc Cfg.std (some "64".toList) 0 (by decide) p [Data.handScop] (all_cons handScop_scoplib all_nil) _ _ ht emp h
    (by rw [sep_emp]; exact hh)
  rw [sep_emp] at hh'
  obtain ⟨hrt, hk⟩ := pur_sep_iff.mp hh'
  subst hrt
  exact ⟨h, p, r, h', ht, hr, hk⟩

/-! ## Runs -/

section

local instance scoplibExampleAlloc : Allocator := bumpAlloc

/-- What a run must leave: the text of the function on values, and no block. -/
def leavesText (o : Out Str) : Option (Str × Nat) :=
  match o with
  | .ok t => some (t, 0)
  | _ => none

set_option maxRecDepth 20000 in
/-- A union of two domains, with the fake iterator: the text of the function on values, which is one, and everything is freed. -/
example : (leavesText (Rel.spprint_scoplib Cfg.std [Rel.exDomain, Rel.exDomain2] none true true)).isSome = true ∧
    runLeaves (do
      let p ← buildRel Cfg.std [Rel.exDomain, Rel.exDomain2]
      let t ← relPprintScoplib Cfg.std p 0 true true
      relFree Cfg.std p
      pure t) = leavesText (Rel.spprint_scoplib Cfg.std [Rel.exDomain, Rel.exDomain2] none true true) := by decide +kernel

end

end Osl.Mem
