import Verif.HeapPrintLib
import Verif.HeapPrintExample
import Verif.HeapLibExample
/-!
# Printing the extensions of the default registry in memory: the theorems for the library, and concrete runs (C74)
-/

set_option linter.unusedSectionVars false

namespace Osl.Mem

open Osl.Ext

section

variable [Allocator] {c : Cfg} {e : Option Str} {n : Nat}

/-- The printers of the default registry for the library. -/
def libPrint (hc : c.Valid) (e : Option Str) : (n : Nat) → DataPrint (libMem c e n)
  | 0 => printersAt hc e 0
  | n + 1 => printersAt hc e (n + 1)

theorem libPrint_sprint (hc : c.Valid) (e : Option Str) : ∀ n, (libPrint hc e n).sprint = sprintAt c n
  | 0 => printersAt_sprint hc e 0
  | n + 1 => printersAt_sprint hc e (n + 1)

theorem libPrint_good (hc : c.Valid) (e : Option Str) : ∀ n, (libPrint hc e n).good = goodAt c n
  | 0 => printersAt_good hc e 0
  | n + 1 => printersAt_good hc e (n + 1)

/-- C74: `osl_generic_sprint` with the extensions of the default registry, symbols being nested at any depth: the text of the function on values, in one new block; nothing
else changes. -/
theorem lib_generic_sprint_memory (hc : c.Valid) {p : Ptr} {l : GList (DataAt n)} (hl : goodList (goodAt c n) l) {t : Str} (h : GList.sprint (libAt c e n).toEnv l = .ok t) :
    Triple (glistAt (libMem c e n) p l) (genSprint (sprintAt c n) p) (fun q => glistAt (libMem c e n) p l ∗ q ↦ .chars t) := by
  have := generic_sprint_memory (libPrint hc e n) (p := p) (l := l) (by rw [libPrint_good]; exact hl) h
  rwa [libPrint_sprint] at this

/-- C74: `osl_generic_print` with the extensions of the default registry: it writes that text and leaves memory as it was. -/
theorem lib_generic_print_memory (hc : c.Valid) {p : Ptr} {l : GList (DataAt n)} (hl : goodList (goodAt c n) l) {t : Str} (h : GList.sprint (libAt c e n).toEnv l = .ok t) :
    Triple (glistAt (libMem c e n) p l) (genPrint (sprintAt c n) p) (fun s => pur (s = t) ∗ glistAt (libMem c e n) p l) := by
  have := generic_print_memory (libPrint hc e n) (p := p) (l := l) (by rw [libPrint_good]; exact hl) h
  rwa [libPrint_sprint] at this

end

section
local instance extPrintAllocator : Allocator := bumpAlloc

/-- The strings `i j`, in memory. -/
def buildIJ : M Ptr := do
  let ps ← buildWords ["i".toList, "j".toList]
  let a ← alloc (.ptrs (ps ++ [0]))
  alloc (.ptrs [a])

set_option maxRecDepth 20000 in
/-- A run: the text of strings; only the four blocks of the strings are left. -/
example : runLeaves (do
      let p ← buildIJ
      strPrint p) = some ("i j\n".toList, 4) := by decide +kernel

/-- A comment, in a generic with its interface (number 4 in the default registry). -/
def buildComment : M Ptr := do
  let w ← alloc (.chars "hello\n".toList)
  let d ← alloc (.ptrs [w])
  let u ← alloc (.chars "comment".toList)
  let i ← alloc (.iface u (Ifaces.fnsOf 4) 0)
  alloc (.ptrs [i, d, 0])

set_option maxRecDepth 20000 in
/-- A run: the text of a generic; only its five blocks are left. -/
example : runLeaves (do
      let p ← buildComment
      genPrint (sprintAt Cfg.std 0) p) = some ("<comment>\nhello\n</comment>\n".toList, 5) := by decide +kernel

end

end Osl.Mem
