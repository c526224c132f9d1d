import Verif.HeapStringsProps
import Verif.HeapExample
/-!
# Strings and names in memory: concrete runs and misuses
-/

namespace Osl.Mem

section
local instance stringsExampleAlloc : Allocator := bumpAlloc

set_option maxRecDepth 8000 in
/-- Runs: strings of 2 words are 4 blocks; a copy is 4 more; a word can be added from the structure itself; everything can be freed; names with 2, 1, 0, 0, 3
strings are 1 + 4 + 3 + 1 + 1 + 5 blocks. -/
example : blocksLeft (strGenerate "c".toList 2) = some 4 ∧
    blocksLeft (do
      let s ← strGenerate "c".toList 2
      let t ← strClone s
      let w ← alloc (.chars "abc".toList)
      strAdd t w
      let u ← strAddStrings t t
      strFree s
      strFree t
      free w
      pure u) = some 8 ∧
    blocksLeft (do
      let s ← strGenerate "c".toList 2
      let u ← strAddStrings s s
      strFree s
      strFree u) = some 0 ∧
    blocksLeft (namesGenerate "a".toList 2 "b".toList 1 "c".toList 0 "d".toList 0 "e".toList 3) = some 15 ∧
    blocksLeft (do
      let n ← namesGenerate "a".toList 2 "b".toList 1 "c".toList 0 "d".toList 0 "e".toList 3
      let m ← namesClone n
      namesFree n
      namesFree m) = some 0 := by decide +kernel

set_option maxRecDepth 8000 in
/-- Finding (C52): encapsulating a string does not copy it: freeing both the string and the structure is undefined. -/
theorem strings_encapsulate_double_free :
    undefinedRun (do
      let w ← alloc (.chars "abc".toList)
      let s ← strEncapsulate w
      strFree s
      free w) = true := by decide +kernel

set_option maxRecDepth 8000 in
/-- Finding (C52): when the destination of `osl_strings_add_strings` is its first argument, as in `osl_strings_add_strings(&s, s, t)`, the
old structure (here 4 blocks) is lost. -/
theorem strings_add_strings_leak :
    blocksLeft (do
      let s ← strGenerate "c".toList 2
      let t ← strGenerate "d".toList 1
      let s ← strAddStrings s t
      strFree s
      strFree t) = some 4 := by decide +kernel

end

/-- Allocate words. -/
def buildWords [Allocator] : List Str → M (List Ptr)
  | [] => pure []
  | w :: ws => do
    let ps ← buildWords ws
    let p ← alloc (.chars w)
    pure (p :: ps)

theorem buildWords_spec [Allocator] : ∀ {ws : List Str}, Triple emp (buildWords ws) (fun ps => wordsAt ps ws)
  | [] => Triple.ret (fun h hh => hh)
  | w :: ws => by
    refine Triple.bind buildWords_spec (fun ps => ?_)
    refine Triple.step (P := emp) (Triple.alloc _) (by rw [emp_sep]) (fun p => ?_)
    exact Triple.ret (fun h hh => hh)

/-- Allocate strings. -/
def buildStrings [Allocator] (ws : List Str) : M Ptr := do
  let ps ← buildWords ws
  let a ← alloc (.ptrs (ps ++ [0]))
  alloc (.ptrs [a])

theorem buildStrings_spec [Allocator] {ws : List Str} : Triple emp (buildStrings ws) (fun p => stringsAt p (some { string := some ws })) := by
  refine Triple.bind buildWords_spec (fun ps => ?_)
  refine Triple.step (P := emp) (Triple.alloc _) (by rw [emp_sep]) (fun a => ?_)
  refine Triple.last (P := emp) (Triple.alloc _) (by rw [emp_sep]) (fun p h hh => ⟨a, ?_⟩)
  exact sep_mono (fun _ h => h) (fun h hh => ⟨ps, hh⟩) hh

/-- The hypothesis of the theorems of C52 can be met for every list of words. -/
theorem stringsAt_exists (ws : List Str) : ∃ (h : Heap) (p : Ptr), stringsAt p (some { string := some ws }) h.get := by
  have := @buildStrings_spec bumpAlloc ws emp ⟨[]⟩ (by rw [sep_emp]; rfl)
  obtain ⟨p, h', _, hh⟩ := this
  rw [sep_emp] at hh
  exact ⟨h', p, hh⟩

end Osl.Mem
