import Verif.HeapGenericProps2
import Verif.HeapStringsExample
import Verif.InterfaceProps
/-!
# Interfaces and generics in memory: concrete runs and misuses
-/

namespace Osl.Mem

/-- The functions of the strings, as the ones of an interface; the other functions are not used here. -/
def strEnv : Env Strings where
  sprint := fun _ _ => .ub
  sread := fun _ _ => .ub
  clone := fun _ d => .ok (Strings.clone d)
  equal := fun _ _ _ => .ub

/-- Data which are all strings. -/
def strMem [Allocator] : DataMem Strings strEnv where
  free := fun _ p => strFree p
  clone := fun _ p => strClone p
  at_ := fun p s => stringsAt p (some s)
  nonnull := fun h => stringsAt_ne _ h
  fits := fun _ _ => True
  fits_clone := fun _ _ => trivial
  free_opt := fun {_ p d} _ => by
    cases d with
    | none => exact strings_free_memory p none
    | some s => exact strings_free_memory p (some s)
  clone_opt := fun {f p d d'} _ h => by
    have h : Strings.clone d = d' := by simpa [strEnv] using h
    subst h
    have key : ∀ (q : Ptr) (o : Option Strings), optAt (fun p s => stringsAt p (some s)) q o = stringsAt q o := by
      intro q o
      cases o <;> rfl
    simp only [key]
    exact strings_clone_memory p d

section
local instance genericExampleAlloc : Allocator := bumpAlloc

set_option maxRecDepth 20000 in
/-- Runs: the default registry is 18 interfaces and 18 URIs, it can be freed; a list of two generics with strings of 2 and 1 words is 2 (nodes) + 4 (interfaces)
+ 4 + 3 blocks, its copy as much; removing one of them frees it. -/
example : blocksLeft ifaceDefault = some 36 ∧
    blocksLeft (do
      let r ← ifaceDefault
      let s ← ifaceClone r
      ifaceFree r
      ifaceFree s) = some 0 := by decide +kernel

/-- Two generics. -/
def twoGenerics : M Ptr := do
  let s ← strGenerate "c".toList 2
  let i ← ifaceMake 0 "strings".toList
  let g ← genShell s i
  let t ← strGenerate "d".toList 1
  let j ← ifaceMake 1 "other".toList
  let k ← genShell t j
  let l ← genAdd 0 g
  genAdd l k

set_option maxRecDepth 20000 in
example : blocksLeft twoGenerics = some 13 ∧
    blocksLeft (do
      let l ← twoGenerics
      genClone strMem.toDataFns l) = some 26 ∧
    blocksLeft (do
      let l ← twoGenerics
      let m ← genClone strMem.toDataFns l
      let u ← alloc (.chars "other".toList)
      let l ← genRemove strMem.toDataFns l u
      free u
      genFree strMem.toDataFns m
      pure l) = some 7 ∧
    blocksLeft (do
      let l ← twoGenerics
      let m ← genClone strMem.toDataFns l
      genFree strMem.toDataFns l
      genFree strMem.toDataFns m) = some 0 := by decide +kernel

set_option maxRecDepth 20000 in
/-- Finding (C53): `osl_generic_shell` does not copy the interface: with an interface of a registry, which is freed too, it is freed twice. -/
theorem generic_shell_double_free :
    undefinedRun (do
      let r ← ifaceMake 0 "strings".toList
      let s ← strGenerate "c".toList 2
      let g ← genShell s r
      genFree strMem.toDataFns g
      ifaceFree r) = true := by decide +kernel

set_option maxRecDepth 20000 in
/-- Finding (C53): the data of a generic without interface is freed as a single block: here the 3 other blocks of the strings are lost. -/
theorem generic_unregistered_leak :
    blocksLeft (do
      let s ← strGenerate "c".toList 2
      let g ← genShell s 0
      genFree strMem.toDataFns g) = some 3 := by decide +kernel

set_option maxRecDepth 20000 in
/-- Finding (C53): the list given to `osl_generic_add` is not copied: the list and the added generics cannot be freed both. -/
theorem generic_add_double_free :
    undefinedRun (do
      let l ← twoGenerics
      let s ← strGenerate "c".toList 2
      let i ← ifaceMake 2 "third".toList
      let g ← genShell s i
      let l ← genAdd l g
      genFree strMem.toDataFns g
      genFree strMem.toDataFns l) = true := by decide +kernel

end

/-- The hypothesis of the theorems on interfaces can be met: the default registry. -/
theorem ifacesAt_exists : ∃ (h : Heap) (p : Ptr), ifacesAt p (Ifaces.numbered 0 Ifaces.defaultURIs) h.get := by
  have hr : Ifaces.get_default_registry = .ok (Ifaces.numbered 0 Ifaces.defaultURIs) := by decide
  have := @default_registry_memory bumpAlloc _ hr emp ⟨[]⟩ (by rw [sep_emp]; rfl)
  obtain ⟨p, h', _, hh⟩ := this
  rw [sep_emp] at hh
  exact ⟨h', p, hh⟩

/-- Allocate a list of generics with strings. -/
def buildGenerics [Allocator] : List (Nat × String × List Str) → M Ptr
  | [] => pure 0
  | (k, u, ws) :: l => do
    let p ← buildGenerics l
    let s ← buildStrings ws
    let i ← ifaceMake k u.toList
    let g ← genShell s i
    genNext.set g p
    pure g

/-- The list which `buildGenerics` allocates. -/
def builtGenerics (l : List (Nat × String × List Str)) : GList Strings := l.map fun x => ⟨some (Ifaces.mk x.1 x.2.1), some { string := some x.2.2 }⟩

theorem buildGenerics_spec [Allocator] : ∀ {l : List (Nat × String × List Str)}, Triple emp (buildGenerics l) (fun p => glistAt strMem p (builtGenerics l))
  | [] => Triple.ret (fun h hh => ⟨rfl, hh⟩)
  | (k, u, ws) :: l => by
    refine Triple.bind buildGenerics_spec (fun p => ?_)
    refine Triple.step (P := emp) (F := glistAt strMem p (builtGenerics l)) buildStrings_spec (by rw [emp_sep]) (fun s => ?_)
    refine Triple.step (P := emp) (F := stringsAt s (some { string := some ws }) ∗ glistAt strMem p (builtGenerics l)) (ifaceMake_spec (k := k) (u := u)) (by rw [emp_sep]) (fun i => ?_)
    refine Triple.step (F := glistAt strMem p (builtGenerics l)) (generic_shell_memory (O := strMem) (i := Ifaces.mk k u) (d := some { string := some ws }) trivial i s)
      (by rw [show (strMem).opt s (some { string := some ws }) = stringsAt s (some { string := some ws }) from rfl]; ac_rfl) (fun g => ?_)
    rw [glistAt_one]
    refine Triple.step (F := glistAt strMem p (builtGenerics l)) ((genChain strMem).set_spec g ⟨some (Ifaces.mk k u), some { string := some ws }⟩ 0 p) rfl (fun _ => ?_)
    refine Triple.ret (fun h hh => ?_)
    exact ⟨p, hh⟩

/-- The hypothesis of the theorems on generics can be met for every number of generics. -/
theorem glistAt_exists (l : List (Nat × String × List Str)) : ∃ (h : Heap) (p : Ptr), @glistAt _ bumpAlloc _ (@strMem bumpAlloc) p (builtGenerics l) h.get := by
  have := @buildGenerics_spec bumpAlloc l emp ⟨[]⟩ (by rw [sep_emp]; rfl)
  obtain ⟨p, h', _, hh⟩ := this
  rw [sep_emp] at hh
  exact ⟨h', p, hh⟩

end Osl.Mem
