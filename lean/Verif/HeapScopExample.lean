import Verif.HeapScopNorm
import Verif.HeapGenericExample
import Verif.HeapListExample
/-!
# Statements and scops in memory: concrete runs and misuses
-/

namespace Osl.Mem

/-- A library whose data are strings. -/
def strLib : Lib Strings := { strEnv with body := fun _ => none, extbody := fun _ => none }

/-- The memory of its data. -/
def strLibMem [Allocator] : DataMem Strings strLib.toEnv := strMem

/-- A description of a statement: its relations, and the strings of its extensions. -/
structure StmtDesc where
  domain : Rel
  scattering : Rel
  access : RList
  extension : List (Nat × String × List Str)

def StmtDesc.stmt (d : StmtDesc) : Stmt Strings := { domain := d.domain, scattering := d.scattering, access := d.access, extension := builtGenerics d.extension }

/-- The relations can be in memory: the precisions are known, the matrices are rectangular. -/
def RelFine (c : Cfg) (r : Rel) : Prop := ∀ a ∈ r, kind c a.precision ≠ none ∧ Rect a.m a.nb_rows a.nb_columns

/-- Allocate a list of statements. -/
def buildStmts [Allocator] (c : Cfg) : List StmtDesc → M Ptr
  | [] => pure 0
  | d :: l => do
    let n ← buildStmts c l
    let x ← buildRel c d.domain
    let y ← buildRel c d.scattering
    let z ← buildList c d.access
    let e ← buildGenerics d.extension
    alloc (.ptrs [x, y, z, e, n])

theorem buildStmts_spec [Allocator] {c : Cfg} : ∀ {l : List StmtDesc}, (∀ d ∈ l, RelFine c d.domain ∧ RelFine c d.scattering ∧ ∀ r ∈ d.access, RelFine c r) →
    Triple emp (buildStmts c l) (fun p => stmtsAt c strLibMem p (l.map StmtDesc.stmt))
  | [], _ => Triple.ret (fun h hh => ⟨rfl, hh⟩)
  | d :: l, hl => by
    have hd := hl d (by simp)
    unfold buildStmts
    hstep (buildStmts_spec (l := l) (fun x hx => hl x (by simp [hx])))
    hstep (buildRel_spec hd.1)
    hstep (buildRel_spec hd.2.1)
    hstep (buildList_spec hd.2.2)
    hstep buildGenerics_spec
    hlast Triple.alloc
    show Triple _ _ (fun p => ex fun n => stmtAt c strLibMem p d.stmt n ∗ stmtsAt c strLibMem n (l.map StmtDesc.stmt))
    hret

/-- The hypothesis of the theorems of C54 can be met for every list of statements with such relations. -/
theorem stmtsAt_exists {c : Cfg} {l : List StmtDesc} (hl : ∀ d ∈ l, RelFine c d.domain ∧ RelFine c d.scattering ∧ ∀ r ∈ d.access, RelFine c r) :
    ∃ (h : Heap) (p : Ptr), @stmtsAt _ bumpAlloc strLib c (@strLibMem bumpAlloc) p (l.map StmtDesc.stmt) h.get := by
  have := @buildStmts_spec bumpAlloc c l hl emp ⟨[]⟩ (by rw [sep_emp]; rfl)
  obtain ⟨p, h', _, hh⟩ := this
  rw [sep_emp] at hh
  exact ⟨h', p, hh⟩

/-- A description of a scop. -/
structure ScopDesc where
  version : Int
  language : Str
  context : Rel
  parameters : List (Nat × String × List Str)
  statement : List StmtDesc
  registry : List String
  extension : List (Nat × String × List Str)

def ScopDesc.scop (d : ScopDesc) : Scop Strings :=
  { version := d.version, language := some d.language, context := d.context, parameters := builtGenerics d.parameters,
    statement := d.statement.map StmtDesc.stmt, registry := d.registry.map (Ifaces.mk 0), extension := builtGenerics d.extension }

/-- Allocate a registry. -/
def buildRegistry [Allocator] : List String → M Ptr
  | [] => pure 0
  | u :: l => do
    let n ← buildRegistry l
    let i ← ifaceMake 0 u.toList
    ifaceNext.set i n
    pure i

theorem buildRegistry_spec [Allocator] : ∀ {l : List String}, Triple emp (buildRegistry l) (fun p => ifacesAt p (l.map (Ifaces.mk 0)))
  | [] => Triple.ret (fun h hh => ⟨rfl, hh⟩)
  | u :: l => by
    unfold buildRegistry
    hstep (buildRegistry_spec (l := l))
    hstep (ifaceMake_spec (u := u))
    rw [ifacesAt_one]
    hstep (ifaceChain.set_spec)
    show Triple _ _ (fun p => ex fun n => ifaceChain.at_ p (Ifaces.mk 0 u) n ∗ ifacesAt n (l.map (Ifaces.mk 0)))
    hret

/-- Allocate a list of scops. -/
def buildScops [Allocator] (c : Cfg) : List ScopDesc → M Ptr
  | [] => pure 0
  | d :: l => do
    let n ← buildScops c l
    let w ← alloc (.chars d.language)
    let x ← buildRel c d.context
    let g ← buildGenerics d.parameters
    let s ← buildStmts c d.statement
    let r ← buildRegistry d.registry
    let e ← buildGenerics d.extension
    alloc (.node [d.version] [w, x, g, s, r, e, n])

/-- The relations of a scop can be in memory. -/
def ScopFine (c : Cfg) (d : ScopDesc) : Prop :=
  RelFine c d.context ∧ ∀ s ∈ d.statement, RelFine c s.domain ∧ RelFine c s.scattering ∧ ∀ r ∈ s.access, RelFine c r

theorem buildScops_spec [Allocator] {c : Cfg} : ∀ {l : List ScopDesc}, (∀ d ∈ l, ScopFine c d) →
    Triple emp (buildScops c l) (fun p => scopsAt c strLibMem p (l.map ScopDesc.scop))
  | [], _ => Triple.ret (fun h hh => ⟨rfl, hh⟩)
  | d :: l, hl => by
    have hd := hl d (by simp)
    unfold buildScops
    hstep (buildScops_spec (l := l) (fun x hx => hl x (by simp [hx])))
    hstep Triple.alloc
    hstep (buildRel_spec hd.1)
    hstep buildGenerics_spec
    hstep (buildStmts_spec hd.2)
    hstep buildRegistry_spec
    hstep buildGenerics_spec
    hlast Triple.alloc
    show Triple _ _ (fun p => ex fun n => scopAt c strLibMem p d.scop n ∗ scopsAt c strLibMem n (l.map ScopDesc.scop))
    hret

/-- The hypothesis of the theorems of C55 can be met for every list of scops with such relations. -/
theorem scopsAt_exists {c : Cfg} {l : List ScopDesc} (hl : ∀ d ∈ l, ScopFine c d) :
    ∃ (h : Heap) (p : Ptr), @scopsAt _ bumpAlloc strLib c (@strLibMem bumpAlloc) p (l.map ScopDesc.scop) h.get := by
  have := @buildScops_spec bumpAlloc c l hl emp ⟨[]⟩ (by rw [sep_emp]; rfl)
  obtain ⟨p, h', _, hh⟩ := this
  rw [sep_emp] at hh
  exact ⟨h', p, hh⟩

section
local instance scopExampleAlloc : Allocator := bumpAlloc

/-- A statement with a union of two domains. -/
def demoStmt : StmtDesc :=
  { domain := [Rel.exDomain, Rel.exDomain2], scattering := [Stmts.exScatt], access := [[Rel.exAccess]], extension := [(0, "strings", ["a".toList])] }

/-- A scop with two such statements. -/
def demoScop : ScopDesc :=
  { version := 1, language := "C".toList, context := [], parameters := [(0, "strings", ["N".toList])], statement := [demoStmt, demoStmt],
    registry := ["strings"], extension := [] }

example : ScopFine Cfg.std demoScop := by
  refine ⟨by simp [demoScop, RelFine], ?_⟩
  intro s hs
  simp [demoScop] at hs
  subst hs
  refine ⟨?_, ?_, ?_⟩
  · intro a ha
    simp [demoStmt] at ha
    rcases ha with rfl | rfl <;> exact ⟨by decide, by decide, by decide⟩
  · intro a ha
    simp [demoStmt] at ha
    subst ha
    exact ⟨by decide, by decide, by decide⟩
  · intro r hr a ha
    simp [demoStmt] at hr
    subst hr
    simp at ha
    subst ha
    exact ⟨by decide, by decide, by decide⟩

set_option maxRecDepth 20000 in
/-- Runs: everything which is built, copied and normalized is freed. -/
example : blocksLeft (do
      let s ← buildScops Cfg.std [demoScop]
      let t ← scopClone Cfg.std strLibMem.toDataFns s
      scopFree Cfg.std strLibMem.toDataFns s
      scopNormalize Cfg.std t
      let n ← scopNumber t
      scopFree Cfg.std strLibMem.toDataFns t
      pure n) = some 0 := by decide +kernel

set_option maxRecDepth 20000 in
/-- Finding (C55): `osl_scop_remove_unions` loses memory as soon as a statement which is not the last one has a union: a second statement is made for the first one of the scop,
then the link to it is overwritten, and its 17 blocks are never freed. -/
theorem scop_remove_unions_leak :
    blocksLeft (do
      let s ← buildScops Cfg.std [demoScop]
      let t ← scopRemoveUnions Cfg.std strLibMem.toDataFns s
      scopFree Cfg.std strLibMem.toDataFns s
      scopFree Cfg.std strLibMem.toDataFns t) = some 17 := by decide +kernel

set_option maxRecDepth 20000 in
/-- A scop added to a list is not copied: it is freed with the list. -/
theorem scop_add_double_free :
    undefinedRun (do
      let s ← buildScops Cfg.std [demoScop]
      let t ← scopClone Cfg.std strLibMem.toDataFns s
      let l ← scopAdd s t
      scopFree Cfg.std strLibMem.toDataFns t
      scopFree Cfg.std strLibMem.toDataFns l) = true := by decide +kernel

end

end Osl.Mem
