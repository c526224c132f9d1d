import Verif.HeapDumpLib
import Verif.HeapReadTop
import Verif.HeapPrintScopLib
import Verif.HeapUpdateProps
import Verif.HeapVecRel
/-!
# Histories of calls (C81): client programs of the library

A client program has variables, which hold pointers to structures of the library, or NULL.  It makes any sequence of calls, each on some variables.  A history is
run twice: on memory (`execs`: the functions of Verif/Heap*.lean, the variables hold addresses) and on values (`runs`: the functions of the models on values, the
variables hold the lists themselves, NULL being the empty list).

The rules of ownership, which a client must follow, are in the run on values, which is undefined when one is broken: a variable which is assigned is NULL before, or
the function gives back its structure; a structure given to another one is not used any more (its variable is set to NULL); two arguments which must be separate are
different variables.
-/

namespace Osl.Client

open Osl.Mem Osl.Ext

/-- The types of the variables: `osl_relation_p`, `osl_relation_list_p`, `osl_statement_p`, `osl_scop_p`, `osl_generic_p`, `osl_vector_p` (include/osl/relation.h:119,
include/osl/relation_list.h:87, include/osl/statement.h:89, include/osl/scop.h.in:103, include/osl/generic.h:89, include/osl/vector.h:86). -/
inductive Ty where
  | rel | list | stmt | scop | gen | vec
deriving DecidableEq

/-- The nodes of the linked structures; `n` bounds the nesting of symbols.  A vector is alone: it is linked to no other one. -/
@[reducible] def Elem (n : Nat) : Ty → Type
  | .rel => Part
  | .list => Rel
  | .stmt => Stmt (DataAt n)
  | .scop => Scop (DataAt n)
  | .gen => Generic (DataAt n)
  | .vec => Vec

/-- The values of a variable. -/
abbrev Value (n : Nat) (k : Ty) : Type := List (Elem n k)

/-- A variable: its type and its value. -/
structure Var (n : Nat) where
  ty : Ty
  value : Value n ty

/-- The variables of the client. -/
abbrev State (n : Nat) := List (Var n)

/-- What the client sees of a call, besides its variables: an answer, a number, a text written on a file. -/
inductive Obs where
  | none
  | answer (b : Bool)
  | number (v : Int)
  | text (t : Str)
deriving DecidableEq

/-- A call; `x`, `y`, `z` are variables. -/
inductive Call where
  | relPmalloc (x : Nat) (precision nb_rows nb_columns : Int)
  | relRead (x : Nat) (precision : Int) (file : Str)
  | relFree (x : Nat)
  | relClone (x y : Nat)
  | relNclone (x y : Nat) (n : Int)
  | relCloneRows (x y : Nat) (n : Int)
  | relUnion (x y z : Nat)
  | relConcat (x y z : Nat)
  | relAdd (x y : Nat)
  | relInsert (x y : Nat) (row : Int)
  | relInsertColumns (x y : Nat) (column : Int)
  | relInsertColumn (x : Nat) (column : Int)
  | relRemoveRow (x : Nat) (row : Int)
  | relRemoveColumn (x : Nat) (column : Int)
  | relExtend (x y : Nat) (dim : Int)
  | relSetType (x : Nat) (type : Int)
  | relSetPrecision (x : Nat) (precision : Int)
  | relEqual (x y : Nat)
  | relIntegrity (x : Nat) (type output input parameters : Int)
  | relSetAttributes (x : Nat) (output input «local» parameters : Int)
  | relSwap (x : Nat) (i j : Int)
  | relInsertRow (x : Nat) (row : Int)
  | relSamePrecision (x y : Nat)
  | relIsAccess (x : Nat)
  | relArrayId (x : Nat)
  | relFromVector (x y : Nat)
  | relReplaceVector (x y : Nat) (row : Int)
  | relAddVector (x y : Nat) (row : Int)
  | relSubVector (x y : Nat) (row : Int)
  | relInsertVector (x y : Nat) (row : Int)
  | relConcatVector (x y z : Nat)
  | vecMalloc (x : Nat) (precision size : Int)
  | vecFree (x : Nat)
  | vecAddScalar (x y : Nat) (scalar : Int)
  | vecMulScalar (x y : Nat) (scalar : Int)
  | vecAdd (x y z : Nat)
  | vecSub (x y z : Nat)
  | vecTagInequality (x : Nat)
  | vecTagEquality (x : Nat)
  | vecEqual (x y : Nat)
  | vecIsScalar (x : Nat)
  | relPrint (x : Nat)
  | relDump (x : Nat)
  | listRead (x : Nat) (precision : Int) (file : Str)
  | listNode (x y : Nat)
  | listFree (x : Nat)
  | listClone (x y : Nat)
  | listConcat (x y z : Nat)
  | listAdd (x y : Nat)
  | listPush (x y : Nat)
  | listPop (x y : Nat)
  | listDup (x : Nat)
  | listDrop (x : Nat)
  | listDestroy (x : Nat)
  | listSetType (x : Nat) (type : Int)
  | listFilter (x y : Nat) (type : Int)
  | listEqual (x y : Nat)
  | listCount (x : Nat)
  | listIntegrity (x : Nat) (type output input parameters : Int)
  | listPrint (x : Nat)
  | listDump (x : Nat)
  | genFree (x : Nat)
  | genClone (x y : Nat)
  | genAdd (x y : Nat)
  | genEqual (x y : Nat)
  | genCount (x : Nat)
  | genRemove (x : Nat) (uri : Str)
  | genPrint (x : Nat)
  | genDump (x : Nat)
  | stmtMalloc (x : Nat)
  | stmtFree (x : Nat)
  | stmtClone (x y : Nat)
  | stmtNclone (x y : Nat) (n : Int)
  | stmtAdd (x y : Nat)
  | stmtNumber (x : Nat)
  | stmtDispatch (x y : Nat)
  | stmtUnions (x y : Nat)
  | stmtEqual (x y : Nat)
  | stmtIntegrity (x : Nat) (parameters : Int)
  | stmtPrint (x : Nat)
  | stmtDump (x : Nat)
  | stmtDomain (x y : Nat)
  | stmtScattering (x y : Nat)
  | stmtAccess (x y : Nat)
  | stmtExtension (x y : Nat)
  | scopMalloc (x : Nat)
  | scopRead (x : Nat) (file : Str)
  | scopFree (x : Nat)
  | scopClone (x y : Nat)
  | scopUnions (x y : Nat)
  | scopAdd (x y : Nat)
  | scopNumber (x : Nat)
  | scopNormalize (x : Nat)
  | scopEqual (x y : Nat)
  | scopIntegrity (x : Nat)
  | scopCheckScoplib (x : Nat)
  | scopPrint (x : Nat)
  | scopPrintScoplib (x : Nat)
  | scopDump (x : Nat)
  | scopContext (x y : Nat)
  | scopParameters (x y : Nat)
  | scopStatement (x y : Nat)
  | scopExtension (x y : Nat)

/-! ## Values -/

section

variable {n : Nat}

/-- The value of a variable of type `k`. -/
def get (σ : State n) (k : Ty) (x : Nat) : Out (Value n k) :=
  match σ[x]? with
  | some v => if h : v.ty = k then .ok (h ▸ v.value) else .ub
  | none => .ub

/-- The variable must be NULL: otherwise what it holds would be lost. -/
def null {α : Type} (l : List α) : Out Unit := if l.isEmpty then .ok () else .ub

open Classical in
/-- A condition on the values: what is not in the type of a C integer cannot be in memory. -/
noncomputable def must (p : Prop) : Out Unit := if p then .ok () else .ub

/-- A call on one variable: its new value, what is seen. -/
def on1 (k : Ty) (x : Nat) (f : Value n k → Out (Value n k × Obs)) (σ : State n) : Out (State n × Obs) := do
  let v ← get σ k x
  let r ← f v
  return (σ.set x ⟨k, r.1⟩, r.2)

/-- A call on two different variables. -/
def on2 (k : Ty) (x : Nat) (j : Ty) (y : Nat) (f : Value n k → Value n j → Out (Value n k × Value n j × Obs)) (σ : State n) : Out (State n × Obs) :=
  if x = y then .ub
  else do
    let v ← get σ k x
    let w ← get σ j y
    let r ← f v w
    return ((σ.set x ⟨k, r.1⟩).set y ⟨j, r.2.1⟩, r.2.2)

/-- A call on three different variables, which assigns the first, of the type of the second. -/
def on3 (k : Ty) (x y : Nat) (j : Ty) (z : Nat) (f : Value n k → Value n j → Out (Value n k)) (σ : State n) : Out (State n × Obs) :=
  if x = y ∨ x = z ∨ y = z then .ub
  else do
    let v ← get σ k x
    null v
    let w ← get σ k y
    let u ← get σ j z
    let r ← f w u
    return (σ.set x ⟨k, r⟩, .none)

/-- A call which assigns a NULL variable. -/
def make (k : Ty) (x : Nat) (f : Out (Value n k)) : State n → Out (State n × Obs) :=
  on1 k x (fun v => do
    null v
    let r ← f
    return (r, .none))

/-- A call which assigns the NULL variable `x` something made from `y`. -/
def from_ (k : Ty) (x : Nat) (j : Ty) (y : Nat) (f : Value n j → Out (Value n k)) : State n → Out (State n × Obs) :=
  on2 k x j y (fun v w => do
    null v
    let r ← f w
    return (r, w, .none))

/-- A call which changes what `x` holds. -/
def change (k : Ty) (x : Nat) (f : Value n k → Out (Value n k)) : State n → Out (State n × Obs) :=
  on1 k x (fun v => do
    let r ← f v
    return (r, .none))

/-- A call which only looks at `x`. -/
def look (k : Ty) (x : Nat) (f : Value n k → Out Obs) : State n → Out (State n × Obs) :=
  on1 k x (fun v => do
    let o ← f v
    return (v, o))

/-- A call which changes what `x` holds and looks at `y`. -/
def with_ (k : Ty) (x : Nat) (j : Ty) (y : Nat) (f : Value n k → Value n j → Out (Value n k)) : State n → Out (State n × Obs) :=
  on2 k x j y (fun v w => do
    let r ← f v w
    return (r, w, .none))

/-- A call which gives what `y` holds to what `x` holds. -/
def move (k : Ty) (x : Nat) (j : Ty) (y : Nat) (f : Value n k → Value n j → Out (Value n k)) : State n → Out (State n × Obs) :=
  on2 k x j y (fun v w => do
    let r ← f v w
    return (r, [], .none))

/-- A comparison; a structure is equal to itself. -/
def compare (k : Ty) (x y : Nat) (f : Value n k → Value n k → Out Bool) (σ : State n) : Out (State n × Obs) :=
  if x = y then look k x (fun _ => .ok (.answer true)) σ
  else on2 k x k y (fun v w => do
    let b ← f v w
    return (v, w, .answer b)) σ

/-- The exchange of a field of the (first) node which `x` holds with what `y` holds. -/
def swap {k j : Ty} (x y : Nat) (old : Elem n k → Value n j) (put : Elem n k → Value n j → Elem n k) : State n → Out (State n × Obs) :=
  on2 k x j y (fun v w => match v with
    | [] => .ub
    | a :: l => .ok (put a w :: l, old a, .none))

/-- `osl_relation_list_push` of one node, or of NULL; the nodes which follow a pushed one would be lost (source/relation_list.c:514-520). -/
def pushOne (l : RList) : RList → Out RList
  | [] => .ok l
  | [a] => .ok (a :: l)
  | _ => .ub

/-- The vector in a variable, if it is not NULL; there is never more than one. -/
def vector : List Vec → Out (Option Vec)
  | [] => .ok none
  | [v] => .ok (some v)
  | _ => .ub

/-- A function which gives a vector, on what a variable holds. -/
def onVector (f : Option Vec → Out Vec) (v : List Vec) : Out (List Vec) := do
  let a ← vector v
  let b ← f a
  return [b]

/-- A function of two vectors which gives a vector, on what two variables hold. -/
def onVectors (f : Option Vec → Option Vec → Out Vec) (v w : List Vec) : Out (List Vec) := do
  let a ← vector v
  let b ← vector w
  let r ← f a b
  return [r]

/-- `osl_statement_dispatch` on a variable: its (first) statement must have no relation yet, which would be lost. -/
def dispatch (c : Cfg) : Stmts (DataAt n) → RList → Out (Stmts (DataAt n))
  | [], _ => .ub
  | s :: l, list => do
    null s.domain
    null s.scattering
    null s.access
    let r ← Stmts.dispatch c list
    return { s with domain := r.1, scattering := r.2.1, access := r.2.2 } :: l

/-- No statement is lost by `osl_scop_remove_unions` (C55). -/
def unionsKeep (l : Scops (DataAt n)) : Prop := ∀ s ∈ l, ∀ a ∈ s.statement.dropLast, a.domain.length ≤ 1 ∧ a.scattering.length ≤ 1

/-- The strings which `osl_scop_read` loses (C72); the other calls lose nothing. -/
def lost (c : Cfg) (e : Option Str) (n : Nat) : Call → List Str
  | .scopRead _ file => libTags c e n file
  | _ => []

/-- A call on values: the new values of the variables, and what the client sees. -/
noncomputable def run (c : Cfg) (e : Option Str) (release : Str) (n : Nat) : Call → State n → Out (State n × Obs)
  | .relPmalloc x p r s => make .rel x (do let a ← Rel.pmalloc c p r s; return [a])
  | .relRead x p file => make .rel x (do let a ← Rel.pread c p file; return a.1)
  | .relFree x => change .rel x (fun _ => .ok [])
  | .relClone x y => from_ .rel x .rel y (Rel.clone c)
  | .relNclone x y k => from_ .rel x .rel y (fun r => Rel.nclone c r k)
  | .relCloneRows x y k => from_ .rel x .rel y (fun r => Rel.clone_nconstraints c r k)
  | .relUnion x y z => if y = z then from_ .rel x .rel y (fun r => Rel.union c r r) else on3 .rel x y .rel z (Rel.union c)
  | .relConcat x y z => on3 .rel x y .rel z (Rel.concat_constraints c)
  | .relAdd x y => move .rel x .rel y (fun r s => .ok (Rel.add r s))
  | .relInsert x y row => with_ .rel x .rel y (fun r s => Rel.insert_constraints c r s row)
  | .relInsertColumns x y column => with_ .rel x .rel y (fun r s => Rel.insert_columns c r s column)
  | .relInsertColumn x column => change .rel x (fun r => Rel.insert_blank_column c r column)
  | .relRemoveRow x row => change .rel x (fun r => Rel.remove_row c r row)
  | .relRemoveColumn x column => change .rel x (fun r => Rel.remove_column c r column)
  | .relExtend x y dim => from_ .rel x .rel y (fun r => Rel.extend_output c r dim)
  | .relSetType x type => change .rel x (fun r => .ok (Rel.set_type r type))
  | .relSetPrecision x p => change .rel x (Rel.set_precision c p)
  | .relEqual x y => compare .rel x y (Rel.equal c)
  | .relIntegrity x t o i p => look .rel x (fun r => do let b ← Rel.integrity_check c r t o i p; return .answer b)
  | .relSetAttributes x o i l p => change .rel x (fun r => .ok (Rel.set_attributes r o i l p))
  | .relSwap x i j => change .rel x (fun r => Rel.swap_constraints c r i j)
  | .relInsertRow x row => change .rel x (fun r => Rel.insert_blank_row c r row)
  | .relSamePrecision x y => on2 .rel x .rel y (fun r s => do let u ← Rel.set_same_precision c r s; return (u.1, u.2, .none))
  | .relIsAccess x => look .rel x (fun r => do let b ← .ok (Rel.is_access r); return .answer b)
  | .relArrayId x => look .rel x (fun r => do let v ← Rel.get_array_id c r; return .number v)
  | .relFromVector x y => from_ .rel x .vec y (fun v => do let a ← vector v; Rel.from_vector c a)
  | .relReplaceVector x y row => with_ .rel x .vec y (fun r v => do let a ← vector v; Rel.replace_vector c r a row)
  | .relAddVector x y row => with_ .rel x .vec y (fun r v => do let a ← vector v; Rel.add_vector c r a row)
  | .relSubVector x y row => with_ .rel x .vec y (fun r v => do let a ← vector v; Rel.sub_vector c r a row)
  | .relInsertVector x y row => with_ .rel x .vec y (fun r v => do let a ← vector v; Rel.insert_vector c r a row)
  | .relConcatVector x y z => on3 .rel x y .vec z (fun r v => do let a ← vector v; Rel.concat_vector c r a)
  | .vecMalloc x p size => make .vec x (do let v ← Vec.pmalloc c p size; return [v])
  | .vecFree x => change .vec x (fun _ => .ok [])
  | .vecAddScalar x y k => from_ .vec x .vec y (onVector (fun v => Vec.add_scalar c v k))
  | .vecMulScalar x y k => from_ .vec x .vec y (onVector (fun v => Vec.mul_scalar c v k))
  | .vecAdd x y z => if y = z then from_ .vec x .vec y (fun v => onVectors (Vec.add c) v v) else on3 .vec x y .vec z (onVectors (Vec.add c))
  | .vecSub x y z => if y = z then from_ .vec x .vec y (fun v => onVectors (Vec.sub c) v v) else on3 .vec x y .vec z (onVectors (Vec.sub c))
  | .vecTagInequality x => change .vec x (onVector (Vec.tag_inequality c))
  | .vecTagEquality x => change .vec x (onVector (Vec.tag_equality c))
  | .vecEqual x y => compare .vec x y (fun v w => do let a ← vector v; let b ← vector w; Vec.equal c a b)
  | .vecIsScalar x => look .vec x (fun v => do let b ← (do let a ← vector v; Vec.is_scalar c a); return .answer b)
  | .relPrint x => look .rel x (fun r => do must (RelFits c r); let t ← Rel.sprint c r; return .text t)
  | .relDump x => look .rel x (fun r => do let t ← Dump.relation c r 0; return .text t)
  | .listRead x p file => make .list x (do let a ← RList.pread c p file; return a.1)
  | .listNode x y => from_ .list x .rel y (RList.node c)
  | .listFree x => change .list x (fun _ => .ok [])
  | .listClone x y => from_ .list x .list y (RList.clone c)
  | .listConcat x y z => if y = z then from_ .list x .list y (fun l => RList.concat c l l) else on3 .list x y .list z (RList.concat c)
  | .listAdd x y => move .list x .list y (fun l m => .ok (RList.add l m))
  | .listPush x y => move .list x .list y pushOne
  | .listPop x y => on2 .list x .list y (fun l m => do null m; return ((RList.pop l).2, (RList.pop l).1, .none))
  | .listDup x => change .list x (RList.dup c)
  | .listDrop x => change .list x (fun l => .ok (RList.drop l))
  | .listDestroy x => change .list x (fun _ => .ok [])
  | .listSetType x type => change .list x (fun l => .ok (RList.set_type l type))
  | .listFilter x y type => from_ .list x .list y (fun l => RList.filter c l type)
  | .listEqual x y => compare .list x y (RList.equal c)
  | .listCount x => look .list x (fun l => .ok (.number (RList.count l)))
  | .listIntegrity x t o i p => look .list x (fun l => do let b ← RList.integrity_check c t o i p l; return .answer b)
  | .listPrint x => look .list x (fun l => do must (∀ r ∈ l, RelFits c r); let t ← RList.print c l; return .text t)
  | .listDump x => look .list x (fun l => do let t ← Dump.relation_list c l 0; return .text t)
  | .genFree x => change .gen x (fun _ => .ok [])
  | .genClone x y => from_ .gen x .gen y (GList.clone (libAt c e n).toEnv)
  | .genAdd x y => move .gen x .gen y GList.add
  | .genEqual x y => compare .gen x y (GList.equal (libAt c e n).toEnv)
  | .genCount x => look .gen x (fun l => .ok (.number (GList.count l)))
  | .genRemove x t => change .gen x (fun l => .ok (GList.remove l t))
  | .genPrint x => look .gen x (fun l => do must (goodList (goodAt c n) l); let t ← GList.sprint (libAt c e n).toEnv l; return .text t)
  | .genDump x => look .gen x (fun l => do let t ← Dump.generic (Dump.fnsAt c n) l 0; return .text t)
  | .stmtMalloc x => make .stmt x (.ok [{ domain := [], scattering := [], access := [], extension := [] }])
  | .stmtFree x => change .stmt x (fun _ => .ok [])
  | .stmtClone x y => from_ .stmt x .stmt y (Stmts.clone c (libAt c e n).toLib)
  | .stmtNclone x y k => from_ .stmt x .stmt y (fun l => Stmts.nclone c (libAt c e n).toLib l k)
  | .stmtAdd x y => move .stmt x .stmt y (fun l m => .ok (Stmts.add l m))
  | .stmtNumber x => look .stmt x (fun l => .ok (.number (Stmts.number l)))
  | .stmtDispatch x y => move .stmt x .list y (dispatch c)
  | .stmtUnions x y => from_ .stmt x .stmt y (fun l => match l with | [] => .ok [] | a :: l => Stmts.remove_unions c (libAt c e n).toLib (a :: l))
  | .stmtEqual x y => compare .stmt x y (Stmts.equal c (libAt c e n).toLib)
  | .stmtIntegrity x p => look .stmt x (fun l => do let b ← Stmts.integrity_check c (libAt c e n).toLib p l; return .answer b)
  | .stmtPrint x => look .stmt x (fun l => do must (StmtsFit c (goodAt c n) l); let t ← Stmts.print c (libAt c e n).toLib l; return .text t)
  | .stmtDump x => look .stmt x (fun l => do let t ← Dump.statement c (Dump.fnsAt c n) l 0; return .text t)
  | .stmtDomain x y => swap (k := .stmt) (j := .rel) x y (fun s => s.domain) (fun s r => { s with domain := r })
  | .stmtScattering x y => swap (k := .stmt) (j := .rel) x y (fun s => s.scattering) (fun s r => { s with scattering := r })
  | .stmtAccess x y => swap (k := .stmt) (j := .list) x y (fun s => s.access) (fun s l => { s with access := l })
  | .stmtExtension x y => swap (k := .stmt) (j := .gen) x y (fun s => s.extension) (fun s l => { s with extension := l })
  | .scopMalloc x => make .scop x (.ok [Scops.malloc])
  | .scopRead x file => make .scop x (Scops.read c (libAt c e n) e defaultRegistry file)
  | .scopFree x => change .scop x (fun _ => .ok [])
  | .scopClone x y => from_ .scop x .scop y (Scops.clone c (libAt c e n).toLib)
  | .scopUnions x y => from_ .scop x .scop y (fun l => do must (unionsKeep l); Scops.remove_unions c (libAt c e n).toLib l)
  | .scopAdd x y => move .scop x .scop y (fun l m => .ok (Scops.add l m))
  | .scopNumber x => look .scop x (fun l => .ok (.number (Scops.number l)))
  | .scopNormalize x => change .scop x (Scops.normalize_scattering c)
  | .scopEqual x y => compare .scop x y (Scops.equal c (libAt c e n).toLib)
  | .scopIntegrity x => look .scop x (fun l => do let b ← Scops.integrity_check c (libAt c e n).toLib l; return .answer b)
  | .scopCheckScoplib x => look .scop x (fun l => do let b ← Scops.check_compatible_scoplib c (libAt c e n).toLib l; return .answer b)
  | .scopPrint x => look .scop x (fun l => do must (∀ s ∈ l, ScopFits c (goodAt c n) s); let t ← Scops.print c (libAt c e n) release l; return .text t)
  | .scopPrintScoplib x => look .scop x (fun l => do must (∀ s ∈ l, ScopFitsScoplib c s); let t ← Scops.print_scoplib c (scoplibAt c e n) release l; return .text t)
  | .scopDump x => look .scop x (fun l => do let t ← Dump.scop c (Dump.fnsAt c n) l 0; return .text t)
  | .scopContext x y => swap (k := .scop) (j := .rel) x y (fun s => s.context) (fun s r => { s with context := r })
  | .scopParameters x y => swap (k := .scop) (j := .gen) x y (fun s => s.parameters) (fun s l => { s with parameters := l })
  | .scopStatement x y => swap (k := .scop) (j := .stmt) x y (fun s => s.statement) (fun s l => { s with statement := l })
  | .scopExtension x y => swap (k := .scop) (j := .gen) x y (fun s => s.extension) (fun s l => { s with extension := l })

/-- A history on values: the values of the variables at the end, and all that has been seen. -/
noncomputable def runs (c : Cfg) (e : Option Str) (release : Str) (n : Nat) : List Call → State n → Out (State n × List Obs)
  | [], σ => .ok (σ, [])
  | a :: l, σ => do
    let r ← run c e release n a σ
    let t ← runs c e release n l r.1
    return (t.1, r.2 :: t.2)

end

/-! ## Memory -/

/-- The pointer in a variable. -/
def slot (ps : List Ptr) (x : Nat) : M Ptr :=
  match ps[x]? with
  | some p => pure p
  | none => undef

/-- A call on one variable, in memory: its new pointer, what is seen. -/
def call1 (x : Nat) (m : Ptr → M (Ptr × Obs)) (ps : List Ptr) : M (List Ptr × Obs) := do
  let p ← slot ps x
  let r ← m p
  pure (ps.set x r.1, r.2)

/-- A call on two variables. -/
def call2 (x y : Nat) (m : Ptr → Ptr → M (Ptr × Ptr × Obs)) (ps : List Ptr) : M (List Ptr × Obs) := do
  let p ← slot ps x
  let q ← slot ps y
  let r ← m p q
  pure ((ps.set x r.1).set y r.2.1, r.2.2)

/-- `x = f(y, z)`. -/
def call3 (x y z : Nat) (m : Ptr → Ptr → M Ptr) (ps : List Ptr) : M (List Ptr × Obs) := do
  let q ← slot ps y
  let r ← slot ps z
  let p ← m q r
  pure (ps.set x p, .none)

/-- `x = f()`. -/
def assign (x : Nat) (m : M Ptr) : List Ptr → M (List Ptr × Obs) := call1 x (fun _ => do let q ← m; pure (q, .none))

/-- `x = f(y)`. -/
def assignFrom (x y : Nat) (m : Ptr → M Ptr) : List Ptr → M (List Ptr × Obs) := call2 x y (fun _ q => do let r ← m q; pure (r, q, .none))

/-- `f(x)`. -/
def act (x : Nat) (m : Ptr → M Unit) : List Ptr → M (List Ptr × Obs) := call1 x (fun p => do m p; pure (p, .none))

/-- `f(x); x = NULL`, or `f(&x)`. -/
def release_ (x : Nat) (m : Ptr → M Unit) : List Ptr → M (List Ptr × Obs) := call1 x (fun p => do m p; pure (0, .none))

/-- `x = f(x)`, or `f(&x)`. -/
def renew (x : Nat) (m : Ptr → M Ptr) : List Ptr → M (List Ptr × Obs) := call1 x (fun p => do let q ← m p; pure (q, .none))

/-- `f(x, y)`. -/
def act2 (x y : Nat) (m : Ptr → Ptr → M Unit) : List Ptr → M (List Ptr × Obs) := call2 x y (fun p q => do m p q; pure (p, q, .none))

/-- `f(&x, y); y = NULL`. -/
def give (x y : Nat) (m : Ptr → Ptr → M Ptr) : List Ptr → M (List Ptr × Obs) := call2 x y (fun p q => do let r ← m p q; pure (r, 0, .none))

/-- The answer of `f(x)`. -/
def answer (x : Nat) (m : Ptr → M Bool) : List Ptr → M (List Ptr × Obs) := call1 x (fun p => do let b ← m p; pure (p, .answer b))

/-- The text written by `f(file, x)`. -/
def text (x : Nat) (m : Ptr → M Str) : List Ptr → M (List Ptr × Obs) := call1 x (fun p => do let t ← m p; pure (p, .text t))

/-- The number which `f(x)` returns. -/
def number (x : Nat) (m : Ptr → M Nat) : List Ptr → M (List Ptr × Obs) := call1 x (fun p => do let k ← m p; pure (p, .number k))

/-- The answer of `f(x, y)`. -/
def answer2 (x y : Nat) (m : Ptr → Ptr → M Bool) : List Ptr → M (List Ptr × Obs) := call2 x y (fun p q => do let b ← m p q; pure (p, q, .answer b))

/-- The integer which `f(x)` returns. -/
def integer (x : Nat) (m : Ptr → M Int) : List Ptr → M (List Ptr × Obs) := call1 x (fun p => do let k ← m p; pure (p, .number k))

/-- `osl_generic_remove(&p, "t")`: the client has the string `t` in its memory during the call. -/
def removeString [Allocator] (O : DataFns) (t : Str) (p : Ptr) : M Ptr := do
  let v ← alloc (.chars t)
  let q ← genRemove O p v
  free v
  pure q

/-- `t = p->field; p->field = q`: the old field of a statement (include/osl/statement.h:79-88). -/
def exchangeField (p : Ptr) (i : Nat) (q : Ptr) : M Ptr := do
  let t ← getField p i
  setField p i q
  pure t

/-- `t = p->field; p->field = q`: the old field of a scop (include/osl/scop.h.in:90-101). -/
def exchangePtr (p : Ptr) (i : Nat) (q : Ptr) : M Ptr := do
  let t ← getPtr p i
  setPtr p i q
  pure t

/-- `t = x->field; x->field = y; y = t`. -/
def swapWith (x y : Nat) (m : Ptr → Ptr → M Ptr) : List Ptr → M (List Ptr × Obs) := call2 x y (fun p q => do let t ← m p q; pure (p, t, .none))

/-- A call in memory: the new pointers in the variables, and what the client sees.  Each function is the one which models the C function of that name (the lines are cited at its
definition in Verif/Heap*.lean); the assignments to the variables are those of the client. -/
def exec [Allocator] (c : Cfg) (e : Option Str) (release : Str) (n : Nat) : Call → List Ptr → M (List Ptr × Obs)
  | .relPmalloc x p r s => assign x (pmalloc c p r s)
  | .relRead x p file => assign x (do let r ← relPread c p file; pure r.1)
  | .relFree x => release_ x (relFree c)
  | .relClone x y => assignFrom x y (relClone c)
  | .relNclone x y k => assignFrom x y (fun p => relNclone c p k)
  | .relCloneRows x y k => assignFrom x y (fun p => relCloneRows c p k)
  | .relUnion x y z => call3 x y z (relUnion c)
  | .relConcat x y z => call3 x y z (relConcat c)
  | .relAdd x y => give x y relAdd
  | .relInsert x y row => act2 x y (fun p q => relInsert c p q row)
  | .relInsertColumns x y column => act2 x y (fun p q => relInsertColumns c p q column)
  | .relInsertColumn x column => act x (fun p => relInsertColumn c p column)
  | .relRemoveRow x row => act x (fun p => relRemoveRow c p row)
  | .relRemoveColumn x column => act x (fun p => relRemoveColumn c p column)
  | .relExtend x y dim => assignFrom x y (fun p => relExtendOutput c p dim)
  | .relSetType x type => act x (fun p => relSetType p type)
  | .relSetPrecision x p => act x (relSetPrecision c p)
  | .relEqual x y => answer2 x y (relEqual c)
  | .relIntegrity x t o i p => answer x (fun q => relIntegrity c q t o i p)
  | .relSetAttributes x o i l p => act x (fun q => relSetAttributes q o i l p)
  | .relSwap x i j => act x (fun p => relSwap c p i j)
  | .relInsertRow x row => act x (fun p => relInsertBlankRow c p row)
  | .relSamePrecision x y => act2 x y (relSetSamePrecision c)
  | .relIsAccess x => answer x relIsAccess
  | .relArrayId x => integer x (relArrayId c)
  | .relFromVector x y => assignFrom x y (relFromVector c)
  | .relReplaceVector x y row => act2 x y (fun p q => relReplaceVector c p q row)
  | .relAddVector x y row => act2 x y (fun p q => relAddVector c p q row)
  | .relSubVector x y row => act2 x y (fun p q => relSubVector c p q row)
  | .relInsertVector x y row => act2 x y (fun p q => relInsertVector c p q row)
  | .relConcatVector x y z => call3 x y z (relConcatVector c)
  | .vecMalloc x p size => assign x (vecPmalloc c p size)
  | .vecFree x => release_ x (vecFree c)
  | .vecAddScalar x y k => assignFrom x y (fun p => vecAddScalar c p k)
  | .vecMulScalar x y k => assignFrom x y (fun p => vecMulScalar c p k)
  | .vecAdd x y z => call3 x y z (vecAdd c)
  | .vecSub x y z => call3 x y z (vecSub c)
  | .vecTagInequality x => act x (vecTagInequality c)
  | .vecTagEquality x => act x (vecTagEquality c)
  | .vecEqual x y => answer2 x y (vecEqual c)
  | .vecIsScalar x => answer x (vecIsScalar c)
  | .relPrint x => text x (relPrint c)
  | .relDump x => text x (dump0 (relDump c))
  | .listRead x p file => assign x (do let r ← listPread c p file; pure r.1)
  | .listNode x y => assignFrom x y (listNode c)
  | .listFree x => release_ x (listFree c)
  | .listClone x y => assignFrom x y (listClone c)
  | .listConcat x y z => call3 x y z (listConcat c)
  | .listAdd x y => give x y listAdd
  | .listPush x y => give x y listPush
  | .listPop x y => call2 x y (fun p _ => do let t ← listPop p; pure (t.2, t.1, .none))
  | .listDup x => renew x (listDup c)
  | .listDrop x => renew x (listDrop c)
  | .listDestroy x => renew x (listDestroy c)
  | .listSetType x type => act x (fun p => listSetType p type)
  | .listFilter x y type => assignFrom x y (fun p => listFilter c p type)
  | .listEqual x y => answer2 x y (listEqual c)
  | .listCount x => number x listCount
  | .listIntegrity x t o i k => answer x (fun p => listIntegrity c p t o i k)
  | .listPrint x => text x (listPrint c)
  | .listDump x => text x (dump0 (listDump c))
  | .genFree x => release_ x (genFree (fnsAt c n))
  | .genClone x y => assignFrom x y (genClone (fnsAt c n))
  | .genAdd x y => give x y genAdd
  | .genEqual x y => answer2 x y (genEqual (equalAt c n))
  | .genCount x => number x genCount
  | .genRemove x t => renew x (removeString (fnsAt c n) t)
  | .genPrint x => text x (genPrint (sprintAt c n))
  | .genDump x => text x (dump0 (genDump (dumpAt c n)))
  | .stmtMalloc x => assign x stmtMalloc
  | .stmtFree x => release_ x (stmtFree c (fnsAt c n))
  | .stmtClone x y => assignFrom x y (stmtClone c (fnsAt c n))
  | .stmtNclone x y k => assignFrom x y (fun p => stmtNclone c (fnsAt c n) p k)
  | .stmtAdd x y => give x y stmtAdd
  | .stmtNumber x => number x stmtNumber
  | .stmtDispatch x y => give x y (fun p q => do stmtDispatch c p q; pure p)
  | .stmtUnions x y => assignFrom x y (stmtRemoveUnions c (fnsAt c n))
  | .stmtEqual x y => answer2 x y (stmtEqual c (equalAt c n))
  | .stmtIntegrity x k => answer x (fun p => stmtIntegrity c p k)
  | .stmtPrint x => text x (stmtPrint c (sprintAt c n))
  | .stmtDump x => text x (dump0 (stmtDump c (dumpAt c n)))
  | .stmtDomain x y => swapWith x y (fun p q => exchangeField p 0 q)
  | .stmtScattering x y => swapWith x y (fun p q => exchangeField p 1 q)
  | .stmtAccess x y => swapWith x y (fun p q => exchangeField p 2 q)
  | .stmtExtension x y => swapWith x y (fun p q => exchangeField p 3 q)
  | .scopMalloc x => assign x scopMalloc
  | .scopRead x file => assign x (scopRead c e (sreadAt c e n) file)
  | .scopFree x => release_ x (scopFree c (fnsAt c n))
  | .scopClone x y => assignFrom x y (scopClone c (fnsAt c n))
  | .scopUnions x y => assignFrom x y (scopRemoveUnions c (fnsAt c n))
  | .scopAdd x y => give x y scopAdd
  | .scopNumber x => number x scopNumber
  | .scopNormalize x => act x (scopNormalize c)
  | .scopEqual x y => answer2 x y (scopEqual c (equalAt c n))
  | .scopIntegrity x => answer x (scopIntegrity c)
  | .scopCheckScoplib x => answer x (scopCheckScoplib c)
  | .scopPrint x => text x (scopPrint c (sprintAt c n) release)
  | .scopPrintScoplib x => text x (scopPrintScoplib c release)
  | .scopDump x => text x (dump0 (scopDump c (dumpAt c n)))
  | .scopContext x y => swapWith x y (fun p q => exchangePtr p 1 q)
  | .scopParameters x y => swapWith x y (fun p q => exchangePtr p 2 q)
  | .scopStatement x y => swapWith x y (fun p q => exchangePtr p 3 q)
  | .scopExtension x y => swapWith x y (fun p q => exchangePtr p 5 q)

/-- A history in memory. -/
def execs [Allocator] (c : Cfg) (e : Option Str) (release : Str) (n : Nat) : List Call → List Ptr → M (List Ptr × List Obs)
  | [], ps => pure (ps, [])
  | a :: l, ps => do
    let r ← exec c e release n a ps
    let t ← execs c e release n l r.1
    pure (t.1, r.2 :: t.2)

end Osl.Client
