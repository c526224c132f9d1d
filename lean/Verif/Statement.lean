import Verif.RelationList
import Verif.Generic
import Verif.Body
/-!
# Model of source/statement.c (data functions)

A statement list is a Lean list of statements, NULL being `[]`.  The data of the extensions has an arbitrary
type `D`; a `Lib D` gives the functions of the interfaces and the casts of `void*` to the types the statement
functions know.  The text functions are in Verif/StatementText.lean; `osl_statement_idump` is in Verif/Dump.lean,
the scoplib printer in Verif/Scoplib.lean, the memory in Verif/HeapStatement.lean.
-/

namespace Osl

/-- The library seen from the statements: the interface functions (`Env`) and the conversions of the data found under a
URI to the type this URI stands for; a conversion to a wrong type is undefined, `none`. -/
structure Lib (D : Type) extends Env D where
  body : D → Option Body
  extbody : D → Option (Option Body)

/-- `osl_statement_t` (include/osl/statement.h:85-93), one node. -/
structure Stmt (D : Type) where
  domain : Rel
  scattering : Rel
  access : RList
  extension : GList D
deriving Repr, DecidableEq

/-- A statement list. -/
abbrev Stmts (D : Type) := List (Stmt D)

/-- OSL_URI_BODY (include/osl/body.h:74). -/
def URI_BODY : Str := "body".toList

/-- OSL_URI_EXTBODY (include/osl/extensions/extbody.h:75). -/
def URI_EXTBODY : Str := "extbody".toList

namespace Stmts

variable {D : Type}

/-- `osl_statement_malloc` (source/statement.c:489-500). -/
def malloc : Stmt D := { domain := [], scattering := [], access := [], extension := [] }

/-- The first relation of a filtered list, NULL when there is none (source/statement.c:394-400, 408-414). -/
def headRel (l : RList) : Rel := l.head?.getD []

/-- `osl_statement_dispatch` (source/statement.c:383-425): the domain, the scattering and the accesses. -/
def dispatch (c : Cfg) (list : RList) : Out (Rel × Rel × RList) := do
  let dl ← RList.filter c list TYPE_DOMAIN
  if RList.count dl > 1 then .err
  else do
    let sl ← RList.filter c list TYPE_SCATTERING
    if RList.count sl > 1 then .err
    else do
      let al ← RList.filter c list TYPE_ACCESS
      if RList.count dl + RList.count sl + RList.count al ≠ RList.count list then .err
      else .ok (headRel dl, headRel sl, al)

/-- `osl_statement_add` (source/statement.c:534-539): the new value of `*location`. -/
def add (location statement : Stmts D) : Stmts D := location ++ statement

/-- `osl_statement_number` (source/statement.c:548-556). -/
def number (s : Stmts D) : Int := s.length

/-- The body of the loop of `osl_statement_nclone` (source/statement.c:571-576). -/
def cloneOne (c : Cfg) (L : Lib D) (s : Stmt D) : Out (Stmt D) := do
  let d ← Rel.clone c s.domain
  let sc ← Rel.clone c s.scattering
  let a ← RList.clone c s.access
  let e ← GList.clone L.toEnv s.extension
  return { domain := d, scattering := sc, access := a, extension := e }

/-- `osl_statement_nclone` (source/statement.c:566-592), -1 meaning the whole list. -/
def nclone (c : Cfg) (L : Lib D) (s : Stmts D) (n : Int) : Out (Stmts D) :=
  Out.mapOut (cloneOne c L) (if n = -1 then s else s.take n.toNat)

/-- `osl_statement_clone` (source/statement.c:601-603). -/
def clone (c : Cfg) (L : Lib D) (s : Stmts D) : Out (Stmts D) := nclone c L s (-1)

/-- `osl_relation_clone_one_safe` (source/statement.c:606-611). -/
def clone_one_safe (c : Cfg) (r : Rel) : Out Rel :=
  match r with
  | [] => .ok []
  | _ => Rel.nclone c r 1

/-- The construction of a statement (source/statement.c:637-641); `domain` and `scattering` are the pointers of the
loops, the rest of the unions. -/
def unionOne (c : Cfg) (L : Lib D) (s : Stmt D) (domain scattering : Rel) : Out (Stmt D) := do
  let d ← clone_one_safe c domain
  let sc ← clone_one_safe c scattering
  let a ← RList.clone c s.access
  let e ← GList.clone L.toEnv s.extension
  return { domain := d, scattering := sc, access := a, extension := e }

/-- The inner `do .. while` loop (source/statement.c:636-652), on the union starting at `scattering`. -/
def unionInner (c : Cfg) (L : Lib D) (s : Stmt D) (domain : Rel) : Rel → Out (Stmts D)
  | [] => do
    let x ← unionOne c L s domain []
    return [x]
  | [p] => do
    let x ← unionOne c L s domain [p]
    return [x]
  | p :: q :: rest => do
    let x ← unionOne c L s domain (p :: q :: rest)
    let xs ← unionInner c L s domain (q :: rest)
    return x :: xs

/-- The outer `do .. while` loop (source/statement.c:634-656), on the union starting at `domain`. -/
def unionOuter (c : Cfg) (L : Lib D) (s : Stmt D) : Rel → Out (Stmts D)
  | [] => unionInner c L s [] s.scattering
  | [p] => unionInner c L s [p] s.scattering
  | p :: q :: rest => do
    let xs ← unionInner c L s (p :: q :: rest) s.scattering
    let ys ← unionOuter c L s (q :: rest)
    return xs ++ ys

/-- `osl_statement_remove_unions` (source/statement.c:624-659) on the head of a list (the next statements are ignored). -/
def remove_unions (c : Cfg) (L : Lib D) (s : Stmts D) : Out (Stmts D) :=
  match s with
  | [] => .ok []
  | s :: _ => unionOuter c L s s.domain

/-- The comparisons of the fields of two statements (source/statement.c:687-705). -/
def equalOne (c : Cfg) (L : Lib D) (a b : Stmt D) : Out Bool :=
  match Rel.equal c a.domain b.domain with
  | .ok true =>
    match Rel.equal c a.scattering b.scattering with
    | .ok true =>
      match RList.equal c a.access b.access with
      | .ok true => GList.equal L.toEnv a.extension b.extension
      | r => r
    | r => r
  | r => r

/-- `osl_statement_equal` (source/statement.c:669-708).  Two non NULL lists are supposed to be distinct objects; a NULL
list is dereferenced when compared with another one. -/
def equal (c : Cfg) (L : Lib D) : Stmts D → Stmts D → Out Bool
  | [], [] => .ok true
  | [], _ :: _ => .ub
  | _ :: _, [] => .ub
  | [a], [b] => equalOne c L a b
  | _ :: _ :: _, [_] => .ok false
  | [_], _ :: _ :: _ => .ok false
  | a :: a' :: as, b :: b' :: bs =>
    match equal c L (a' :: as) (b' :: bs) with
    | .ok true => equalOne c L a b
    | r => r

/-- The data under OSL_URI_BODY, as a body (source/statement.c:752). -/
def lookupBody (L : Lib D) (e : GList D) : Out (Option Body) :=
  match GList.lookup e URI_BODY with
  | none => .ok none
  | some d => match L.body d with | some b => .ok (some b) | none => .ub

/-- The test of the body of a statement (source/statement.c:752-759); the conversion to `size_t` of a negative number of
iterators gives a number larger than any size. -/
def bodyBad (its : Int) (body : Option Body) : Bool :=
  match body with
  | none => false
  | some b =>
    decide (its ≠ UNDEFINED) && b.iterators.isSome &&
      decide ((if its < 0 then its + 2 ^ 64 else its) ≠ (Strings.size b.iterators : Int))

/-- The number of iterators expected by `osl_statement_integrity_check` (source/statement.c:735-738). -/
def expectedIters (domain : Rel) : Int :=
  match domain with
  | p :: _ => p.nb_output_dims
  | [] => UNDEFINED

/-- The body of the loop of `osl_statement_integrity_check` (source/statement.c:726-760). -/
def integrityOne (c : Cfg) (L : Lib D) (np : Int) (s : Stmt D) : Out Bool :=
  match Rel.integrity_check c s.domain TYPE_DOMAIN UNDEFINED 0 np with
  | .ok true =>
    let its := expectedIters s.domain
    match Rel.integrity_check c s.scattering TYPE_SCATTERING UNDEFINED its np with
    | .ok true =>
      match RList.integrity_check c TYPE_ACCESS UNDEFINED its np s.access with
      | .ok true =>
        match lookupBody L s.extension with
        | .ok b => .ok (!bodyBad its b)
        | .err => .err
        | .ub => .ub
      | r => r
    | r => r
  | r => r

/-- `osl_statement_integrity_check` (source/statement.c:720-766). -/
def integrity_check (c : Cfg) (L : Lib D) (np : Int) : Stmts D → Out Bool
  | [] => .ok true
  | s :: ss =>
    match integrityOne c L np s with
    | .ok true => integrity_check c L np ss
    | r => r

/-- `osl_statement_get_nb_iterators` (source/statement.c:775-782), on a non NULL statement. -/
def get_nb_iterators (s : Stmt D) : Int :=
  match s.domain with
  | [] => 0
  | p :: _ => p.nb_output_dims

/-- The update of the results of `osl_statement_get_attributes` (source/statement.c:825-829). -/
def maxAttrs (a l : Rel.Attrs) : Rel.Attrs :=
  ⟨Rel.omax a.nb_parameters l.nb_parameters, Rel.omax a.nb_iterators l.nb_iterators, Rel.omax a.nb_scattdims l.nb_scattdims,
    Rel.omax a.nb_localdims l.nb_localdims, Rel.omax a.array_id l.array_id⟩

/-- The loop of `osl_statement_get_attributes` (source/statement.c:812-831); `loc` are the local accumulators, which are not
reset between the statements. -/
def attrsLoop (c : Cfg) : Stmts D → Rel.Attrs → Rel.Attrs → Out Rel.Attrs
  | [], _, a => .ok a
  | s :: ss, loc, a => do
    let loc ← Rel.get_attributes c s.domain loc
    let loc ← Rel.get_attributes c s.scattering loc
    let loc ← RList.get_attributes c s.access loc
    attrsLoop c ss loc (maxAttrs a loc)

/-- `osl_statement_get_attributes` (source/statement.c:802-832). -/
def get_attributes (c : Cfg) (s : Stmts D) (a : Rel.Attrs) : Out Rel.Attrs :=
  attrsLoop c s ⟨UNDEFINED, UNDEFINED, UNDEFINED, UNDEFINED, UNDEFINED⟩ a

/-- `osl_statement_get_body` (source/statement.c:840-856). -/
def get_body (L : Lib D) (s : Stmts D) : Out (Option Body) :=
  match s with
  | [] => .ok none
  | s :: _ =>
    match GList.lookup s.extension URI_BODY with
    | some d => match L.body d with | some b => .ok (some b) | none => .ub
    | none =>
      match GList.lookup s.extension URI_EXTBODY with
      | some d => match L.extbody d with | some b => .ok b | none => .ub
      | none => .ok none

end Stmts
end Osl
