import Verif.Statement
/-!
# Model of source/scop.c (data functions)

A scop list is a Lean list, NULL being `[]`.  The text functions are in Verif/ScopText.lean; `osl_scop_idump` is in
Verif/Dump.lean, the scoplib printer in Verif/Scoplib.lean, the memory in Verif/HeapScop.lean; the field `usr` is not modelled.
-/

namespace Osl

/-- `osl_scop_t` (include/osl/scop.h.in:90-101), one node. -/
structure Scop (D : Type) where
  version : Int
  language : Option Str
  context : Rel
  parameters : GList D
  statement : Stmts D
  registry : Ifaces
  extension : GList D
deriving Repr, DecidableEq

/-- A scop list. -/
abbrev Scops (D : Type) := List (Scop D)

namespace Scops

variable {D : Type}

/-- `osl_scop_malloc` (source/scop.c:531-546). -/
def malloc : Scop D := { version := 1, language := none, context := [], parameters := [], statement := [], registry := [], extension := [] }

/-- `osl_scop_add` (source/scop.c:582-587): the new value of `*location`. -/
def add (location scop : Scops D) : Scops D := location ++ scop

/-- `osl_scop_number` (source/scop.c:596-604). -/
def number (s : Scops D) : Nat := s.length

/-- The body of the loop of `osl_scop_clone` (source/scop.c:619-627). -/
def cloneOne (c : Cfg) (L : Lib D) (s : Scop D) : Out (Scop D) := do
  let ctx ← Rel.clone c s.context
  let par ← GList.clone L.toEnv s.parameters
  let st ← Stmts.clone c L s.statement
  let reg ← Ifaces.clone s.registry
  let ext ← GList.clone L.toEnv s.extension
  return { version := s.version, language := s.language, context := ctx, parameters := par, statement := st, registry := reg, extension := ext }

/-- `osl_scop_clone` (source/scop.c:614-642). -/
def clone (c : Cfg) (L : Lib D) (s : Scops D) : Out (Scops D) := Out.mapOut (cloneOne c L) s

/-- The loop on the statements of `osl_scop_remove_unions` (source/scop.c:660-669): `acc` is the list from
`new_scop->statement`, `ptr` the position of `scop_statement_ptr` in it, `none` for NULL.  The new statements are put
after the statement pointed, what followed it is lost. -/
def unionsLoop (c : Cfg) (L : Lib D) : Stmts D → Stmts D → Option Nat → Out (Stmts D)
  | [], acc, _ => .ok acc
  | s :: ss, acc, ptr => do
    let new ← Stmts.remove_unions c L (s :: ss)
    match ptr with
    | none => unionsLoop c L ss new (if new.isEmpty then none else some 0)
    | some k => unionsLoop c L ss (acc.take (k + 1) ++ new) (if new.isEmpty then none else some (k + 1))

/-- The body of the loop of `osl_scop_remove_unions` (source/scop.c:655-681). -/
def unionsOne (c : Cfg) (L : Lib D) (s : Scop D) : Out (Scop D) := do
  let st ← unionsLoop c L s.statement [] none
  let ctx ← Rel.clone c s.context
  let ext ← GList.clone L.toEnv s.extension
  let par ← GList.clone L.toEnv s.parameters
  let reg ← Ifaces.clone s.registry
  return { version := s.version, language := s.language, context := ctx, parameters := par, statement := st, registry := reg, extension := ext }

/-- `osl_scop_remove_unions` (source/scop.c:651-692). -/
def remove_unions (c : Cfg) (L : Lib D) (s : Scops D) : Out (Scops D) := Out.mapOut (unionsOne c L) s

/-- The comparisons of `osl_scop_equal` after the language (source/scop.c:717-740); the registries are compared by their
heads. -/
def equalRest (c : Cfg) (L : Lib D) (a b : Scop D) : Out Bool :=
  match Rel.equal c a.context b.context with
  | .ok true =>
    match GList.equal L.toEnv a.parameters b.parameters with
    | .ok true =>
      match Stmts.equal c L a.statement b.statement with
      | .ok true =>
        match Ifaces.equal a.registry.head? b.registry.head? with
        | .ok true => GList.equal L.toEnv a.extension b.extension
        | r => r
      | r => r
    | r => r
  | r => r

/-- The body of the loop of `osl_scop_equal` (source/scop.c:707-740), on distinct objects: `strcmp` of a NULL language is
undefined. -/
def equalOne (c : Cfg) (L : Lib D) (a b : Scop D) : Out Bool :=
  if a.version ≠ b.version then .ok false
  else
    match a.language, b.language with
    | some u, some v => if u ≠ v then .ok false else equalRest c L a b
    | _, _ => .ub

/-- `osl_scop_equal` (source/scop.c:702-750). -/
def equal (c : Cfg) (L : Lib D) : Scops D → Scops D → Out Bool
  | [], [] => .ok true
  | [], _ :: _ => .ok false
  | _ :: _, [] => .ok false
  | a :: as, b :: bs =>
    match equalOne c L a b with
    | .ok true => equal c L as bs
    | r => r

/-- The number of parameters a context announces (source/scop.c:776-780). -/
def expectedParams (ctx : Rel) : Int :=
  match ctx with
  | p :: _ => p.nb_parameters
  | [] => UNDEFINED

/-- `osl_scop_integrity_check` (source/scop.c:759-790). -/
def integrity_check (c : Cfg) (L : Lib D) : Scops D → Out Bool
  | [] => .ok true
  | s :: ss =>
    match Rel.integrity_check c s.context TYPE_CONTEXT UNDEFINED UNDEFINED UNDEFINED with
    | .ok true =>
      match Stmts.integrity_check c L (expectedParams s.context) s.statement with
      | .ok true => integrity_check c L ss
      | r => r
    | r => r

/-- The columns loop of source/scop.c:833-845 for row `i`: `n` columns remain from `j`; `precision` is that of the first
statement, another member of the integer union is read when the precisions differ: undefined here. -/
def identRow (c : Cfg) (precision : Int) (p : Part) (i : Int) : Nat → Int → Out Unit
  | 0, _ => .ok ()
  | n + 1, j => do
    let v ← get2 p.m i (j + 1)
    if precision ≠ p.precision then .ub
    else do
      let ok ← (if i = j then OInt.mone c precision v else OInt.zero c precision v)
      if ok then identRow c precision p i n (j + 1) else .err

/-- The rows loop of source/scop.c:832-846. -/
def identRows (c : Cfg) (precision : Int) (p : Part) : Nat → Int → Out Unit
  | 0, _ => .ok ()
  | n + 1, i => do
    let _ ← identRow c precision p i p.nb_output_dims.toNat 0
    identRows c precision p n (i + 1)

/-- The loop on the statements of `osl_scop_check_compatible_scoplib` (source/scop.c:813-850). -/
def scoplibLoop (c : Cfg) (precision : Int) : Stmts D → Out Unit
  | [] => .ok ()
  | s :: ss =>
    match s.scattering with
    | [] => .ub
    | p :: _ =>
      if p.nb_local_dims ≠ 0 then .err
      else if s.domain.any (fun q => decide (q.nb_local_dims ≠ 0)) then .err
      else do
        let _ ← identRows c precision p p.nb_rows.toNat 0
        scoplibLoop c precision ss

/-- `osl_scop_check_compatible_scoplib` (source/scop.c:799-853): a NULL scop is dereferenced at line 802, a NULL
scattering at line 810. -/
def check_compatible_scoplib (c : Cfg) (L : Lib D) (s : Scops D) : Out Bool :=
  match integrity_check c L s with
  | .ok true =>
    match s with
    | [] => .ub
    | _ :: _ :: _ => .ok false
    | [x] =>
      match x.statement with
      | [] => .ok true
      | st :: sts =>
        match st.scattering with
        | [] => .ub
        | p :: _ =>
          match scoplibLoop c p.precision (st :: sts) with
          | .ok _ => .ok true
          | .err => .err
          | .ub => .ub
  | r => r

/-- `osl_scop_get_nb_parameters` (source/scop.c:861-868), on a non NULL scop. -/
def get_nb_parameters (s : Scop D) : Int :=
  match s.context with
  | [] => 0
  | p :: _ => p.nb_parameters

/-- `osl_scop_register_extension` (source/scop.c:879-893), on a non NULL scop.  The data found under the URI is
used as a generic (line 887), which it is not: undefined. -/
def register_extension (s : Scop D) (interface : Ifaces) : Out (Scop D) :=
  match interface with
  | [] => .ok s
  | i :: is => do
    let r ← Ifaces.add s.registry (i :: is)
    match i.URI with
    | none => .ub
    | some u =>
      match GList.lookup s.extension u with
      | none => .ok { s with registry := r }
      | some _ => .ub

/-- The loop of `osl_scop_get_attributes` (source/scop.c:922-937). -/
def attrsLoop (c : Cfg) : Scops D → Rel.Attrs → Rel.Attrs → Out Rel.Attrs
  | [], _, a => .ok a
  | s :: ss, loc, a => do
    let loc ← Rel.get_attributes c s.context loc
    let loc ← Stmts.get_attributes c s.statement loc
    attrsLoop c ss loc (Stmts.maxAttrs a loc)

/-- `osl_scop_get_attributes` (source/scop.c:913-938). -/
def get_attributes (c : Cfg) (s : Scops D) (a : Rel.Attrs) : Out Rel.Attrs :=
  attrsLoop c s ⟨UNDEFINED, UNDEFINED, UNDEFINED, UNDEFINED, UNDEFINED⟩ a

/-- The first loop of `osl_scop_normalize_scattering` (source/scop.c:954-961). -/
def maxScatt : Stmts D → Int → Int
  | [], m => m
  | s :: ss, m => maxScatt ss (match s.scattering with | [] => m | p :: _ => Rel.omax m p.nb_output_dims)

/-- The body of the second loop of `osl_scop_normalize_scattering` (source/scop.c:966-971). -/
def normalizeOne (c : Cfg) (dim : Int) (s : Stmt D) : Out (Stmt D) :=
  match s.scattering with
  | [] => .ok s
  | p :: rest => do
    let e ← Rel.extend_output c (p :: rest) dim
    return { s with scattering := e }

/-- `osl_scop_normalize_scattering` (source/scop.c:947-975): the new scop (the next scops of the list are left). -/
def normalize_scattering (c : Cfg) (s : Scops D) : Out (Scops D) :=
  match s with
  | [] => .ok []
  | x :: xs => do
    let st ← Out.mapOut (normalizeOne c (maxScatt x.statement 0)) x.statement
    return { x with statement := st } :: xs

end Scops
end Osl
