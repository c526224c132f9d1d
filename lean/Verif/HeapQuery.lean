import Verif.HeapQueryRel
import Verif.HeapScop
/-!
# Read-only functions on lists, generics, statements and scops in memory

The functions of source/relation_list.c, source/generic.c, source/statement.c and source/scop.c which only read, on the memory of `Verif/Heap.lean`: they call
those of `Verif/HeapQueryRel.lean`.

Simplifications: the messages (OSL_info, OSL_warning, the joke of `osl_scop_integrity_check`) are omitted; the accumulators of the `get_attributes` functions are values;
a field which is read several times in a row is read once.
-/

namespace Osl.Mem

/-! ## Lists of relations -/

/-- One turn of the loop of `osl_relation_list_get_attributes` (source/relation_list.c:748-759): the local accumulators and the results. -/
def listAttrsStep (c : Cfg) (p : Ptr) (s : Rel.Attrs × Rel.Attrs) : M ((Rel.Attrs × Rel.Attrs) ⊕ Rel.Attrs) := do
  let elt ← getField p 0
  let loc ← relAttributes c elt s.1
  pure (.inl (loc, attrsMax s.2 loc))

/-- The local accumulators, at first (for instance source/relation_list.c:742-746). -/
def noAttrs : Rel.Attrs := ⟨UNDEFINED, UNDEFINED, UNDEFINED, UNDEFINED, UNDEFINED⟩

/-- `osl_relation_list_get_attributes` (source/relation_list.c:738-760). -/
def listAttributes (c : Cfg) (p : Ptr) (a : Rel.Attrs) : M Rel.Attrs := chase listNext (listAttrsStep c) (fun s => s.2) p (noAttrs, a)

/-- One turn of the loop of `osl_relation_list_integrity_check` (source/relation_list.c:630-639). -/
def listIntegrityStep (c : Cfg) (type o i np : Int) (p : Ptr) (_ : Unit) : M (Unit ⊕ Bool) := do
  let elt ← getField p 0
  let b ← relIntegrity c elt type o i np
  if b then pure (.inl ()) else pure (.inr false)

/-- `osl_relation_list_integrity_check` (source/relation_list.c:626-642). -/
def listIntegrity (c : Cfg) (p : Ptr) (type o i np : Int) : M Bool := chase listNext (listIntegrityStep c type o i np) (fun _ => true) p ()

/-- The comparison of the elements of two nodes (source/relation_list.c:598). -/
def listNodeEqual (c : Cfg) (p q : Ptr) : M Bool := do
  let a ← getField p 0
  let b ← getField q 0
  relEqual c a b

/-- The `while ((p != NULL) && (q != NULL))` loops which return 1 when both pointers are the same node and 0 when `eq` says the nodes differ, with the comparison of
the lengths at the end (source/relation_list.c:594-608, source/scop.c:703-749). -/
def sharedLoop (N : Next) (eq : Ptr → Ptr → M Bool) : Nat → Ptr → Ptr → M Bool
  | 0, p, q => if p = 0 ∨ q = 0 then pure (decide (p = 0 ∧ q = 0)) else undef
  | f + 1, p, q =>
    if p = 0 ∨ q = 0 then pure (decide (p = 0 ∧ q = 0))
    else if p = q then pure true
    else do
      let b ← eq p q
      if b then do
        let n ← N.get p
        let o ← N.get q
        sharedLoop N eq f n o
      else pure false

/-- The same loops. -/
def sharedAll (N : Next) (eq : Ptr → Ptr → M Bool) (p q : Ptr) : M Bool := do
  let f ← heapSize
  sharedLoop N eq f p q

/-- `osl_relation_list_equal` (source/relation_list.c:592-609). -/
def listEqual (c : Cfg) (p q : Ptr) : M Bool := sharedAll listNext (listNodeEqual c) p q

/-! ## Generics -/

/-- `(u != NULL) && (!strcmp(u, t))` for a constant string. -/
def strIs (t : Str) (u : Ptr) : M Bool :=
  if u = 0 then pure false
  else do
    let b ← load u
    let s ← lift (asChars b)
    pure (decide (s = t))

/-- The test of the URI of an interface (source/generic.c:637-639). -/
def ifaceIs (t : Str) (interface : Ptr) : M Bool :=
  if interface = 0 then pure false
  else do
    let i ← loadIface interface
    strIs t i.uri

/-- `osl_generic_has_URI` (source/generic.c:636-642) for a constant URI. -/
def genIs (t : Str) (p : Ptr) : M Bool := do
  let i ← getField p 0
  ifaceIs t i

/-- The loop of `osl_generic_lookup` (source/generic.c:653-662) for a constant URI. -/
def genFindLoop (t : Str) : Nat → Ptr → M Ptr
  | 0, p => if p = 0 then pure 0 else undef
  | f + 1, p =>
    if p = 0 then pure 0
    else do
      let b ← genIs t p
      if b then getField p 1
      else do
        let n ← getField p 2
        genFindLoop t f n

/-- `osl_generic_lookup` (source/generic.c:653-662) for a constant URI. -/
def genFind (t : Str) (p : Ptr) : M Ptr := do
  let f ← heapSize
  genFindLoop t f p

/-- The comparison of the data of two generics with the same interface (source/generic.c:603-616). -/
def genEqualData (eqf : Nat → Ptr → Ptr → M Bool) (i x y : Ptr) : M Bool :=
  if i = 0 then pure false
  else do
    let r ← loadIface i
    let d ← getField x 1
    let e ← getField y 1
    eqf r.fns.equal d e

/-- One turn of the inner loop of `osl_generic_equal` (source/generic.c:600-619). -/
def genEqualStep (eqf : Nat → Ptr → Ptr → M Bool) (x y : Ptr) (_ : Unit) : M (Unit ⊕ Bool) := do
  let i ← getField x 0
  let j ← getField y 0
  let b ← ifaceEqual i j
  if b then do
    let e ← genEqualData eqf i x y
    pure (.inr e)
  else pure (.inl ())

/-- The inner loop of `osl_generic_equal` (source/generic.c:600-622): is an equal generic found? -/
def genFindEqual (eqf : Nat → Ptr → Ptr → M Bool) (x q : Ptr) : M Bool := chase genNext (genEqualStep eqf x) (fun _ => false) q ()

/-- One turn of the outer loop of `osl_generic_equal` (source/generic.c:597-625). -/
def genEqualTurn (eqf : Nat → Ptr → Ptr → M Bool) (q x : Ptr) (_ : Unit) : M (Unit ⊕ Bool) := do
  let e ← genFindEqual eqf x q
  if e then pure (.inl ()) else pure (.inr false)

/-- The body of `osl_generic_equal` (source/generic.c:589-625). -/
def genEqualLists (eqf : Nat → Ptr → Ptr → M Bool) (p q : Ptr) : M Bool := do
  let n ← genCount p
  let m ← genCount q
  if n ≠ m then pure false else chase genNext (genEqualTurn eqf q) (fun _ => true) p ()

/-- `osl_generic_equal` (source/generic.c:581-626): `eqf` are the functions of the interfaces. -/
def genEqual (eqf : Nat → Ptr → Ptr → M Bool) (p q : Ptr) : M Bool := if p = q then pure true else genEqualLists eqf p q

/-! ## Statements -/

/-- One turn of the loop of `osl_statement_get_attributes` (source/statement.c:812-831). -/
def stmtAttrsStep (c : Cfg) (p : Ptr) (s : Rel.Attrs × Rel.Attrs) : M ((Rel.Attrs × Rel.Attrs) ⊕ Rel.Attrs) := do
  let d ← getField p 0
  let loc ← relAttributes c d s.1
  let sc ← getField p 1
  let loc ← relAttributes c sc loc
  let a ← getField p 2
  let loc ← listAttributes c a loc
  pure (.inl (loc, attrsMax s.2 loc))

/-- `osl_statement_get_attributes` (source/statement.c:802-832). -/
def stmtAttributes (c : Cfg) (p : Ptr) (a : Rel.Attrs) : M Rel.Attrs := chase stmtNext (stmtAttrsStep c) (fun s => s.2) p (noAttrs, a)

/-- The number of output dimensions of a relation, or another value for NULL (source/statement.c:735-738, 776-781). -/
def outputDims (d : Int) (p : Ptr) : M Int :=
  if p = 0 then pure d
  else do
    let r ← loadRel p
    pure r.1.nb_output_dims

/-- The number of parameters of a relation, or another value for NULL (source/scop.c:776-780, 862-867). -/
def paramDims (d : Int) (p : Ptr) : M Int :=
  if p = 0 then pure d
  else do
    let r ← loadRel p
    pure r.1.nb_parameters

/-- The comparison with the size of the iterators (source/statement.c:755-756). -/
def itersBad (its : Int) (iterators : Ptr) : M Bool :=
  if iterators = 0 then pure false
  else do
    let n ← strSize iterators
    pure (decide ((if its < 0 then its + 2 ^ 64 else its) ≠ (n : Int)))

/-- The test of the body of a statement (source/statement.c:753-756). -/
def stmtBodyBad (its : Int) (body : Ptr) : M Bool :=
  if its = UNDEFINED then pure false
  else if body = 0 then pure false
  else do
    let it ← getField body 0
    itersBad its it

/-- The checks of one statement after its domain (source/statement.c:741-759). -/
def stmtIntegrityRest (c : Cfg) (np its : Int) (p : Ptr) : M Bool := do
  let sc ← getField p 1
  let b ← relIntegrity c sc TYPE_SCATTERING UNDEFINED its np
  if b then do
    let a ← getField p 2
    let b ← listIntegrity c a TYPE_ACCESS UNDEFINED its np
    if b then do
      let e ← getField p 3
      let body ← genFind URI_BODY e
      let bad ← stmtBodyBad its body
      pure (!bad)
    else pure false
  else pure false

/-- The checks of one statement (source/statement.c:726-759). -/
def stmtIntegrityOne (c : Cfg) (np : Int) (p : Ptr) : M Bool := do
  let d ← getField p 0
  let b ← relIntegrity c d TYPE_DOMAIN UNDEFINED 0 np
  if b then do
    let its ← outputDims UNDEFINED d
    stmtIntegrityRest c np its p
  else pure false

/-- One turn of the loop of `osl_statement_integrity_check` (source/statement.c:725-763). -/
def stmtIntegrityStep (c : Cfg) (np : Int) (p : Ptr) (_ : Unit) : M (Unit ⊕ Bool) := do
  let b ← stmtIntegrityOne c np p
  if b then pure (.inl ()) else pure (.inr false)

/-- `osl_statement_integrity_check` (source/statement.c:720-766). -/
def stmtIntegrity (c : Cfg) (p : Ptr) (np : Int) : M Bool := chase stmtNext (stmtIntegrityStep c np) (fun _ => true) p ()

/-- The comparisons of the fields of two statements (source/statement.c:687-707). -/
def stmtEqualOne (c : Cfg) (eqf : Nat → Ptr → Ptr → M Bool) (p q : Ptr) : M Bool := do
  let d1 ← getField p 0
  let d2 ← getField q 0
  let b ← relEqual c d1 d2
  if b then do
    let s1 ← getField p 1
    let s2 ← getField q 1
    let b ← relEqual c s1 s2
    if b then do
      let a1 ← getField p 2
      let a2 ← getField q 2
      let b ← listEqual c a1 a2
      if b then do
        let e1 ← getField p 3
        let e2 ← getField q 3
        genEqual eqf e1 e2
      else pure false
    else pure false
  else pure false

/-- `osl_statement_equal` (source/statement.c:669-708), a recursive function. -/
def stmtEqualRec (c : Cfg) (eqf : Nat → Ptr → Ptr → M Bool) : Nat → Ptr → Ptr → M Bool
  | 0, p, q => if p = q then pure true else undef
  | f + 1, p, q =>
    if p = q then pure true
    else do
      let n ← getField p 4
      let o ← getField q 4
      if (n ≠ 0 ∧ o = 0) ∨ (n = 0 ∧ o ≠ 0) then pure false
      else if n ≠ 0 ∧ o ≠ 0 then do
        let b ← stmtEqualRec c eqf f n o
        if b then stmtEqualOne c eqf p q else pure false
      else stmtEqualOne c eqf p q

/-- `osl_statement_equal` (source/statement.c:669-708). -/
def stmtEqual (c : Cfg) (eqf : Nat → Ptr → Ptr → M Bool) (p q : Ptr) : M Bool := do
  let f ← heapSize
  stmtEqualRec c eqf f p q

/-- `osl_statement_get_nb_iterators` (source/statement.c:775-782). -/
def stmtNbIterators (p : Ptr) : M Int := do
  let d ← getField p 0
  outputDims 0 d

/-- The body of an extbody, or NULL (source/statement.c:852-855). -/
def extbodyBody (ebody : Ptr) : M Ptr := if ebody ≠ 0 then getPtr ebody 2 else pure 0

/-- The lookups of `osl_statement_get_body` (source/statement.c:848-855). -/
def bodyOf (extension : Ptr) : M Ptr := do
  let body ← genFind URI_BODY extension
  if body ≠ 0 then pure body
  else do
    let ebody ← genFind URI_EXTBODY extension
    extbodyBody ebody

/-- The test of the extension (source/statement.c:844-855). -/
def bodyOrNull (extension : Ptr) : M Ptr := if extension = 0 then pure 0 else bodyOf extension

/-- `osl_statement_get_body` (source/statement.c:840-856). -/
def stmtGetBody (p : Ptr) : M Ptr :=
  if p = 0 then pure 0
  else do
    let e ← getField p 3
    bodyOrNull e

/-! ## Scops -/

/-- One turn of the loop of `osl_scop_get_attributes` (source/scop.c:922-937). -/
def scopAttrsStep (c : Cfg) (p : Ptr) (s : Rel.Attrs × Rel.Attrs) : M ((Rel.Attrs × Rel.Attrs) ⊕ Rel.Attrs) := do
  let x ← getPtr p 1
  let loc ← relAttributes c x s.1
  let st ← getPtr p 3
  let loc ← stmtAttributes c st loc
  pure (.inl (loc, attrsMax s.2 loc))

/-- `osl_scop_get_attributes` (source/scop.c:913-938). -/
def scopAttributes (c : Cfg) (p : Ptr) (a : Rel.Attrs) : M Rel.Attrs := chase scopNext (scopAttrsStep c) (fun s => s.2) p (noAttrs, a)

/-- One turn of the loop of `osl_scop_integrity_check` (source/scop.c:762-788). -/
def scopIntegrityStep (c : Cfg) (p : Ptr) (_ : Unit) : M (Unit ⊕ Bool) := do
  let x ← getPtr p 1
  let b ← relIntegrity c x TYPE_CONTEXT UNDEFINED UNDEFINED UNDEFINED
  if b then do
    let np ← paramDims UNDEFINED x
    let st ← getPtr p 3
    let b ← stmtIntegrity c st np
    if b then pure (.inl ()) else pure (.inr false)
  else pure (.inr false)

/-- `osl_scop_integrity_check` (source/scop.c:759-790). -/
def scopIntegrity (c : Cfg) (p : Ptr) : M Bool := chase scopNext (scopIntegrityStep c) (fun _ => true) p ()

/-- The comparisons of `osl_scop_equal` after the language (source/scop.c:717-740). -/
def scopEqualRest (c : Cfg) (eqf : Nat → Ptr → Ptr → M Bool) (p q : Ptr) : M Bool := do
  let x1 ← getPtr p 1
  let x2 ← getPtr q 1
  let b ← relEqual c x1 x2
  if b then do
    let g1 ← getPtr p 2
    let g2 ← getPtr q 2
    let b ← genEqual eqf g1 g2
    if b then do
      let s1 ← getPtr p 3
      let s2 ← getPtr q 3
      let b ← stmtEqual c eqf s1 s2
      if b then do
        let r1 ← getPtr p 4
        let r2 ← getPtr q 4
        let b ← ifaceEqual r1 r2
        if b then do
          let e1 ← getPtr p 5
          let e2 ← getPtr q 5
          genEqual eqf e1 e2
        else pure false
      else pure false
    else pure false
  else pure false

/-- The body of the loop of `osl_scop_equal` (source/scop.c:707-740). -/
def scopEqualOne (c : Cfg) (eqf : Nat → Ptr → Ptr → M Bool) (p q : Ptr) : M Bool := do
  let v1 ← getInt p 0
  let v2 ← getInt q 0
  if v1 ≠ v2 then pure false
  else do
    let l1 ← getPtr p 0
    let l2 ← getPtr q 0
    let b ← strEq l1 l2
    if b then scopEqualRest c eqf p q else pure false

/-- `osl_scop_equal` (source/scop.c:702-750). -/
def scopEqual (c : Cfg) (eqf : Nat → Ptr → Ptr → M Bool) (p q : Ptr) : M Bool := sharedAll scopNext (scopEqualOne c eqf) p q

/-- The loop on the parts of a domain (source/scop.c:821-828). -/
def noLocals (p : Ptr) : M Unit :=
  chase relNext (fun p _ => do
    let r ← loadRel p
    if r.1.nb_local_dims ≠ 0 then fail else pure (.inl ())) (fun _ => ()) p ()

/-- One coefficient (source/scop.c:834-844). -/
def identCell (c : Cfg) (precision i j : Int) (m : Ptr) : M Unit := do
  let v ← mget (kind c precision) m i (j + 1)
  let ok ← lift (if i = j then OInt.mone c precision v else OInt.zero c precision v)
  if ok then pure () else fail

/-- The loops on the coefficients (source/scop.c:832-846). -/
def identMatrix (c : Cfg) (precision : Int) (h : Hdr) (m : Ptr) : M Unit :=
  forS 0 h.nb_rows (fun i _ => forS 0 h.nb_output_dims (fun j _ => identCell c precision i j m) ()) ()

/-- One turn of the loop on the statements (source/scop.c:813-849). -/
def scoplibStep (c : Cfg) (precision : Int) (p : Ptr) (_ : Unit) : M (Unit ⊕ Bool) := do
  let sc ← getField p 1
  let r ← loadRel sc
  if r.1.nb_local_dims ≠ 0 then fail
  else do
    let d ← getField p 0
    noLocals d
    identMatrix c precision r.1 r.2.1
    pure (.inl ())

/-- The end of `osl_scop_check_compatible_scoplib` (source/scop.c:807-852), for a list of statements. -/
def scoplibStmts (c : Cfg) (st : Ptr) : M Bool :=
  if st = 0 then pure true
  else do
    let sc ← getField st 1
    let r ← loadRel sc
    chase stmtNext (scoplibStep c r.1.precision) (fun _ => true) st ()

/-- `osl_scop_check_compatible_scoplib` (source/scop.c:799-853). -/
def scopCheckScoplib (c : Cfg) (p : Ptr) : M Bool := do
  let b ← scopIntegrity c p
  if b then do
    let n ← scopNext.get p
    if n ≠ 0 then pure false
    else do
      let st ← getPtr p 3
      scoplibStmts c st
  else pure false

/-- `osl_scop_get_nb_parameters` (source/scop.c:861-868). -/
def scopNbParameters (p : Ptr) : M Int := do
  let x ← getPtr p 1
  paramDims 0 x

end Osl.Mem
