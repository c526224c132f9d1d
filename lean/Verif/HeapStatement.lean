import Verif.HeapGenericProps2
import Verif.HeapList
import Verif.Scop
/-!
# Statements and scops in memory (source/statement.c, source/scop.c)

A statement (`osl_statement_t`, include/osl/statement.h:85-93) is an array of pointers: `domain`, `scattering`, `access`, `extension`, `next`; a scop
(`osl_scop_t`, include/osl/scop.h.in:90-101) has an integer, `version`, and the pointers `language`, `context`, `parameters`, `statement`, `registry`, `extension`,
`next`.  The fields `usr`, which the library does not touch, are left out.
-/

namespace Osl.Mem

/-! ## Statements -/

/-- The `next` field of a statement (include/osl/statement.h:92). -/
def stmtNext : Next where
  get p := getField p 4
  set p n := setField p 4 n

/-- `osl_statement_malloc` (source/statement.c:489-500). -/
def stmtMalloc [Allocator] : M Ptr := alloc (.ptrs [0, 0, 0, 0, 0])

/-- One turn of the loop of `osl_statement_free` (source/statement.c:512-520). -/
def stmtFreeStep (c : Cfg) (O : DataFns) (p : Ptr) : M Ptr := do
  let next ← stmtNext.get p
  let d ← getField p 0
  relFree c d
  let s ← getField p 1
  relFree c s
  let a ← getField p 2
  listFree c a
  let e ← getField p 3
  genFree O e
  free p
  pure next

/-- `osl_statement_free` (source/statement.c:508-521). -/
def stmtFree (c : Cfg) (O : DataFns) (p : Ptr) : M Unit := freeAll (stmtFreeStep c O) p

/-- `osl_statement_add` (source/statement.c:534-539): the new value of `*location`. -/
def stmtAdd (location statement : Ptr) : M Ptr := append stmtNext location statement

/-- `osl_statement_number` (source/statement.c:548-556). -/
def stmtNumber (p : Ptr) : M Nat := countAll stmtNext p

/-- The copy of one statement (source/statement.c:571-576). -/
def stmtCopy [Allocator] (c : Cfg) (O : DataFns) (p : Ptr) : M Ptr := do
  let node ← stmtMalloc
  let d ← getField p 0
  let d' ← relClone c d
  setField node 0 d'
  let s ← getField p 1
  let s' ← relClone c s
  setField node 1 s'
  let a ← getField p 2
  let a' ← listClone c a
  setField node 2 a'
  let e ← getField p 3
  let e' ← genClone O e
  setField node 3 e'
  stmtNext.set node 0
  pure node

/-- `osl_statement_nclone` (source/statement.c:566-592). -/
def stmtNclone [Allocator] (c : Cfg) (O : DataFns) (p : Ptr) (n : Int) : M Ptr :=
  if n = -1 then copyAll stmtNext (stmtCopy c O) p else copyBound stmtNext (stmtCopy c O) n.toNat p 0 0

/-- `osl_statement_clone` (source/statement.c:601-603). -/
def stmtClone [Allocator] (c : Cfg) (O : DataFns) (p : Ptr) : M Ptr := stmtNclone c O p (-1)

/-- `osl_relation_clone_one_safe` (source/statement.c:606-611). -/
def relCloneOne [Allocator] (c : Cfg) (p : Ptr) : M Ptr := if p = 0 then pure 0 else relNclone c p 1

/-- The construction of one statement in `osl_statement_remove_unions` (source/statement.c:637-641). -/
def stmtUnionOne [Allocator] (c : Cfg) (O : DataFns) (statement domain scattering : Ptr) : M Ptr := do
  let new ← stmtMalloc
  let d ← relCloneOne c domain
  setField new 0 d
  let s ← relCloneOne c scattering
  setField new 1 s
  let a ← getField statement 2
  let a' ← listClone c a
  setField new 2 a'
  let e ← getField statement 3
  let e' ← genClone O e
  setField new 3 e'
  pure new

/-- The next part, or NULL: the condition of the end of the loops (source/statement.c:649-650, 653-654) is that it is NULL. -/
def relNextOr (p : Ptr) : M Ptr := if p = 0 then pure 0 else relNext.get p

/-- The inner loop of `osl_statement_remove_unions` (source/statement.c:636-652): the values of `result` and `statement_ptr`. -/
def stmtUnionInner [Allocator] (c : Cfg) (O : DataFns) (statement domain : Ptr) : Nat → Ptr → Ptr → Ptr → M (Ptr × Ptr)
  | 0, _, _, _ => undef
  | f + 1, scattering, result, statement_ptr => do
    let new ← stmtUnionOne c O statement domain scattering
    let result ← linkNode stmtNext result statement_ptr new
    let n ← relNextOr scattering
    if n = 0 then pure (result, new) else stmtUnionInner c O statement domain f n result new

/-- The outer loop of `osl_statement_remove_unions` (source/statement.c:634-656). -/
def stmtUnionOuter [Allocator] (c : Cfg) (O : DataFns) (statement : Ptr) : Nat → Ptr → Ptr → Ptr → M Ptr
  | 0, _, _, _ => undef
  | f + 1, domain, result, statement_ptr => do
    let scattering ← getField statement 1
    let g ← heapSize
    let r ← stmtUnionInner c O statement domain g scattering result statement_ptr
    let n ← relNextOr domain
    if n = 0 then pure r.1 else stmtUnionOuter c O statement f n r.1 r.2

/-- The loops of `osl_statement_remove_unions` (source/statement.c:631-658). -/
def stmtUnions [Allocator] (c : Cfg) (O : DataFns) (statement : Ptr) : M Ptr := do
  let domain ← getField statement 0
  let f ← heapSize
  stmtUnionOuter c O statement f domain 0 0

/-- `osl_statement_remove_unions` (source/statement.c:624-659). -/
def stmtRemoveUnions [Allocator] (c : Cfg) (O : DataFns) (statement : Ptr) : M Ptr := if statement = 0 then pure 0 else stmtUnions c O statement

/-- The relation of a filtered list is moved to a statement (source/statement.c:394-400, 408-414). -/
def takeElt (c : Cfg) (list : Ptr) : M Ptr :=
  if list ≠ 0 then do
    let e ← getField list 0
    setField list 0 0
    listFree c list
    pure e
  else pure 0

/-- The end of `osl_statement_dispatch` (source/statement.c:417-424). -/
def dispatchAccess [Allocator] (c : Cfg) (stmt list : Ptr) (nb : Nat) : M Unit := do
  let al ← listFilter c list TYPE_ACCESS
  setField stmt 2 al
  let nb_accesses ← listCount al
  let n ← listCount list
  if nb + nb_accesses ≠ n then fail else listFree c list

/-- The second part of `osl_statement_dispatch` (source/statement.c:403-415). -/
def dispatchScattering [Allocator] (c : Cfg) (stmt list : Ptr) (nb_domains : Nat) : M Unit := do
  let sl ← listFilter c list TYPE_SCATTERING
  let nb_scattering ← listCount sl
  if nb_scattering > 1 then fail
  else do
    let s ← takeElt c sl
    setField stmt 1 s
    dispatchAccess c stmt list (nb_domains + nb_scattering)

/-- `osl_statement_dispatch` (source/statement.c:383-425). -/
def stmtDispatch [Allocator] (c : Cfg) (stmt list : Ptr) : M Unit := do
  let dl ← listFilter c list TYPE_DOMAIN
  let nb_domains ← listCount dl
  if nb_domains > 1 then fail
  else do
    let d ← takeElt c dl
    setField stmt 0 d
    dispatchScattering c stmt list nb_domains

end Osl.Mem
