import Verif.HeapStatement
/-!
# Scops in memory (source/scop.c)

A scop (`osl_scop_t`, include/osl/scop.h.in:90-101) is a block with one integer, `version`, and the pointers `language`, `context`, `parameters`,
`statement`, `registry`, `extension`, `next` (in this order).  The field `usr`, which the library does not touch, is left out.
-/

namespace Osl.Mem

/-! ## Structures with integers and pointers -/

def asNode : Block → Out (List Int × List Ptr)
  | .node i p => .ok (i, p)
  | _ => .ub

def loadNode (p : Ptr) : M (List Int × List Ptr) := do
  let b ← load p
  lift (asNode b)

/-- The pointer number `i` of the structure at `p`. -/
def getPtr (p : Ptr) (i : Nat) : M Ptr := do
  let l ← loadNode p
  lift (nth l.2 i)

/-- Assignment of the pointer number `i`. -/
def setPtr (p : Ptr) (i : Nat) (x : Ptr) : M Unit := do
  let l ← loadNode p
  let q ← lift (setNth l.2 i x)
  store p (.node l.1 q)

/-- The integer number `i` of the structure at `p`. -/
def getInt (p : Ptr) (i : Nat) : M Int := do
  let l ← loadNode p
  lift (nth l.1 i)

/-- Assignment of the integer number `i`. -/
def setInt (p : Ptr) (i : Nat) (x : Int) : M Unit := do
  let l ← loadNode p
  let q ← lift (setNth l.1 i x)
  store p (.node q l.2)

/-! ## Scops -/

/-- The `next` field of a scop (include/osl/scop.h.in:100). -/
def scopNext : Next where
  get p := getPtr p 6
  set p n := setPtr p 6 n

/-- `osl_scop_malloc` (source/scop.c:531-546). -/
def scopMalloc [Allocator] : M Ptr := alloc (.node [1] [0, 0, 0, 0, 0, 0, 0])

/-- One turn of the loop of `osl_scop_free` (source/scop.c:553-569): the language is freed as in `freeUri`. -/
def scopFreeStep (c : Cfg) (O : DataFns) (p : Ptr) : M Ptr := do
  let l ← getPtr p 0
  freeUri l
  let g ← getPtr p 2
  genFree O g
  let x ← getPtr p 1
  relFree c x
  let s ← getPtr p 3
  stmtFree c O s
  let r ← getPtr p 4
  ifaceFree r
  let e ← getPtr p 5
  genFree O e
  let tmp ← scopNext.get p
  free p
  pure tmp

/-- `osl_scop_free` (source/scop.c:553-569). -/
def scopFree (c : Cfg) (O : DataFns) (p : Ptr) : M Unit := freeAll (scopFreeStep c O) p

/-- `osl_scop_add` (source/scop.c:582-587): the new value of `*location`. -/
def scopAdd (location scop : Ptr) : M Ptr := append scopNext location scop

/-- `osl_scop_number` (source/scop.c:596-604). -/
def scopNumber (p : Ptr) : M Nat := countAll scopNext p

/-- The copy of one scop (source/scop.c:619-627). -/
def scopCopy [Allocator] (c : Cfg) (O : DataFns) (p : Ptr) : M Ptr := do
  let node ← scopMalloc
  let v ← getInt p 0
  setInt node 0 v
  let l ← getPtr p 0
  let l' ← hStrdup l
  setPtr node 0 l'
  let x ← getPtr p 1
  let x' ← relClone c x
  setPtr node 1 x'
  let g ← getPtr p 2
  let g' ← genClone O g
  setPtr node 2 g'
  let s ← getPtr p 3
  let s' ← stmtClone c O s
  setPtr node 3 s'
  let r ← getPtr p 4
  let r' ← ifaceClone r
  setPtr node 4 r'
  let e ← getPtr p 5
  let e' ← genClone O e
  setPtr node 5 e'
  pure node

/-- `osl_scop_clone` (source/scop.c:614-642). -/
def scopClone [Allocator] (c : Cfg) (O : DataFns) (p : Ptr) : M Ptr := copyAll scopNext (scopCopy c O) p

/-- The link of the new statements (source/scop.c:662-668): the first ones are put in `new_scop->statement`, the others after `scop_statement_ptr`;
the new value of `scop_statement_ptr` is in both cases `new_statement`. -/
def unionsLink (new_scop ptr new : Ptr) : M Unit := if ptr = 0 then setPtr new_scop 3 new else stmtNext.set ptr new

/-- The loop on the statements of `osl_scop_remove_unions` (source/scop.c:660-669). -/
def scopUnionsLoop [Allocator] (c : Cfg) (O : DataFns) (new_scop : Ptr) : Nat → Ptr → Ptr → M Ptr
  | 0, statement, ptr => if statement = 0 then pure ptr else undef
  | f + 1, statement, ptr =>
    if statement = 0 then pure ptr
    else do
      let new ← stmtRemoveUnions c O statement
      unionsLink new_scop ptr new
      let n ← stmtNext.get statement
      scopUnionsLoop c O new_scop f n new

/-- `while (scop_statement_ptr && scop_statement_ptr->next != NULL) scop_statement_ptr = scop_statement_ptr->next;` (source/scop.c:670-671). -/
def walkLast : Nat → Ptr → M Unit
  | 0, ptr => if ptr = 0 then pure () else undef
  | f + 1, ptr =>
    if ptr = 0 then pure ()
    else do
      let n ← stmtNext.get ptr
      if n = 0 then pure () else walkLast f n

/-- The body of the loop of `osl_scop_remove_unions` (source/scop.c:655-682). -/
def scopUnionsOne [Allocator] (c : Cfg) (O : DataFns) (scop : Ptr) : M Ptr := do
  let statement ← getPtr scop 3
  let new_scop ← scopMalloc
  let f ← heapSize
  let ptr ← scopUnionsLoop c O new_scop f statement 0
  let f ← heapSize
  walkLast f ptr
  let x ← getPtr scop 1
  let x' ← relClone c x
  setPtr new_scop 1 x'
  let e ← getPtr scop 5
  let e' ← genClone O e
  setPtr new_scop 5 e'
  let l ← getPtr scop 0
  let l' ← hStrdup l
  setPtr new_scop 0 l'
  let g ← getPtr scop 2
  let g' ← genClone O g
  setPtr new_scop 2 g'
  let r ← getPtr scop 4
  let r' ← ifaceClone r
  setPtr new_scop 4 r'
  let v ← getInt scop 0
  setInt new_scop 0 v
  pure new_scop

/-- `osl_scop_remove_unions` (source/scop.c:651-692). -/
def scopRemoveUnions [Allocator] (c : Cfg) (O : DataFns) (p : Ptr) : M Ptr := copyAll scopNext (scopUnionsOne c O) p

/-! ## Normalization of the scattering relations -/

/-- `osl_int_set_si` (source/int.c:203-223) of `m[i][j]`. -/
def setSiCell (k : Option Kind) (m : Ptr) (i j v : Int) : M Unit :=
  match k with
  | none => fail
  | some (.fixed _) => writeCell m i j (.val v)
  | some .mp => do
    let x ← readCell m i j
    let d ← lift (asMp x)
    let b ← load d
    let _ ← lift (asMpz b)
    store d (.mpz v)

/-- The body of the loop of `osl_relation_extend_output` (source/relation.c:2832-2862); the two copies are done one after the other and not row by row. -/
def relExtendPart [Allocator] (c : Cfg) (precision dim : Int) (p : Ptr) : M Ptr := do
  let r ← loadRel p
  if r.1.nb_output_dims > dim then fail
  else do
    let offset := dim - r.1.nb_output_dims
    let node ← pmalloc c precision (r.1.nb_rows + offset) (r.1.nb_columns + offset)
    let s ← loadRel node
    store node (.rel { s.1 with type := r.1.type, nb_output_dims := Rel.omax r.1.nb_output_dims dim, nb_input_dims := r.1.nb_input_dims, nb_local_dims := r.1.nb_local_dims, nb_parameters := r.1.nb_parameters } s.2.1 s.2.2)
    hcopy (kind c precision) r.2.1 0 r.1.nb_rows 0 0 0 (r.1.nb_output_dims + 1) 0 0 s.2.1
    hcopy (kind c precision) r.2.1 0 r.1.nb_rows 0 0 (r.1.nb_output_dims + offset + 1) (r.1.nb_columns + offset) 0 (-offset) s.2.1
    forM r.1.nb_rows (r.1.nb_rows + offset) (fun i =>
      forM 0 (r.1.nb_columns + offset) (fun j =>
        if i - r.1.nb_rows = j - r.1.nb_output_dims - 1 then setSiCell (kind c precision) s.2.1 i j (-1) else pure ()))
    pure node

/-- `osl_relation_extend_output` (source/relation.c:2823-2877); `relation->precision` (line 2828) is undefined for NULL. -/
def relExtendOutput [Allocator] (c : Cfg) (p : Ptr) (dim : Int) : M Ptr := do
  let r ← loadRel p
  copyAll relNext (relExtendPart c r.1.precision dim) p

/-- The maximum with the number of scattering dimensions of a statement (source/scop.c:956-959). -/
def scattDims (m : Int) (scattering : Ptr) : M Int :=
  if scattering ≠ 0 then do
    let r ← loadRel scattering
    pure (Rel.omax m r.1.nb_output_dims)
  else pure m

/-- The first loop of `osl_scop_normalize_scattering` (source/scop.c:954-961). -/
def maxScattLoop : Nat → Ptr → Int → M Int
  | 0, p, m => if p = 0 then pure m else undef
  | f + 1, p, m =>
    if p = 0 then pure m
    else do
      let s ← getField p 1
      let m ← scattDims m s
      let q ← stmtNext.get p
      maxScattLoop f q m

/-- The replacement of a scattering relation (source/scop.c:967-970). -/
def replaceScatt [Allocator] (c : Cfg) (dim : Int) (p scattering : Ptr) : M Unit :=
  if scattering ≠ 0 then do
    let extended ← relExtendOutput c scattering dim
    let s ← getField p 1
    relFree c s
    setField p 1 extended
  else pure ()

/-- The body of the second loop of `osl_scop_normalize_scattering` (source/scop.c:966-971). -/
def normalizeStmt [Allocator] (c : Cfg) (dim : Int) (p : Ptr) : M Unit := do
  let s ← getField p 1
  replaceScatt c dim p s

/-- The two loops of `osl_scop_normalize_scattering` (source/scop.c:953-973). -/
def normalizeStmts [Allocator] (c : Cfg) (statement : Ptr) : M Unit := do
  let f ← heapSize
  let m ← maxScattLoop f statement 0
  eachNode stmtNext (normalizeStmt c m) statement

/-- `osl_scop_normalize_scattering` (source/scop.c:947-975); for a NULL list of statements the two loops do nothing. -/
def scopNormalize [Allocator] (c : Cfg) (scop : Ptr) : M Unit :=
  if scop ≠ 0 then do
    let s ← getPtr scop 3
    normalizeStmts c s
  else pure ()

end Osl.Mem
