import Verif.HeapRelationMem
import Verif.RelationList
/-!
# Relation lists in memory (source/relation_list.c)

A node (`osl_relation_list_t`, include/osl/relation_list.h:85-88) is an array of two pointers: `elt` and `next`.
-/

namespace Osl.Mem

/-- The pointers of a structure. -/
def asPtrs : Block → Out (List Ptr)
  | .ptrs l => .ok l
  | _ => .ub

/-- The fields of a structure. -/
def loadPtrs (p : Ptr) : M (List Ptr) := do
  let b ← load p
  lift (asPtrs b)

/-- The field number `i` of the structure at `p`. -/
def getField (p : Ptr) (i : Nat) : M Ptr := do
  let l ← loadPtrs p
  lift (nth l i)

/-- Assignment of the field number `i`. -/
def setField (p : Ptr) (i : Nat) (x : Ptr) : M Unit := do
  let l ← loadPtrs p
  let l ← lift (setNth l i x)
  store p (.ptrs l)

/-- The `next` field of a node (include/osl/relation_list.h:87). -/
def listNext : Next where
  get p := getField p 1
  set p n := setField p 1 n

/-- `osl_relation_list_malloc` (source/relation_list.c:378-386). -/
def listMalloc [Allocator] : M Ptr := alloc (.ptrs [0, 0])

/-- `if (list->elt != NULL) osl_relation_free(list->elt)` (source/relation_list.c:401-402). -/
def freeElt (c : Cfg) (elt : Ptr) : M Unit := if elt ≠ 0 then relFree c elt else pure ()

/-- One turn of the loop of `osl_relation_list_free` (source/relation_list.c:400-406). -/
def listFreeStep (c : Cfg) (p : Ptr) : M Ptr := do
  let elt ← getField p 0
  freeElt c elt
  let tmp ← listNext.get p
  free p
  pure tmp

/-- `osl_relation_list_free` (source/relation_list.c:394-407). -/
def listFree (c : Cfg) (p : Ptr) : M Unit := freeAll (listFreeStep c) p

/-- A new node with a copy of a relation (source/relation_list.c:425-426, 443-444). -/
def newNode [Allocator] (c : Cfg) (r : Ptr) : M Ptr := do
  let node ← listMalloc
  let e ← relClone c r
  setField node 0 e
  pure node

/-- `osl_relation_list_node` (source/relation_list.c:421-429). -/
def listNode [Allocator] (c : Cfg) (r : Ptr) : M Ptr := if r ≠ 0 then newNode c r else pure 0

/-- The copy of one node (source/relation_list.c:443-444). -/
def listCopyNode [Allocator] (c : Cfg) (p : Ptr) : M Ptr := do
  let elt ← getField p 0
  newNode c elt

/-- `osl_relation_list_clone` (source/relation_list.c:438-459). -/
def listClone [Allocator] (c : Cfg) (p : Ptr) : M Ptr := copyAll listNext (listCopyNode c) p

/-- `osl_relation_list_add` (source/relation_list.c:498-504). -/
def listAdd (l1 l2 : Ptr) : M Ptr := append listNext l1 l2

/-- `osl_relation_list_concat` (source/relation_list.c:470-487); the walk to the last node of the copy comes after the
second copy (it is before it in the code). -/
def listConcat [Allocator] (c : Cfg) (l1 l2 : Ptr) : M Ptr :=
  if l1 = 0 then listClone c l2
  else if l2 = 0 then listClone c l1
  else do
    let new ← listClone c l1
    let copy2 ← listClone c l2
    listAdd new copy2

/-- `osl_relation_list_push` (source/relation_list.c:514-520): the new value of `*head`. -/
def listPush (head node : Ptr) : M Ptr :=
  if node ≠ 0 then do
    listNext.set node head
    pure node
  else pure head

/-- `osl_relation_list_pop` (source/relation_list.c:531-541): the top and the new value of `*head`. -/
def listPop (head : Ptr) : M (Ptr × Ptr) :=
  if head ≠ 0 then do
    let n ← listNext.get head
    listNext.set head 0
    pure (head, n)
  else pure (0, head)

/-- `osl_relation_list_dup` (source/relation_list.c:551-555). -/
def listDup [Allocator] (c : Cfg) (head : Ptr) : M Ptr := do
  let t ← listPop head
  let copy ← listClone c t.1
  let head ← listPush t.2 copy
  listPush head t.1

/-- `osl_relation_list_drop` (source/relation_list.c:566-569). -/
def listDrop (c : Cfg) (head : Ptr) : M Ptr := do
  let t ← listPop head
  listFree c t.1
  pure t.2

/-- The loop of `osl_relation_list_destroy` (source/relation_list.c:579-582). -/
def listDestroyLoop (c : Cfg) : Nat → Ptr → M Ptr
  | 0, head => if head = 0 then pure head else undef
  | f + 1, head =>
    if head = 0 then pure head
    else do
      let head ← listDrop c head
      listDestroyLoop c f head

/-- `osl_relation_list_destroy` (source/relation_list.c:579-582). -/
def listDestroy (c : Cfg) (head : Ptr) : M Ptr := do
  let f ← heapSize
  listDestroyLoop c f head

/-- `list->elt->type = type` (source/relation_list.c:653-655). -/
def setEltType (elt : Ptr) (type : Int) : M Unit :=
  if elt ≠ 0 then do
    let r ← loadRel elt
    store elt (.rel { r.1 with type := type } r.2.1 r.2.2)
  else pure ()

/-- The loop of `osl_relation_list_set_type` (source/relation_list.c:651-658). -/
def listSetTypeLoop (type : Int) : Nat → Ptr → M Unit
  | 0, p => if p = 0 then pure () else undef
  | f + 1, p =>
    if p = 0 then pure ()
    else do
      let elt ← getField p 0
      setEltType elt type
      let n ← listNext.get p
      listSetTypeLoop type f n

/-- `osl_relation_list_set_type` (source/relation_list.c:651-658). -/
def listSetType (p : Ptr) (type : Int) : M Unit := do
  let f ← heapSize
  listSetTypeLoop type f p

/-- The test of `osl_relation_list_filter` (source/relation_list.c:678-680); `osl_relation_is_access` reads the `type` field
(source/relation.c:2712-2722). -/
def keepsElt (type : Int) (elt : Ptr) : M Bool :=
  if elt ≠ 0 then do
    let r ← loadRel elt
    pure ((decide (type = TYPE_ACCESS) && (decide (r.1.type = TYPE_ACCESS) || decide (r.1.type = TYPE_READ) || decide (r.1.type = TYPE_WRITE) ||
      decide (r.1.type = TYPE_MAY_WRITE))) || (decide (type ≠ TYPE_ACCESS) && decide (type = r.1.type)))
  else pure false

/-- `if (!first) previous->next = copy->next` (source/relation_list.c:690-691). -/
def unlinkAfter (first : Bool) (previous n : Ptr) : M Unit := if first = false then listNext.set previous n else pure ()

/-- The loop of `osl_relation_list_filter` (source/relation_list.c:677-697). -/
def listFilterLoop (c : Cfg) (type : Int) : Nat → Ptr → Ptr → Ptr → Bool → M Ptr
  | 0, copy, filtered, _, _ => if copy = 0 then pure filtered else undef
  | f + 1, copy, filtered, previous, first =>
    if copy = 0 then pure filtered
    else do
      let elt ← getField copy 0
      let b ← keepsElt type elt
      if b then do
        let filtered := if first then copy else filtered
        let n ← listNext.get copy
        listFilterLoop c type f n filtered copy false
      else do
        let n ← listNext.get copy
        unlinkAfter first previous n
        let n ← listNext.get copy
        listNext.set copy 0
        listFree c copy
        listFilterLoop c type f n filtered previous first

/-- `osl_relation_list_filter` (source/relation_list.c:669-699). -/
def listFilter [Allocator] (c : Cfg) (p : Ptr) (type : Int) : M Ptr := do
  let copy ← listClone c p
  let f ← heapSize
  listFilterLoop c type f copy 0 0 true

/-- The loop of `osl_relation_list_count` (source/relation_list.c:711-715). -/
def listCountLoop : Nat → Ptr → Nat → M Nat
  | 0, p, i => if p = 0 then pure i else undef
  | f + 1, p, i =>
    if p = 0 then pure i
    else do
      let elt ← getField p 0
      let n ← listNext.get p
      listCountLoop f n (if elt ≠ 0 then i + 1 else i)

/-- `osl_relation_list_count` (source/relation_list.c:708-718). -/
def listCount (p : Ptr) : M Nat := do
  let f ← heapSize
  listCountLoop f p 0

end Osl.Mem
