import Verif.HeapChain
/-!
# Relations in memory: the functions of source/relation.c which allocate, link and free

Simplification: fields which a function does not modify are read once.
-/

namespace Osl.Mem

/-- The `next` field of a relation (include/osl/relation.h:116). -/
def relNext : Next where
  get p := do
    let r ← loadRel p
    pure r.2.2
  set p n := do
    let r ← loadRel p
    store p (.rel r.1 r.2.1 n)

/-- One turn of the loop of `osl_relation_free` (source/relation.c:1682-1685): the next relation. -/
def relFreeStep (c : Cfg) (p : Ptr) : M Ptr := do
  let tmp ← relNext.get p
  free_inside c p
  free p
  pure tmp

/-- `osl_relation_free` (source/relation.c:1678-1687). -/
def relFree (c : Cfg) (p : Ptr) : M Unit := freeAll (relFreeStep c) p

/-- `osl_relation_nb_components` (source/relation.c:766-775). -/
def relCount (p : Ptr) : M Nat := countAll relNext p

/-- The body of the copy loops (source/relation.c:1714-1724, 1769-1778): a copy of the first `n` rows of one part. -/
def relClonePart [Allocator] (c : Cfg) (p : Ptr) (n : Int) : M Ptr := do
  let r ← loadRel p
  let node ← pmalloc c r.1.precision n r.1.nb_columns
  let s ← loadRel node
  store node (.rel { s.1 with type := r.1.type, nb_output_dims := r.1.nb_output_dims, nb_input_dims := r.1.nb_input_dims, nb_local_dims := r.1.nb_local_dims, nb_parameters := r.1.nb_parameters } s.2.1 s.2.2)
  hcopy (kind c r.1.precision) r.2.1 0 n 0 0 0 r.1.nb_columns 0 0 s.2.1
  pure node

/-- The copy of a whole part in `osl_relation_nclone` (source/relation.c:1714-1724). -/
def relCopyPart [Allocator] (c : Cfg) (p : Ptr) : M Ptr := do
  let r ← loadRel p
  relClonePart c p r.1.nb_rows

/-- `osl_relation_nclone` (source/relation.c:1703-1739). -/
def relNclone [Allocator] (c : Cfg) (p : Ptr) (n : Int) : M Ptr := do
  let k ← relCount p
  let nb_parts : Int := if n = -1 then k else n
  if (k : Int) < nb_parts then fail
  else copyCount relNext (relCopyPart c) nb_parts.toNat p 0 0

/-- The body of the loop of `osl_relation_clone_nconstraints` (source/relation.c:1763-1778). -/
def relCopyRows [Allocator] (c : Cfg) (n : Int) (p : Ptr) : M Ptr := do
  let r ← loadRel p
  let k := if n = -1 then r.1.nb_rows else n
  if k > r.1.nb_rows then fail else relClonePart c p k

/-- `osl_relation_clone_nconstraints` (source/relation.c:1753-1793). -/
def relCloneRows [Allocator] (c : Cfg) (p : Ptr) (n : Int) : M Ptr := copyAll relNext (relCopyRows c n) p

/-- `osl_relation_clone` (source/relation.c:1802-1807). -/
def relClone [Allocator] (c : Cfg) (p : Ptr) : M Ptr :=
  if p = 0 then pure 0 else relNclone c p (-1)

/-- `osl_relation_add` (source/relation.c:1818-1823): the new value of `*r1`. -/
def relAdd (r1 r2 : Ptr) : M Ptr := append relNext r1 r2

/-- `osl_relation_union` (source/relation.c:1834-1845). -/
def relUnion [Allocator] (c : Cfg) (r1 r2 : Ptr) : M Ptr :=
  if r1 = 0 ∧ r2 = 0 then pure 0
  else do
    let copy1 ← relClone c r1
    let copy2 ← relClone c r2
    relAdd copy1 copy2

/-- `osl_relation_replace_constraints` (source/relation.c:2053-2065). -/
def relReplace (c : Cfg) (r1 r2 : Ptr) (row : Int) : M Unit :=
  if r1 = 0 ∨ r2 = 0 then fail
  else do
    let a ← loadRel r1
    let b ← loadRel r2
    if a.1.precision ≠ b.1.precision ∨ a.1.nb_columns ≠ b.1.nb_columns ∨ row + b.1.nb_rows > a.1.nb_rows ∨ row < 0 then fail
    else hcopy (kind c a.1.precision) b.2.1 0 b.1.nb_rows row 0 0 b.1.nb_columns 0 0 a.2.1

/-- The end of the functions which rebuild a matrix in a temporary relation (for instance source/relation.c:2108-2115): the
inside of `r` is freed and replaced by the inside of `temp`, and the shell of `temp` is freed.  `upd` is the assignment of
`nb_rows` or `nb_columns`. -/
def relTakeInside (c : Cfg) (r temp : Ptr) (upd : Hdr → Hdr → Hdr) : M Unit := do
  free_inside c r
  let a ← loadRel r
  let t ← loadRel temp
  store r (.rel (upd a.1 t.1) t.2.1 a.2.2)
  free temp

/-- `r->nb_rows = temp->nb_rows` (source/relation.c:2111). -/
def updRows (a t : Hdr) : Hdr := { a with nb_rows := t.nb_rows }
/-- `r->nb_columns = temp->nb_columns` (source/relation.c:2019). -/
def updCols (a t : Hdr) : Hdr := { a with nb_columns := t.nb_columns }

/-- `osl_relation_insert_constraints` (source/relation.c:2079-2116). -/
def relInsert [Allocator] (c : Cfg) (r1 r2 : Ptr) (row : Int) : M Unit :=
  if r1 = 0 ∨ r2 = 0 then pure ()
  else do
    let a ← loadRel r1
    let b ← loadRel r2
    let row := if row = -1 then a.1.nb_rows else row
    if a.1.nb_columns ≠ b.1.nb_columns ∨ a.1.precision ≠ b.1.precision ∨ row > a.1.nb_rows ∨ row < 0 then fail
    else do
      let temp ← pmalloc c a.1.precision (a.1.nb_rows + b.1.nb_rows) a.1.nb_columns
      let t ← loadRel temp
      hcopy (kind c a.1.precision) a.2.1 0 row 0 0 0 a.1.nb_columns 0 0 t.2.1
      relReplace c temp r2 row
      hcopy (kind c a.1.precision) a.2.1 (row + b.1.nb_rows) (b.1.nb_rows + a.1.nb_rows) 0 (-b.1.nb_rows) 0 a.1.nb_columns 0 0 t.2.1
      relTakeInside c r1 temp updRows

/-- `osl_relation_insert_blank_column` (source/relation.c:1992-2024); the two copies are done one after the other and not row
by row. -/
def relInsertColumn [Allocator] (c : Cfg) (r : Ptr) (column : Int) : M Unit :=
  if r = 0 then pure ()
  else do
    let a ← loadRel r
    if column < 0 ∨ column > a.1.nb_columns then fail
    else do
      let temp ← pmalloc c a.1.precision a.1.nb_rows (a.1.nb_columns + 1)
      let t ← loadRel temp
      hcopy (kind c a.1.precision) a.2.1 0 a.1.nb_rows 0 0 0 column 0 0 t.2.1
      hcopy (kind c a.1.precision) a.2.1 0 a.1.nb_rows 0 0 column a.1.nb_columns 1 0 t.2.1
      relTakeInside c r temp updCols

/-- `osl_relation_remove_row` (source/relation.c:2147-2176). -/
def relRemoveRow [Allocator] (c : Cfg) (r : Ptr) (row : Int) : M Unit :=
  if r = 0 then pure ()
  else do
    let a ← loadRel r
    if row < 0 ∨ row ≥ a.1.nb_rows then fail
    else do
      let temp ← pmalloc c a.1.precision (a.1.nb_rows - 1) a.1.nb_columns
      let t ← loadRel temp
      hcopy (kind c a.1.precision) a.2.1 0 row 0 0 0 a.1.nb_columns 0 0 t.2.1
      hcopy (kind c a.1.precision) a.2.1 (row + 1) a.1.nb_rows (-1) 0 0 a.1.nb_columns 0 0 t.2.1
      relTakeInside c r temp updRows

/-- `osl_relation_remove_column` (source/relation.c:2185-2214); the two copies are done one after the other and not row by row. -/
def relRemoveColumn [Allocator] (c : Cfg) (r : Ptr) (column : Int) : M Unit :=
  if r = 0 then pure ()
  else do
    let a ← loadRel r
    if column < 0 ∨ column ≥ a.1.nb_columns then fail
    else do
      let temp ← pmalloc c a.1.precision a.1.nb_rows (a.1.nb_columns - 1)
      let t ← loadRel temp
      hcopy (kind c a.1.precision) a.2.1 0 a.1.nb_rows 0 0 0 column 0 0 t.2.1
      hcopy (kind c a.1.precision) a.2.1 0 a.1.nb_rows 0 0 (column + 1) a.1.nb_columns (-1) 0 t.2.1
      relTakeInside c r temp updCols

/-- `osl_relation_insert_columns` (source/relation.c:2227-2267); the three copies are done one after the other and not row by
row. -/
def relInsertColumns [Allocator] (c : Cfg) (r insert : Ptr) (column : Int) : M Unit :=
  if r = 0 ∨ insert = 0 then pure ()
  else do
    let a ← loadRel r
    let b ← loadRel insert
    if a.1.precision ≠ b.1.precision ∨ a.1.nb_rows ≠ b.1.nb_rows ∨ column < 0 ∨ column > a.1.nb_columns then fail
    else do
      let temp ← pmalloc c a.1.precision a.1.nb_rows (a.1.nb_columns + b.1.nb_columns)
      let t ← loadRel temp
      hcopy (kind c a.1.precision) a.2.1 0 a.1.nb_rows 0 0 0 column 0 0 t.2.1
      hcopy (kind c a.1.precision) b.2.1 0 a.1.nb_rows 0 0 column (column + b.1.nb_columns) 0 (-column) t.2.1
      hcopy (kind c a.1.precision) a.2.1 0 a.1.nb_rows 0 0 (column + b.1.nb_columns) (b.1.nb_columns + a.1.nb_columns) 0 (-b.1.nb_columns) t.2.1
      relTakeInside c r temp updCols

/-- `osl_relation_concat_constraints` (source/relation.c:2280-2304). -/
def relConcat [Allocator] (c : Cfg) (r1 r2 : Ptr) : M Ptr :=
  if r1 = 0 then relClone c r2
  else if r2 = 0 then relClone c r1
  else do
    let a ← loadRel r1
    let b ← loadRel r2
    if a.1.nb_columns ≠ b.1.nb_columns then fail
    else do
      let new ← pmalloc c a.1.precision (a.1.nb_rows + b.1.nb_rows) a.1.nb_columns
      relReplace c new r1 0
      relReplace c new r2 a.1.nb_rows
      pure new

/-- The search loop of `osl_relation_remove_part` (source/relation.c:2964-2974). -/
def relRemoveLoop (c : Cfg) (part : Ptr) : Nat → Ptr → Ptr → M Unit
  | 0, _, relation => if relation = 0 then pure () else undef
  | f + 1, previous, relation =>
    if relation = 0 then pure ()
    else if relation = part then do
      let n ← relNext.get relation
      relNext.set previous n
      relNext.set relation 0
      relFree c relation
    else do
      let n ← relNext.get relation
      relRemoveLoop c part f relation n

/-- `osl_relation_remove_part` (source/relation.c:2951-2975), the list pointer not being NULL: the new value of
`*relation_list`. -/
def relRemovePart (c : Cfg) (relation_list part : Ptr) : M Ptr :=
  if relation_list = 0 ∨ part = 0 then pure relation_list
  else if relation_list = part then relNext.get relation_list
  else do
    let n ← relNext.get relation_list
    let f ← heapSize
    relRemoveLoop c part f relation_list n
    pure relation_list

end Osl.Mem
