import Verif.Matrix
import Verif.Vector
/-!
# Model of source/relation.c (data structure functions)

A relation (include/osl/relation.h, `struct osl_relation`) is a linked list of union parts; here
a list of `Part`, `NULL` being `[]`.  The C `int` fields are integers (their overflow, which would
need more than 2^31 rows or columns, is not modelled); the field `usr` is omitted, no modelled
function reads it.  A function which modifies its argument in place returns the new value.
Fields which the C code leaves untouched are left untouched here as well.
-/

namespace Osl

/-! Relation types (include/osl/macros.h:93-101). -/

/-- include/osl/macros.h:95 -/
def TYPE_CONTEXT : Int := 2
/-- include/osl/macros.h:96 -/
def TYPE_DOMAIN : Int := 3
/-- include/osl/macros.h:97 -/
def TYPE_SCATTERING : Int := 4
/-- include/osl/macros.h:98 -/
def TYPE_ACCESS : Int := 5
/-- include/osl/macros.h:99 -/
def TYPE_READ : Int := 6
/-- include/osl/macros.h:100 -/
def TYPE_WRITE : Int := 7
/-- include/osl/macros.h:101 -/
def TYPE_MAY_WRITE : Int := 8

/-- One part of `struct osl_relation` (include/osl/relation.h:102-117). -/
structure Part where
  type : Int
  precision : Int
  nb_rows : Int
  nb_columns : Int
  nb_output_dims : Int
  nb_input_dims : Int
  nb_local_dims : Int
  nb_parameters : Int
  m : Matrix
deriving Repr, DecidableEq

/-- A relation: its union parts in `next` order. -/
abbrev Rel := List Part

namespace Rel

/-- `osl_relation_pmalloc` (source/relation.c:1589-1630). -/
def pmalloc (c : Cfg) (precision nb_rows nb_columns : Int) : Out Part :=
  if precision ≠ PREC_SP ∧ precision ≠ PREC_DP ∧ precision ≠ PREC_MP then .err
  else if nb_rows < 0 ∨ nb_columns < 0 then .err
  else
    let node : Part :=
      { type := UNDEFINED, precision := precision, nb_rows := nb_rows, nb_columns := nb_columns,
        nb_output_dims := UNDEFINED, nb_input_dims := UNDEFINED, nb_local_dims := UNDEFINED,
        nb_parameters := UNDEFINED,
        m := List.replicate nb_rows.toNat (List.replicate nb_columns.toNat 0) }
    if nb_rows = 0 ∨ nb_columns = 0 then .ok node
    else
      -- osl_int_init_set_si on every cell
      match kind c precision with
      | some _ => .ok node
      | none => .err

/-- `osl_relation_nb_components` (source/relation.c:766-775). -/
abbrev nb_components (r : Rel) : Int := r.length

/-- The body of the loops of `osl_relation_nclone` (source/relation.c:1714-1724) and
`osl_relation_clone_nconstraints` (1769-1778): a copy of the first `n` rows of one part. -/
def clonePart (c : Cfg) (r : Part) (n : Int) : Out Part := do
  let node ← pmalloc c r.precision n r.nb_columns
  let m ← copyBlock c r.precision r.m 0 n 0 0 0 r.nb_columns 0 0 node.m
  return { node with
    type := r.type
    nb_output_dims := r.nb_output_dims
    nb_input_dims := r.nb_input_dims
    nb_local_dims := r.nb_local_dims
    nb_parameters := r.nb_parameters
    m := m }

/-- `osl_relation_nclone` (source/relation.c:1703-1739). -/
def nclone (c : Cfg) (r : Rel) (n : Int) : Out Rel :=
  let nb_parts := if n = -1 then nb_components r else n
  if nb_components r < nb_parts then .err
  else Out.mapOut (fun p => clonePart c p p.nb_rows) (r.take nb_parts.toNat)

/-- `osl_relation_clone_nconstraints` (source/relation.c:1753-1793). -/
def clone_nconstraints (c : Cfg) (r : Rel) (n : Int) : Out Rel :=
  Out.mapOut (fun p =>
    let k := if n = -1 then p.nb_rows else n
    if k > p.nb_rows then .err else clonePart c p k) r

/-- `osl_relation_clone` (source/relation.c:1802-1807). -/
def clone (c : Cfg) (r : Rel) : Out Rel :=
  match r with
  | [] => .ok []
  | _ => nclone c r (-1)

/-- `osl_relation_add` (source/relation.c:1818-1823). -/
def add (r1 r2 : Rel) : Rel := r1 ++ r2

/-- `osl_relation_union` (source/relation.c:1834-1845). -/
def union (c : Cfg) (r1 r2 : Rel) : Out Rel :=
  match r1, r2 with
  | [], [] => .ok []
  | _, _ => do
    let copy1 ← clone c r1
    let copy2 ← clone c r2
    return add copy1 copy2

/-- The guard shared by `osl_relation_replace_vector`, `add_vector` and `sub_vector`
(source/relation.c:1860-1864, 1883-1887, 1910-1914), on a non NULL relation and vector. -/
def vectorGuard (r : Part) (v : Vec) (row : Int) : Bool :=
  decide (r.precision ≠ v.precision) || decide (r.nb_columns ≠ v.size) || decide (row ≥ r.nb_rows) ||
    decide (row < 0)

/-- `osl_relation_replace_vector` (source/relation.c:1856-1868) on a non NULL part. -/
def replaceVectorPart (c : Cfg) (r : Part) (vector : Option Vec) (row : Int) : Out Part :=
  match vector with
  | none => .err
  | some v =>
    if vectorGuard r v row then .err
    else do
      let m ← copyBlock c r.precision [v.v] 0 1 row 0 0 v.size 0 0 r.m
      return { r with m := m }

/-- `osl_relation_replace_vector` (source/relation.c:1856-1868). -/
def replace_vector (c : Cfg) (r : Rel) (vector : Option Vec) (row : Int) : Out Rel :=
  match r with
  | [] => .err
  | p :: rest => do
    let p' ← replaceVectorPart c p vector row
    return p' :: rest

/-- The common body of `osl_relation_add_vector` (source/relation.c:1889-1894) and
`osl_relation_sub_vector` (1916-1921); `op` is `osl_int_add` or `osl_int_sub`. -/
def combineRow (c : Cfg) (op : Int → Int → Out Int) (r : Part) (v : Vec) (row : Int) : Out Matrix := do
  let t ← get2 r.m row 0
  let i ← OInt.get_si c r.precision t
  let m ← (if i = 0 then do
      let v0 ← get2 [v.v] 0 0
      let v0 ← OInt.assign c r.precision v0
      set2 r.m row 0 v0
    else .ok r.m)
  loop 1 v.size (fun i m => do
    let a ← get2 m row i
    let b ← get2 [v.v] 0 i
    let s ← op a b
    set2 m row i s) m

/-- `osl_relation_add_vector` (source/relation.c:1879-1895). -/
def add_vector (c : Cfg) (r : Rel) (vector : Option Vec) (row : Int) : Out Rel :=
  match r, vector with
  | p :: rest, some v =>
    if vectorGuard p v row then .err
    else do
      let m ← combineRow c (OInt.add c p.precision) p v row
      return { p with m := m } :: rest
  | _, _ => .err

/-- `osl_relation_sub_vector` (source/relation.c:1906-1922). -/
def sub_vector (c : Cfg) (r : Rel) (vector : Option Vec) (row : Int) : Out Rel :=
  match r, vector with
  | p :: rest, some v =>
    if vectorGuard p v row then .err
    else do
      let m ← combineRow c (OInt.sub c p.precision) p v row
      return { p with m := m } :: rest
  | _, _ => .err

/-- `osl_relation_from_vector` (source/relation.c:2033-2042). -/
def from_vector (c : Cfg) (vector : Option Vec) : Out Rel :=
  match vector with
  | none => .ok []
  | some v => do
    let node ← pmalloc c v.precision 1 v.size
    replace_vector c [node] (some v) 0

/-- `osl_relation_replace_constraints` (source/relation.c:2053-2065) on two parts. -/
def replaceConstraintsPart (c : Cfg) (r1 r2 : Part) (row : Int) : Out Part :=
  if r1.precision ≠ r2.precision ∨ r1.nb_columns ≠ r2.nb_columns ∨
      row + r2.nb_rows > r1.nb_rows ∨ row < 0 then .err
  else do
    let m ← copyBlock c r1.precision r2.m 0 r2.nb_rows row 0 0 r2.nb_columns 0 0 r1.m
    return { r1 with m := m }

/-- `osl_relation_replace_constraints` (source/relation.c:2053-2065). -/
def replace_constraints (c : Cfg) (r1 r2 : Rel) (row : Int) : Out Rel :=
  match r1, r2 with
  | p1 :: rest, p2 :: _ => do
    let p ← replaceConstraintsPart c p1 p2 row
    return p :: rest
  | _, _ => .err

/-- `osl_relation_insert_constraints` (source/relation.c:2079-2116): only the first part of each
relation is used. -/
def insert_constraints (c : Cfg) (r1 r2 : Rel) (row : Int) : Out Rel :=
  match r1, r2 with
  | p1 :: rest, p2 :: _ =>
    let row := if row = -1 then p1.nb_rows else row
    if p1.nb_columns ≠ p2.nb_columns ∨ p1.precision ≠ p2.precision ∨ row > p1.nb_rows ∨ row < 0 then
      .err
    else do
      let temp ← pmalloc c p1.precision (p1.nb_rows + p2.nb_rows) p1.nb_columns
      let m ← copyBlock c p1.precision p1.m 0 row 0 0 0 p1.nb_columns 0 0 temp.m
      let temp ← replaceConstraintsPart c { temp with m := m } p2 row
      let m ← copyBlock c p1.precision p1.m (row + p2.nb_rows) (p2.nb_rows + p1.nb_rows) 0
        (-p2.nb_rows) 0 p1.nb_columns 0 0 temp.m
      return { p1 with nb_rows := temp.nb_rows, m := m } :: rest
  | r1, _ => .ok r1

/-- `osl_relation_insert_vector` (source/relation.c:1937-1944). -/
def insert_vector (c : Cfg) (r : Rel) (vector : Option Vec) (row : Int) : Out Rel := do
  let temp ← from_vector c vector
  insert_constraints c r temp row

/-- `osl_relation_insert_blank_row` (source/relation.c:1974-1982). -/
def insert_blank_row (c : Cfg) (r : Rel) (row : Int) : Out Rel :=
  match r with
  | [] => .ok []
  | p :: _ => do
    let v ← Vec.pmalloc c p.precision p.nb_columns
    insert_vector c r (some v) row

/-- `osl_relation_insert_blank_column` (source/relation.c:1992-2024). -/
def insert_blank_column (c : Cfg) (r : Rel) (column : Int) : Out Rel :=
  match r with
  | [] => .ok []
  | p :: rest =>
    if column < 0 ∨ column > p.nb_columns then .err
    else do
      let temp ← pmalloc c p.precision p.nb_rows (p.nb_columns + 1)
      let m ← copyBlock c p.precision p.m 0 p.nb_rows 0 0 0 column 0 0 temp.m
      let m ← copyBlock c p.precision p.m 0 p.nb_rows 0 0 column p.nb_columns 1 0 m
      return { p with nb_columns := temp.nb_columns, m := m } :: rest

/-- `osl_relation_swap_constraints` (source/relation.c:2126-2138). -/
def swap_constraints (c : Cfg) (r : Rel) (c1 c2 : Int) : Out Rel :=
  match r with
  | [] => .ok []
  | p :: rest =>
    if c1 = c2 then .ok r
    else if c1 ≥ p.nb_rows ∨ c1 < 0 ∨ c2 ≥ p.nb_rows ∨ c2 < 0 then .err
    else do
      let m ← loop 0 p.nb_columns (fun i m => do
        let a ← get2 m c1 i
        let b ← get2 m c2 i
        let ab ← OInt.swap c p.precision a b
        let m ← set2 m c1 i ab.1
        set2 m c2 i ab.2) p.m
      return { p with m := m } :: rest

/-- `osl_relation_remove_row` (source/relation.c:2147-2176). -/
def remove_row (c : Cfg) (r : Rel) (row : Int) : Out Rel :=
  match r with
  | [] => .ok []
  | p :: rest =>
    if row < 0 ∨ row ≥ p.nb_rows then .err
    else do
      let temp ← pmalloc c p.precision (p.nb_rows - 1) p.nb_columns
      let m ← copyBlock c p.precision p.m 0 row 0 0 0 p.nb_columns 0 0 temp.m
      let m ← copyBlock c p.precision p.m (row + 1) p.nb_rows (-1) 0 0 p.nb_columns 0 0 m
      return { p with nb_rows := temp.nb_rows, m := m } :: rest

/-- `osl_relation_remove_column` (source/relation.c:2185-2214). -/
def remove_column (c : Cfg) (r : Rel) (column : Int) : Out Rel :=
  match r with
  | [] => .ok []
  | p :: rest =>
    if column < 0 ∨ column ≥ p.nb_columns then .err
    else do
      let temp ← pmalloc c p.precision p.nb_rows (p.nb_columns - 1)
      let m ← copyBlock c p.precision p.m 0 p.nb_rows 0 0 0 column 0 0 temp.m
      let m ← copyBlock c p.precision p.m 0 p.nb_rows 0 0 (column + 1) p.nb_columns (-1) 0 m
      return { p with nb_columns := temp.nb_columns, m := m } :: rest

/-- `osl_relation_insert_columns` (source/relation.c:2227-2267). -/
def insert_columns (c : Cfg) (r insert : Rel) (column : Int) : Out Rel :=
  match r, insert with
  | p :: rest, q :: _ =>
    if p.precision ≠ q.precision ∨ p.nb_rows ≠ q.nb_rows ∨ column < 0 ∨ column > p.nb_columns then .err
    else do
      let temp ← pmalloc c p.precision p.nb_rows (p.nb_columns + q.nb_columns)
      let m ← copyBlock c p.precision p.m 0 p.nb_rows 0 0 0 column 0 0 temp.m
      let m ← copyBlock c p.precision q.m 0 p.nb_rows 0 0 column (column + q.nb_columns) 0 (-column) m
      let m ← copyBlock c p.precision p.m 0 p.nb_rows 0 0 (column + q.nb_columns)
        (q.nb_columns + p.nb_columns) 0 (-q.nb_columns) m
      return { p with nb_columns := temp.nb_columns, m := m } :: rest
  | r, _ => .ok r

/-- `osl_relation_concat_constraints` (source/relation.c:2280-2304). -/
def concat_constraints (c : Cfg) (r1 r2 : Rel) : Out Rel :=
  match r1, r2 with
  | [], _ => clone c r2
  | _, [] => clone c r1
  | p1 :: _, p2 :: _ =>
    if p1.nb_columns ≠ p2.nb_columns then .err
    else do
      let new ← pmalloc c p1.precision (p1.nb_rows + p2.nb_rows) p1.nb_columns
      let new ← replaceConstraintsPart c new p1 0
      let new ← replaceConstraintsPart c new p2 p1.nb_rows
      return [new]

/-- `osl_relation_concat_vector` (source/relation.c:1957-1965). -/
def concat_vector (c : Cfg) (r : Rel) (vector : Option Vec) : Out Rel := do
  let temp ← from_vector c vector
  concat_constraints c r temp

/-- The comparison of one row: loop of lines 2334-2336 of source/relation.c. -/
def rowNe (c : Cfg) (p : Int) (m1 m2 : Matrix) (i : Int) : Nat → Int → Out Bool
  | 0, _ => .ok false
  | n + 1, j =>
    match get2 m1 i j, get2 m2 i j with
    | .ok a, .ok b =>
      match OInt.ne c p a b with
      | .ok true => .ok true
      | .ok false => rowNe c p m1 m2 i n (j + 1)
      | .err => .err
      | .ub => .ub
    | _, _ => .ub

/-- The loop over the rows, lines 2333-2336 of source/relation.c. -/
def rowsNe (c : Cfg) (p : Int) (m1 m2 : Matrix) (ncols : Nat) : Nat → Int → Out Bool
  | 0, _ => .ok false
  | n + 1, i =>
    match rowNe c p m1 m2 i ncols 0 with
    | .ok true => .ok true
    | .ok false => rowsNe c p m1 m2 ncols n (i + 1)
    | .err => .err
    | .ub => .ub

/-- `osl_relation_part_equal` (source/relation.c:2315-2339) on two distinct non NULL pointers. -/
def part_equal (c : Cfg) (r1 r2 : Part) : Out Bool :=
  if r1.type ≠ r2.type ∨ r1.precision ≠ r2.precision ∨ r1.nb_rows ≠ r2.nb_rows ∨
      r1.nb_columns ≠ r2.nb_columns ∨ r1.nb_output_dims ≠ r2.nb_output_dims ∨
      r1.nb_input_dims ≠ r2.nb_input_dims ∨ r1.nb_local_dims ≠ r2.nb_local_dims ∨
      r1.nb_parameters ≠ r2.nb_parameters then .ok false
  else do
    let d ← rowsNe c r1.precision r1.m r2.m r1.nb_columns.toNat r1.nb_rows.toNat 0
    return !d

/-- `osl_relation_equal` (source/relation.c:2349-2362). -/
def equal (c : Cfg) : Rel → Rel → Out Bool
  | p1 :: r1, p2 :: r2 =>
    match part_equal c p1 p2 with
    | .ok false => .ok false
    | .ok true => equal c r1 r2
    | .err => .err
    | .ub => .ub
  | [], [] => .ok true
  | _, _ => .ok false

/-- `osl_relation_is_access` (source/relation.c:2712-2722) on a part. -/
def isAccessPart (p : Part) : Bool :=
  decide (p.type = TYPE_ACCESS) || decide (p.type = TYPE_READ) || decide (p.type = TYPE_WRITE) ||
    decide (p.type = TYPE_MAY_WRITE)

/-- `osl_relation_is_access` (source/relation.c:2712-2722). -/
def is_access (r : Rel) : Bool :=
  match r with
  | [] => false
  | p :: _ => isAccessPart p

/-- The first loop of `osl_relation_get_array_id` (source/relation.c:2651-2657): number of rows whose
second entry is not zero, and the last such row. -/
def arrayIdRows (c : Cfg) (p : Part) (row_id : Int) : Out (Int × Int) :=
  loop 0 p.nb_rows (fun i s => do
    let a ← get2 p.m i 1
    let z ← OInt.zero c p.precision a
    return (if z then s else (s.1 + 1, i))) (0, row_id)

/-- The second loop (source/relation.c:2666-2671): true when all entries of the row but the second
and the last are zero. -/
def arrayIdRowOk (c : Cfg) (p : Part) (row_id : Int) : Nat → Int → Out Bool
  | 0, _ => .ok true
  | n + 1, i =>
    if i ≠ 1 then
      match get2 p.m row_id i with
      | .ok a =>
        match OInt.zero c p.precision a with
        | .ok true => arrayIdRowOk c p row_id n (i + 1)
        | .ok false => .ok false
        | .err => .err
        | .ub => .ub
      | .err => .err
      | .ub => .ub
    else arrayIdRowOk c p row_id n (i + 1)

/-- The body of the `while` loop of `osl_relation_get_array_id` (source/relation.c:2637-2684) for
one part: `none` when it returns `OSL_UNDEFINED`, otherwise the identifier and `row_id`. -/
def arrayIdPart (c : Cfg) (p : Part) (row_id : Int) : Out (Option (Int × Int)) :=
  if p.nb_rows < 1 ∨ p.nb_columns < 3 then .ok none
  else do
    let s ← arrayIdRows c p row_id
    if s.1 = 0 then .ok none
    else if s.1 > 1 then .ok none
    else do
      let row_id := s.2
      let z ← arrayIdRowOk c p row_id (p.nb_columns - 1).toNat 0
      if z = false then .ok none
      else do
        let last ← get2 p.m row_id (p.nb_columns - 1)
        let one ← get2 p.m row_id 1
        let d ← OInt.divisible c p.precision last one
        if d = false then .ok none
        else do
          let l ← OInt.get_si c p.precision last
          let nl ← sarith c 32 (-l)
          let o ← OInt.get_si c p.precision one
          let array_id ← sdiv 32 nl o
          if array_id ≤ 0 then .ok none else .ok (some (array_id, row_id))

/-- The `while` loop of `osl_relation_get_array_id` (source/relation.c:2636-2702) from a part
on; `ref` is `reference_array_id` once `first` is 0. -/
def arrayIdLoop (c : Cfg) : Rel → Option Int → Int → Int → Out Int
  | [], _, array_id, _ => .ok array_id
  | p :: rest, ref, _, row_id =>
    match arrayIdPart c p row_id with
    | .err => .err
    | .ub => .ub
    | .ok none => .ok UNDEFINED
    | .ok (some (id, row_id')) =>
      match ref with
      | none => arrayIdLoop c rest (some id) id row_id'
      | some k => if k ≠ id then .ok UNDEFINED else arrayIdLoop c rest (some k) id row_id'

/-- `osl_relation_get_array_id` (source/relation.c:2619-2703). -/
def get_array_id (c : Cfg) (r : Rel) : Out Int :=
  match r with
  | [] => .ok UNDEFINED
  | p :: _ => if isAccessPart p then arrayIdLoop c r none UNDEFINED 0 else .ok UNDEFINED

/-- `osl_relation_check_attribute` (source/relation.c:2377-2388): the answer and the new value of
`*expected`. -/
def check_attribute (expected actual : Int) : Bool × Int :=
  if expected ≠ UNDEFINED then
    if actual ≠ UNDEFINED ∧ actual ≠ expected then (false, expected) else (true, expected)
  else (true, actual)

/-- `osl_relation_check_nb_columns` (source/relation.c:2403-2427). -/
def check_nb_columns (p : Part) (eo ei ep : Int) : Bool :=
  if eo ≠ UNDEFINED ∧ ei ≠ UNDEFINED ∧ ep ≠ UNDEFINED then
    let el := if p.nb_local_dims = UNDEFINED then 0 else p.nb_local_dims
    if eo + ei + el + ep + 2 ≠ p.nb_columns then false else true
  else true

/-- The check of the first column (source/relation.c:2530-2541): true when all tags are 0 or 1. -/
def tagsOk (c : Cfg) (p : Part) : Nat → Int → Out Bool
  | 0, _ => .ok true
  | n + 1, i =>
    match get2 p.m i 0 with
    | .ok a =>
      match OInt.zero c p.precision a, OInt.one c p.precision a with
      | .ok z, .ok o => if !z && !o then .ok false else tagsOk c p n (i + 1)
      | _, _ => .err
    | .err => .err
    | .ub => .ub

/-- The `while` loop of `osl_relation_integrity_check` (source/relation.c:2509-2551). -/
def integrityLoop (c : Cfg) (eo ei ep : Int) : Rel → Out Bool
  | [] => .ok true
  | p :: rest =>
    if eo ≠ p.nb_output_dims ∨ ei ≠ p.nb_input_dims ∨ ep ≠ p.nb_parameters then .ok false
    else if check_nb_columns p eo ei ep = false then .ok false
    else
      match (if p.nb_rows > 0 ∧ p.nb_columns > 0 then tagsOk c p p.nb_rows.toNat 0 else .ok true) with
      | .err => .err
      | .ub => .ub
      | .ok false => .ok false
      | .ok true =>
        if isAccessPart p then
          match get_array_id c (p :: rest) with
          | .err => .err
          | .ub => .ub
          | .ok id => if id = UNDEFINED then .ok false else integrityLoop c eo ei ep rest
        else integrityLoop c eo ei ep rest

/-- `osl_relation_integrity_check` (source/relation.c:2443-2554); the dumps to stderr are omitted. -/
def integrity_check (c : Cfg) (r : Rel) (expected_type eo ei ep : Int) : Out Bool :=
  match r with
  | [] => .ok true
  | p :: _ =>
    if (expected_type ≠ TYPE_ACCESS ∧ expected_type ≠ p.type) ∨
        (expected_type = TYPE_ACCESS ∧ isAccessPart p = false) then .ok false
    else if p.nb_output_dims = UNDEFINED ∨ p.nb_input_dims = UNDEFINED ∨
        p.nb_local_dims = UNDEFINED ∨ p.nb_parameters = UNDEFINED then .ok false
    else if p.type = TYPE_CONTEXT ∧ p.nb_output_dims ≠ 0 then .ok false
    else if (p.type = TYPE_DOMAIN ∨ p.type = TYPE_CONTEXT) ∧ p.nb_input_dims ≠ 0 then .ok false
    else
      let ao := check_attribute eo p.nb_output_dims
      if ao.1 = false then .ok false
      else
        let ai := check_attribute ei p.nb_input_dims
        if ai.1 = false then .ok false
        else
          let ap := check_attribute ep p.nb_parameters
          if ap.1 = false then .ok false
          else integrityLoop c ao.2 ai.2 ap.2 r

/-- `osl_relation_set_attributes` (source/relation.c:2587-2595). -/
def set_attributes (r : Rel) (o i l p : Int) : Rel :=
  r.map (fun x => { x with nb_output_dims := o, nb_input_dims := i, nb_local_dims := l, nb_parameters := p })

/-- `osl_relation_set_type` (source/relation.c:2604-2609). -/
def set_type (r : Rel) (type : Int) : Rel := r.map (fun x => { x with type := type })

/-- The five accumulators of `osl_relation_get_attributes`. -/
structure Attrs where
  nb_parameters : Int
  nb_iterators : Int
  nb_scattdims : Int
  nb_localdims : Int
  array_id : Int
deriving Repr, DecidableEq

/-- The local attributes of one part (source/relation.c:2755-2800); `suffix` is the union from this
part on, which `osl_relation_get_array_id` receives. -/
def localAttrs (c : Cfg) (p : Part) (suffix : Rel) : Out Attrs :=
  let type := if isAccessPart p then TYPE_ACCESS else p.type
  if type = TYPE_CONTEXT then .ok ⟨p.nb_parameters, 0, 0, p.nb_local_dims, 0⟩
  else if type = TYPE_DOMAIN then .ok ⟨p.nb_parameters, p.nb_output_dims, 0, p.nb_local_dims, 0⟩
  else if type = TYPE_SCATTERING then
    .ok ⟨p.nb_parameters, p.nb_input_dims, p.nb_output_dims, p.nb_local_dims, 0⟩
  else if type = TYPE_ACCESS then do
    let id ← get_array_id c suffix
    return ⟨p.nb_parameters, p.nb_input_dims, 0, p.nb_local_dims, id⟩
  else .ok ⟨p.nb_parameters, p.nb_input_dims, p.nb_output_dims, p.nb_local_dims, 0⟩

/-- C macro `OSL_max` (include/osl/macros.h:175). -/
def omax (x y : Int) : Int := if x > y then x else y

/-- `osl_relation_get_attributes` (source/relation.c:2742-2810): the new values of the accumulators. -/
def get_attributes (c : Cfg) : Rel → Attrs → Out Attrs
  | [], a => .ok a
  | p :: rest, a =>
    match localAttrs c p (p :: rest) with
    | .err => .err
    | .ub => .ub
    | .ok l => get_attributes c rest
        ⟨omax a.nb_parameters l.nb_parameters, omax a.nb_iterators l.nb_iterators,
         omax a.nb_scattdims l.nb_scattdims, omax a.nb_localdims l.nb_localdims,
         omax a.array_id l.array_id⟩

/-- The body of the loop of `osl_relation_extend_output` (source/relation.c:2832-2862) for one part.
`precision` is that of the first part of the union; if this part has another precision the code
reads a member of the integer union which was not written: undefined here. -/
def extendPart (c : Cfg) (precision : Int) (r : Part) (dim : Int) : Out Part :=
  if r.nb_output_dims > dim then .err
  else
    let offset := dim - r.nb_output_dims
    do
    let node ← pmalloc c precision (r.nb_rows + offset) (r.nb_columns + offset)
    if precision ≠ r.precision then .ub
    else do
    let m ← copyBlock c precision r.m 0 r.nb_rows 0 0 0 (r.nb_output_dims + 1) 0 0 node.m
    let m ← copyBlock c precision r.m 0 r.nb_rows 0 0 (r.nb_output_dims + offset + 1)
      (r.nb_columns + offset) 0 (-offset) m
    let m ← loop r.nb_rows (r.nb_rows + offset) (fun i m =>
      loop 0 (r.nb_columns + offset) (fun j m =>
        if i - r.nb_rows = j - r.nb_output_dims - 1 then do
          let v ← OInt.set_si c precision (-1)
          set2 m i j v
        else .ok m) m) m
    return { node with
      type := r.type
      nb_output_dims := omax r.nb_output_dims dim
      nb_input_dims := r.nb_input_dims
      nb_local_dims := r.nb_local_dims
      nb_parameters := r.nb_parameters
      m := m }

/-- `osl_relation_extend_output` (source/relation.c:2823-2877); a NULL relation is dereferenced at
line 2828. -/
def extend_output (c : Cfg) (r : Rel) (dim : Int) : Out Rel :=
  match r with
  | [] => .ub
  | p :: _ => Out.mapOut (fun q => extendPart c p.precision q dim) r

/-- The body of `osl_relation_set_precision` (source/relation.c:2906-2920) for one part. -/
def setPrecisionPart (c : Cfg) (precision : Int) (r : Part) : Out Part :=
  if precision ≠ r.precision then do
    let m ← loop 0 r.nb_rows (fun i m =>
      loop 0 r.nb_columns (fun j m => do
        let v ← get2 m i j
        let v ← OInt.set_precision c r.precision precision v
        set2 m i j v) m) r.m
    return { r with precision := precision, m := m }
  else .ok r

/-- `osl_relation_set_precision` (source/relation.c:2906-2920). -/
def set_precision (c : Cfg) (precision : Int) (r : Rel) : Out Rel :=
  Out.mapOut (setPrecisionPart c precision) r

/-- `osl_relation_set_same_precision` (source/relation.c:2929-2941): the new values of `(a, b)`. -/
def set_same_precision (c : Cfg) (a b : Rel) : Out (Rel × Rel) :=
  match a, b with
  | pa :: _, pb :: _ =>
    if pa.precision ≠ pb.precision then
      if pa.precision = PREC_MP ∨ pb.precision = PREC_MP then do
        let a' ← set_precision c PREC_MP a
        let b' ← set_precision c PREC_MP b
        return (a', b')
      else if pa.precision = PREC_DP ∨ pb.precision = PREC_DP then do
        let a' ← set_precision c PREC_DP a
        let b' ← set_precision c PREC_DP b
        return (a', b')
      else .ok (a, b)
    else .ok (a, b)
  | _, _ => .ok (a, b)

end Rel
end Osl
