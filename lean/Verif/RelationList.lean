import Verif.Relation
/-!
# Model of source/relation_list.c (data functions)

A relation list (include/osl/relation_list.h, `struct osl_relation_list`) is a linked list of nodes
holding a relation pointer; here a list of `Rel`, the NULL list being `[]` and the NULL `elt` pointer
`[]`.  A function which modifies `*head` returns the new value.  Memory deallocation
(`osl_relation_list_free`) has no other effect in this model.  The `dump` functions are in Verif/Dump.lean, the scoplib printer in
Verif/Scoplib.lean, the memory in Verif/HeapList.lean.
-/

namespace Osl

/-- A relation list: the `elt` fields in `next` order. -/
abbrev RList := List Rel

namespace RList

/-- `osl_relation_list_node` (source/relation_list.c:421-429). -/
def node (c : Cfg) (r : Rel) : Out RList :=
  match r with
  | [] => .ok []
  | _ => do
    let e ← Rel.clone c r
    return [e]

/-- `osl_relation_list_clone` (source/relation_list.c:438-459). -/
def clone (c : Cfg) (l : RList) : Out RList := Out.mapOut (Rel.clone c) l

/-- `osl_relation_list_concat` (source/relation_list.c:470-487). -/
def concat (c : Cfg) (l1 l2 : RList) : Out RList :=
  match l1, l2 with
  | [], _ => clone c l2
  | _, [] => clone c l1
  | _, _ => do
    let new ← clone c l1
    let l2' ← clone c l2
    return new ++ l2'

/-- `osl_relation_list_add` (source/relation_list.c:498-504): the new value of `*l1`. -/
def add (l1 l2 : RList) : RList := l1 ++ l2

/-- `osl_relation_list_push` (source/relation_list.c:514-520): the new value of `*head`; the `next`
field of the pushed node is overwritten. -/
def push (head node : RList) : RList :=
  match node with
  | [] => head
  | e :: _ => e :: head

/-- `osl_relation_list_pop` (source/relation_list.c:531-541): the popped list and the new `*head`. -/
def pop (head : RList) : RList × RList :=
  match head with
  | [] => ([], [])
  | e :: rest => ([e], rest)

/-- `osl_relation_list_dup` (source/relation_list.c:551-555). -/
def dup (c : Cfg) (head : RList) : Out RList := do
  let t := pop head
  let copy ← clone c t.1
  return push (push t.2 copy) t.1

/-- `osl_relation_list_drop` (source/relation_list.c:566-569). -/
def drop (head : RList) : RList := (pop head).2

/-- The loop of `osl_relation_list_destroy`, with the number of iterations as fuel. -/
def destroyLoop : Nat → RList → RList
  | _, [] => []
  | 0, l => l
  | n + 1, l => destroyLoop n (drop l)

/-- `osl_relation_list_destroy` (source/relation_list.c:579-582). -/
def destroy (head : RList) : RList := destroyLoop head.length head

/-- `osl_relation_list_equal` (source/relation_list.c:592-609); the shortcut on identical pointers
(line 595) answers as the comparison of a list with itself. -/
def equal (c : Cfg) : RList → RList → Out Bool
  | e1 :: l1, e2 :: l2 =>
    match Rel.equal c e1 e2 with
    | .ok false => .ok false
    | .ok true => equal c l1 l2
    | .err => .err
    | .ub => .ub
  | [], [] => .ok true
  | _, _ => .ok false

/-- `osl_relation_list_integrity_check` (source/relation_list.c:626-642). -/
def integrity_check (c : Cfg) (type o i p : Int) : RList → Out Bool
  | [] => .ok true
  | e :: l =>
    match Rel.integrity_check c e type o i p with
    | .ok false => .ok false
    | .ok true => integrity_check c type o i p l
    | .err => .err
    | .ub => .ub

/-- `osl_relation_list_set_type` (source/relation_list.c:651-658): writes the `type` field of
the first part of each element. -/
def set_type (l : RList) (type : Int) : RList :=
  l.map (fun e => match e with
    | [] => []
    | p :: rest => { p with type := type } :: rest)

/-- The test of `osl_relation_list_filter` (source/relation_list.c:678-680). -/
def keeps (type : Int) (e : Rel) : Bool :=
  match e with
  | [] => false
  | p :: _ => (decide (type = TYPE_ACCESS) && Rel.is_access e) || (decide (type ≠ TYPE_ACCESS) && decide (type = p.type))

/-- The loop of `osl_relation_list_filter` (source/relation_list.c:677-697): `kept` are the nodes from
`filtered` to `previous`. -/
def filterLoop (type : Int) : RList → RList → RList
  | kept, [] => kept
  | kept, e :: copy => if keeps type e then filterLoop type (kept ++ [e]) copy else filterLoop type kept copy

/-- `osl_relation_list_filter` (source/relation_list.c:669-699). -/
def filter (c : Cfg) (l : RList) (type : Int) : Out RList := do
  let copy ← clone c l
  return filterLoop type [] copy

/-- `osl_relation_list_count` (source/relation_list.c:708-718). -/
def count : RList → Nat
  | [] => 0
  | e :: l => (match e with | [] => 0 | _ => 1) + count l

/-- The loop of `osl_relation_list_get_attributes` (source/relation_list.c:748-759): `loc` are the local
accumulators, which are not reset between the elements. -/
def attrsLoop (c : Cfg) : RList → Rel.Attrs → Rel.Attrs → Out Rel.Attrs
  | [], _, a => .ok a
  | e :: l, loc, a =>
    match Rel.get_attributes c e loc with
    | .err => .err
    | .ub => .ub
    | .ok loc' => attrsLoop c l loc'
        ⟨Rel.omax a.nb_parameters loc'.nb_parameters, Rel.omax a.nb_iterators loc'.nb_iterators,
         Rel.omax a.nb_scattdims loc'.nb_scattdims, Rel.omax a.nb_localdims loc'.nb_localdims,
         Rel.omax a.array_id loc'.array_id⟩

/-- `osl_relation_list_get_attributes` (source/relation_list.c:738-760): the new accumulators. -/
def get_attributes (c : Cfg) (l : RList) (a : Rel.Attrs) : Out Rel.Attrs :=
  attrsLoop c l ⟨UNDEFINED, UNDEFINED, UNDEFINED, UNDEFINED, UNDEFINED⟩ a

end RList
end Osl
