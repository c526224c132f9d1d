import Verif.Interface
import Verif.Util
/-!
# Model of source/generic.c

The data of a generic is a value of an arbitrary type `D` (`void*`, NULL being `none`), on which the
functions of the interfaces act: an `Env` gives the meaning of the function pointers.  A list of
generics is a Lean list.  Simplification: the interface of a generic is one node (its `next` pointer
is NULL, as in all generics the library builds).
-/

namespace Osl

/-- The meaning of the function pointers of the interfaces (include/osl/interface.h:74-80).  A reader receives
the address of a string pointer, which may be NULL; the position it leaves is not used by source/generic.c. -/
structure Env (D : Type) where
  sprint : Nat → Option D → Out (Option Str)
  sread : Nat → Option Str → Out (Option D)
  clone : Nat → Option D → Out (Option D)
  equal : Nat → Option D → Option D → Out Bool

/-- `osl_generic_t` (include/osl/generic.h:77-81). -/
structure Generic (D : Type) where
  interface : Option Iface
  data : Option D
deriving Repr, DecidableEq

/-- A list of generics. -/
abbrev GList (D : Type) := List (Generic D)

namespace GList

variable {D : Type}

/-- `osl_generic_has_URI` (source/generic.c:636-642), on a non NULL generic. -/
def has_URI (x : Generic D) (URI : Str) : Bool :=
  match x.interface with
  | some i => decide (i.URI = some URI)
  | none => false

/-- `osl_generic_lookup` (source/generic.c:653-662): the data, `none` for NULL. -/
def lookup (x : GList D) (URI : Str) : Option D :=
  match x with
  | [] => none
  | g :: gs => if has_URI g URI then g.data else lookup gs URI

/-- The checks of `osl_generic_add` (source/generic.c:368-377). -/
def checkLoop (list : GList D) : GList D → Out Unit
  | [] => .ok ()
  | g :: gs =>
    match g.interface with
    | none => .err
    | some i =>
      match i.URI with
      | none => .err
      | some u =>
        match lookup list u with
        | some _ => .err
        | none => checkLoop list gs

/-- `osl_generic_add` (source/generic.c:363-387): the new value of `*list`. -/
def add (list generic : GList D) : Out (GList D) := do
  let _ ← checkLoop list generic
  return list ++ generic

/-- `osl_generic_remove` (source/generic.c:430-442) with `osl_generic_remove_node` (source/generic.c:396-422) on the node
found: the new value of `*list`. -/
def remove (list : GList D) (URI : Str) : GList D :=
  match list with
  | [] => []
  | g :: gs => if has_URI g URI then gs else g :: remove gs URI

/-- `osl_generic_remove_node` (source/generic.c:396-422) on the node of rank `k`: the new value of `*list`. -/
def remove_node (list : GList D) (k : Nat) : GList D := list.eraseIdx k

/-- `osl_generic_number` (source/generic.c:498-506). -/
def number (list : GList D) : Int := list.length

/-- `osl_generic_count` (source/generic.c:561-570). -/
def count (list : GList D) : Int := list.length

/-- The loop of `osl_generic_nclone` (source/generic.c:536-550), `n` being the number of nodes. -/
def ncloneLoop (E : Env D) : Nat → GList D → GList D → Out (GList D)
  | 0, _, acc => .ok acc
  | _, [], acc => .ok acc
  | n + 1, g :: gs, acc =>
    match g.interface with
    | none => ncloneLoop E n gs acc
    | some i => do
      let x ← E.clone i.fns.clone g.data
      let is ← Ifaces.clone [i]
      let acc ← add acc [{ interface := is.head?, data := x }]
      ncloneLoop E n gs acc

/-- `osl_generic_nclone` (source/generic.c:527-552). -/
def nclone (E : Env D) (list : GList D) (n : Int) : Out (GList D) :=
  ncloneLoop E (if n < 0 then count list else n).toNat list []

/-- `osl_generic_clone` (source/generic.c:515-517). -/
def clone (E : Env D) (list : GList D) : Out (GList D) := nclone E list (-1)

/-- The inner loop of `osl_generic_equal` (source/generic.c:600-619): is a generic equal to `g` found (`false`
when the function returns 0 inside or just after the loop). -/
def findEqual (E : Env D) (g : Generic D) : GList D → Out Bool
  | [] => .ok false
  | h :: hs =>
    match Ifaces.equal g.interface h.interface with
    | .ok true =>
      match g.interface with
      | some i => E.equal i.fns.equal g.data h.data
      | none => .ok false
    | .ok false => findEqual E g hs
    | .err => .err
    | .ub => .ub

/-- The outer loop of `osl_generic_equal` (source/generic.c:597-625). -/
def equalLoop (E : Env D) (x2 : GList D) : GList D → Out Bool
  | [] => .ok true
  | g :: gs =>
    match findEqual E g x2 with
    | .ok true => equalLoop E x2 gs
    | .ok false => .ok false
    | .err => .err
    | .ub => .ub

/-- `osl_generic_equal` (source/generic.c:581-626). -/
def equal (E : Env D) (x1 x2 : GList D) : Out Bool :=
  if count x1 ≠ count x2 then .ok false else equalLoop E x2 x1

/-- One generic of `osl_generic_sprint` (source/generic.c:161-172).  The tags are built by `sprintf` in a buffer of
OSL_MAX_STRING bytes. -/
def pieces (E : Env D) (g : Generic D) : Out (List Str) :=
  match g.interface with
  | none => .ok []
  | some i => do
    let content ← E.sprint i.fns.sprint g.data
    match content, i.URI with
    | none, _ => .ok []
    | some _, none => .ub
    | some t, some u =>
      if u.length + 4 < MAX_STRING then .ok [Util.startTag u ++ ['\n'], t, Util.endTag u ++ ['\n']] else .ub

/-- The loop of `osl_generic_sprint` (source/generic.c:160-178). -/
def piecesLoop (E : Env D) : GList D → Out (List Str)
  | [] => .ok []
  | g :: gs => do
    let a ← pieces E g
    let b ← piecesLoop E gs
    return a ++ (if gs.isEmpty then [] else [['\n']]) ++ b

/-- `osl_generic_sprint` (source/generic.c:152-180). -/
def sprint (E : Env D) (list : GList D) : Out Str := do
  let l ← piecesLoop E list
  Util.emit l

/-- The common part of `osl_generic_sread_one` (source/generic.c:257-286) and `osl_generic_read_one`
(source/generic.c:299-328) after the tag is read: the generic (`[]` for NULL) and the new position. -/
def readTagged (E : Env D) (registry : Ifaces) (tag : Option Str) (rest : Str) : Out (GList D × Str) :=
  match tag with
  | none => .ok ([], rest)
  | some [] => .ok ([], rest)
  | some (c :: t) =>
    if c = '/' then .ok ([], rest)
    else do
      let (content, rest) ← Util.read_uptoendtag rest (c :: t)
      match Ifaces.lookup registry (some (c :: t)) with
      | none => .ok ([], rest)
      | some i => do
        let is ← Ifaces.nclone [i] 1
        let d ← E.sread i.fns.sread content
        return ([{ interface := is.head?, data := d }], rest)

/-- `osl_generic_sread_one` (source/generic.c:257-286). -/
def sread_one (E : Env D) (registry : Ifaces) (input : Str) : Out (GList D × Str) := do
  let (tag, rest) ← Util.read_tag input
  readTagged E registry tag rest

/-- The loop of `osl_generic_sread` (source/generic.c:238-241); each turn moves the position. -/
def sreadLoop (E : Env D) (registry : Ifaces) : Nat → Str → GList D → Out (GList D × Str)
  | 0, _, _ => .ub
  | _ + 1, [], acc => .ok (acc, [])
  | n + 1, c :: s, acc => do
    let (new, rest) ← sread_one E registry (c :: s)
    let acc ← add acc new
    sreadLoop E registry n rest acc

/-- `osl_generic_sread` (source/generic.c:234-244): the list and the new position. -/
def sread (E : Env D) (registry : Ifaces) (input : Str) : Out (GList D × Str) :=
  sreadLoop E registry (input.length + 1) input []

/-- `osl_generic_read_one` (source/generic.c:299-328). -/
def fread_one (E : Env D) (registry : Ifaces) (file : Str) : Out (GList D × Str) := do
  let (tag, rest) ← Util.fread_tag file
  readTagged E registry tag rest

/-- `osl_generic_read` (source/generic.c:339-349): without the end tag of the SCoP the string is NULL. -/
def read (E : Env D) (registry : Ifaces) (file : Str) : Out (GList D × Str) := do
  let (s, rest) ← Util.read_uptoendtag file "OpenScop".toList
  match s with
  | none => .ub
  | some s => do
    let (l, _) ← sread E registry s
    return (l, rest)

end GList
end Osl
