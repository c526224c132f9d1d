import Verif.Text
/-!
# Model of source/interface.c

A list of interfaces (`osl_interface_p` with its `next` pointers) is a Lean list, NULL being `[]`.
The seven function pointers of an interface are numbers, two pointers being equal when the numbers
are.
-/

namespace Osl

/-- The function pointers of `osl_interface_t` (include/osl/interface.h:86-96). -/
structure Fns where
  idump : Nat
  sprint : Nat
  sread : Nat
  malloc : Nat
  free : Nat
  clone : Nat
  equal : Nat
deriving Repr, DecidableEq

/-- One node of `osl_interface_t` (include/osl/interface.h:86-96). -/
structure Iface where
  URI : Option Str
  fns : Fns
deriving Repr, DecidableEq

/-- A list of interfaces. -/
abbrev Ifaces := List Iface

namespace Ifaces

/-- `osl_interface_lookup` (source/interface.c:345-358). -/
def lookup (list : Ifaces) (URI : Option Str) : Option Iface :=
  match URI with
  | none => none
  | some u =>
    match list with
    | [] => none
    | i :: is => if i.URI = some u then some i else lookup is (some u)

/-- The checks of `osl_interface_add` (source/interface.c:178-187). -/
def checkLoop (list : Ifaces) : Ifaces → Out Unit
  | [] => .ok ()
  | i :: is =>
    if i.URI = none then .err
    else if lookup list i.URI ≠ none then .err
    else checkLoop list is

/-- `osl_interface_add` (source/interface.c:173-196): the new value of `*list`. -/
def add (list interface : Ifaces) : Out Ifaces := do
  let _ ← checkLoop list interface
  return list ++ interface

/-- `osl_interface_number` (source/interface.c:254-262). -/
def number (list : Ifaces) : Int := list.length

/-- The loop of `osl_interface_nclone` (source/interface.c:276-290). -/
def ncloneLoop : Option Nat → Ifaces → Ifaces → Out Ifaces
  | _, [], clone => .ok clone
  | some 0, _ :: _, clone => .ok clone
  | n, i :: is, clone => do
    let clone ← add clone [{ URI := i.URI, fns := i.fns }]
    ncloneLoop (n.map (· - 1)) is clone

/-- `osl_interface_nclone` (source/interface.c:272-293), -1 meaning the whole list. -/
def nclone (list : Ifaces) (n : Int) : Out Ifaces :=
  ncloneLoop (if n = -1 then none else some n.toNat) list []

/-- `osl_interface_clone` (source/interface.c:302-304). -/
def clone (list : Ifaces) : Out Ifaces := nclone list (-1)

/-- `osl_interface_equal` (source/interface.c:314-334) on the heads of two lists (the `next` pointers are not
compared).  Two non NULL arguments are supposed to be distinct objects; `strcmp` of a NULL URI is undefined. -/
def equal (a b : Option Iface) : Out Bool :=
  match a, b with
  | none, none => .ok true
  | some a, some b =>
    match a.URI, b.URI with
    | some u, some v => .ok (decide (u = v) && decide (a.fns = b.fns))
    | _, _ => .ub
  | _, _ => .ok false

/-- The function pointers of the `k`th interface of the default registry: all distinct. -/
def fnsOf (k : Nat) : Fns := { idump := k, sprint := k, sread := k, malloc := k, free := k, clone := k, equal := k }

/-- The interface built by the `osl_..._interface` functions, e.g. `osl_strings_interface` (source/strings.c:433-446). -/
def mk (k : Nat) (URI : String) : Iface := { URI := some URI.toList, fns := fnsOf k }

/-- The URIs of the known interfaces, in the order of `osl_interface_get_default_registry`
(OSL_URI_STRINGS, OSL_URI_BODY, .. in the headers of include/osl). -/
def defaultURIs : List String :=
  ["strings", "body", "relation", "textual", "comment", "null", "scatinfos", "scatnames", "arrays", "coordinates", "clay",
    "dependence", "symbols", "extbody", "loop", "pluto_unroll", "region", "annotation"]

/-- The calls of `osl_interface_add` in `osl_interface_get_default_registry`. -/
def addAll : List Iface → Ifaces → Out Ifaces
  | [], list => .ok list
  | i :: is, list => do
    let list ← add list [i]
    addAll is list

/-- The interfaces with their numbers. -/
def numbered : Nat → List String → List Iface
  | _, [] => []
  | k, u :: us => mk k u :: numbered (k + 1) us

/-- `osl_interface_get_default_registry` (source/interface.c:366-393). -/
def get_default_registry : Out Ifaces := addAll (numbered 0 defaultURIs) []

end Ifaces
end Osl
