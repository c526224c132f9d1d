import Verif.ExtBase
import Verif.Strings
/-!
# Model of the extensions arrays and scatnames

(source/extensions/arrays.c, scatnames.c; the `idump` functions are in Verif/Dump.lean.)  Simplification: the names of the arrays
are not NULL (`osl_arrays_add` and `osl_arrays_sread` never store a NULL name).
-/

namespace Osl
namespace Ext

/-- `osl_arrays_t` (include/osl/extensions/arrays.h:82-86): the pairs identifier, name. -/
structure Arrays where
  pairs : List (Int × Str)
deriving Repr, DecidableEq

namespace Arrays

/-- One turn of the printing loop (source/extensions/arrays.c:162-165). -/
def piece (p : Int × Str) : Out Str := buf (showInt p.1 ++ " ".toList ++ p.2 ++ "\n".toList)

/-- `osl_arrays_sprint` (source/extensions/arrays.c:142-171). -/
def sprint : Option Arrays → Out (Option Str)
  | none => .ok none
  | some a => do
    let l ← Out.mapOut piece a.pairs
    let r ← Util.emit (["# Number of arrays\n".toList, showInt a.pairs.length ++ "\n".toList] ++
      (if a.pairs.length ≠ 0 then ["# Mapping array-identifiers/array-names\n".toList] else []) ++ l)
    return some r

/-- The loop of `osl_arrays_sread` (source/extensions/arrays.c:210-216). -/
def readLoop : Nat → Str → Out (List (Int × Str) × Str)
  | 0, s => .ok ([], s)
  | n + 1, s => do
    let (id, s) ← Util.read_int s
    let (name, s) ← Util.read_string s
    let (l, s) ← readLoop n s
    return ((id, name) :: l, s)

/-- The part of `osl_arrays_sread` after the number of names (source/extensions/arrays.c:202-218): the allocation of a negative
number of elements fails. -/
def readPairs (n : Int) (s : Str) : Out (List (Int × Str) × Str) := if n < 0 then .err else readLoop n.toNat s

/-- `osl_arrays_sread` (source/extensions/arrays.c:188-219): a NULL string is dereferenced. -/
def sread : Option Str → Out (Option Arrays × Option Str)
  | none => .ub
  | some s => do
    let (n, s) ← Util.read_int s
    let (l, s) ← readPairs n s
    return (some { pairs := l }, some s)

/-- `osl_arrays_clone` (source/extensions/arrays.c:272-290). -/
def clone : Option Arrays → Out (Option Arrays)
  | none => .ok none
  | some a => .ok (some { pairs := a.pairs.map fun p => (p.1, Util.strdup p.2) })

/-- The inner loop of `osl_arrays_equal` (source/extensions/arrays.c:324-329). -/
def found (p : Int × Str) : List (Int × Str) → Bool
  | [] => false
  | q :: l => if p.1 = q.1 ∧ p.2 = q.2 then true else found p l

/-- The outer loop of `osl_arrays_equal` (source/extensions/arrays.c:322-334). -/
def equalLoop (m : List (Int × Str)) : List (Int × Str) → Bool
  | [] => true
  | p :: l => if !found p m then false else equalLoop m l

/-- `osl_arrays_equal` (source/extensions/arrays.c:302-337). -/
def equal : Option Arrays → Option Arrays → Out Bool
  | none, none => .ok true
  | some a, some b => if a.pairs.length ≠ b.pairs.length then .ok false else .ok (equalLoop b.pairs a.pairs)
  | _, _ => .ok false

/-- The loop of `osl_arrays_to_strings` computing the maximum (source/extensions/arrays.c:358-360). -/
def maxLoop : Int → List (Int × Str) → Int
  | m, [] => m
  | m, p :: l => maxLoop (if p.1 > m then p.1 else m) l

/-- The maximum array identifier (source/extensions/arrays.c:356-361). -/
def maxId : List (Int × Str) → Int
  | [] => 0
  | p :: l => maxLoop p.1 l

/-- The loop storing the names (source/extensions/arrays.c:365-368): the index must be inside the array. -/
def fillLoop : List Str → List (Int × Str) → Out (List Str)
  | ss, [] => .ok ss
  | ss, p :: l => if 1 ≤ p.1 ∧ p.1 ≤ ss.length then fillLoop (ss.set (p.1 - 1).toNat (Util.strdup p.2)) l else .ub

/-- `osl_arrays_to_strings` (source/extensions/arrays.c:348-371). -/
def to_strings : Option Arrays → Out (Option Strings)
  | none => .ok none
  | some a => do
    let s ← Strings.generate "Dummy".toList (maxId a.pairs)
    if a.pairs.isEmpty then .ok (some s)
    else do
      let l ← fillLoop s.words a.pairs
      return some { string := some l }

/-- `osl_arrays_add` (source/extensions/arrays.c:382-394): the structure and the result. -/
def add (a : Option Arrays) (id : Int) (name : Option Str) : Out (Option Arrays × Int) :=
  match a, name with
  | some a, some n =>
    if (a.pairs.length : Int) + 1 > cMax 32 then .ub
    else .ok (some { pairs := a.pairs ++ [(id, Util.strdup n)] }, a.pairs.length + 1)
  | a, _ => .ok (a, -1)

/-- The loop of `osl_arrays_get_index_from_id` (source/extensions/arrays.c:410-413). -/
def idLoop (id : Int) : List (Int × Str) → Nat
  | [] => 0
  | p :: l => if p.1 = id then 0 else idLoop id l + 1

/-- `osl_arrays_get_index_from_id` (source/extensions/arrays.c:404-416). -/
def get_index_from_id (a : Option Arrays) (id : Int) : Nat :=
  match a with
  | none => 0
  | some a => idLoop id a.pairs

/-- The loop of `osl_arrays_get_index_from_name` (source/extensions/arrays.c:433-436). -/
def nameLoop (name : Str) : List (Int × Str) → Nat
  | [] => 0
  | p :: l => if p.2 = name then 0 else nameLoop name l + 1

/-- `osl_arrays_get_index_from_name` (source/extensions/arrays.c:426-440). -/
def get_index_from_name (a : Option Arrays) (name : Option Str) : Nat :=
  match a, name with
  | some a, some n => nameLoop n a.pairs
  | _, _ => 0

/-- The interface (source/extensions/arrays.c:448-461). -/
def ops : Ops Arrays := { sprint := sprint, sread := sread, clone := clone, equal := equal }

end Arrays

/-- `osl_scatnames_t` (include/osl/extensions/scatnames.h:83-85). -/
structure Scatnames where
  names : Option Strings
deriving Repr, DecidableEq

namespace Scatnames

/-- `osl_scatnames_sprint` (source/extensions/scatnames.c:134-136): NULL is dereferenced. -/
def sprint : Option Scatnames → Out (Option Str)
  | none => .ub
  | some s => do
    let r ← Strings.sprint s.names
    return some r

/-- `osl_scatnames_sread` (source/extensions/scatnames.c:153-170). -/
def sread : Option Str → Out (Option Scatnames × Option Str)
  | none => .ok (none, none)
  | some s => do
    let (names, pos) ← Strings.sread s
    return (names.map fun n => { names := some n }, pos)

/-- `osl_scatnames_clone` (source/extensions/scatnames.c:217-227). -/
def clone : Option Scatnames → Out (Option Scatnames)
  | none => .ok none
  | some s => .ok (some { names := Strings.clone s.names })

/-- `osl_scatnames_equal` (source/extensions/scatnames.c:237-249). -/
def equal : Option Scatnames → Option Scatnames → Out Bool
  | none, none => .ok true
  | some a, some b => if !Strings.equal a.names b.names then .ok false else .ok true
  | _, _ => .ok false

/-- The interface (source/extensions/scatnames.c:257-270). -/
def ops : Ops Scatnames := { sprint := sprint, sread := sread, clone := clone, equal := equal }

end Scatnames
end Ext
end Osl
