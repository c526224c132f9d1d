import Verif.ExtBase
import Verif.Body
/-!
# Model of the extensions pluto_unroll and extbody

(source/extensions/pluto_unroll.c, extbody.c; the `idump` functions are in Verif/Dump.lean.)
-/

namespace Osl
namespace Ext

/-- `osl_pluto_unroll_t` without its `next` pointer (include/osl/extensions/pluto_unroll.h:80-85); `factor` is an
`unsigned int`. -/
structure Unroll where
  iter : Option Str
  jam : Bool
  factor : Nat
deriving Repr, DecidableEq

namespace Unroll

/-- A C `bool` as an `int`. -/
def ofBool (b : Bool) : Int := if b then 1 else 0

/-- The loop of `osl_pluto_unroll_sprint` (source/extensions/pluto_unroll.c:177-195): the text appended to the buffer. -/
def textLoop : List Unroll → Out Str
  | [] => .ok []
  | u :: us => do
    let n ← str u.iter
    let t ← textLoop us
    return "# Iterator name\n".toList ++ n ++ "\n".toList ++ "# Jam\n".toList ++ showInt (ofBool u.jam) ++ "\n".toList ++
      "# Factor\n".toList ++ showNat u.factor ++ "\n".toList ++ "# Next\n".toList ++
      (if us.isEmpty then "0\n".toList else "1\n".toList) ++ t

/-- `osl_pluto_unroll_sprint` (source/extensions/pluto_unroll.c:166-201): everything is written in one buffer of
OSL_MAX_STRING bytes, without check. -/
def sprint (l : List Unroll) : Out (Option Str) := do
  let t ← textLoop l
  let r ← buf ("# Pluto unroll\n".toList ++ (if l.isEmpty then "0\n".toList else "1\n".toList) ++ t)
  return some r

/-- The loop of `osl_pluto_unroll_sread` (source/extensions/pluto_unroll.c:227-239).  Fuel: each turn reads characters. -/
def readLoop : Nat → Str → Out (List Unroll × Str)
  | 0, _ => .ub
  | fuel + 1, s => do
    let (n, s) ← Util.read_line s
    let (j, s) ← Util.read_int s
    let (f, s) ← Util.read_int s
    let (next, s) ← Util.read_int s
    let u : Unroll := { iter := some n, jam := decide (j ≠ 0), factor := (f % 2 ^ 32).toNat }
    if next = 1 then do
      let (l, s) ← readLoop fuel s
      return (u :: l, s)
    else .ok ([u], s)

/-- The part of `osl_pluto_unroll_sread` after the first number (source/extensions/pluto_unroll.c:222-241). -/
def readList (n : Int) (s : Str) : Out (List Unroll × Str) := if n = 1 then readLoop (s.length + 1) s else .ok ([], s)

/-- `osl_pluto_unroll_sread` (source/extensions/pluto_unroll.c:220-242): a NULL string is dereferenced. -/
def sread : Option Str → Out (List Unroll × Option Str)
  | none => .ub
  | some s => do
    let (n, s) ← Util.read_int s
    let (l, s) ← readList n s
    return (l, some s)

/-- `osl_pluto_unroll_malloc` (source/extensions/pluto_unroll.c:257-267). -/
def malloc : Unroll := { iter := none, jam := false, factor := 0 }

/-- `osl_pluto_unroll_fill` (source/extensions/pluto_unroll.c:299-316), on a non NULL structure. -/
def fill (u : Unroll) (name : Option Str) (jam : Bool) (factor : Nat) : Unroll :=
  { iter := match name with | some n => some n | none => u.iter, jam := jam, factor := factor }

/-- `osl_pluto_unroll_clone` (source/extensions/pluto_unroll.c:328-349). -/
def clone : List Unroll → List Unroll
  | [] => []
  | u :: us => fill malloc u.iter u.jam u.factor :: clone us

/-- The comparison of the iterators, jams and factors (source/extensions/pluto_unroll.c:378-396). -/
def equalOne (a b : Unroll) : Bool :=
  match a.iter, b.iter with
  | none, some _ => false
  | some _, none => false
  | some x, some y => if x ≠ y then false else if a.jam ≠ b.jam then false else if a.factor ≠ b.factor then false else true
  | none, none => if a.jam ≠ b.jam then false else if a.factor ≠ b.factor then false else true

/-- `osl_pluto_unroll_equal` (source/extensions/pluto_unroll.c:363-412). -/
def equal : List Unroll → List Unroll → Bool
  | [], [] => true
  | a :: as, b :: bs => if equalOne a b then equal as bs else false
  | _, _ => false

/-- The interface (source/extensions/pluto_unroll.c:421-434). -/
def ops : Ops (NE Unroll) where
  sprint := fun l => sprint (NE.elems l)
  sread := fun s => sread s >>= fun p => .ok (NE.ofList p.1, p.2)
  clone := fun l => .ok (NE.ofList (clone (NE.elems l)))
  equal := fun a b => .ok (equal (NE.elems a) (NE.elems b))

end Unroll

/-- `osl_extbody_t` (include/osl/extensions/extbody.h:81-86): the body and the (start, length) pairs. -/
structure Extbody where
  body : Option Body
  access : List (Int × Int)
deriving Repr, DecidableEq

namespace Extbody

/-- One turn of the printing loop (source/extensions/extbody.c:166-169). -/
def accPiece (p : Int × Int) : Out Str := buf (showInt p.1 ++ " ".toList ++ showInt p.2 ++ "\n".toList)

/-- `osl_extbody_sprint` (source/extensions/extbody.c:146-177). -/
def sprint : Option Extbody → Out (Option Str)
  | none => .ok none
  | some e => do
    let l ← Out.mapOut accPiece e.access
    let b ← Body.sprint e.body
    let r ← Util.emit (["# Number of accesses\n".toList, showNat e.access.length ++ "\n".toList] ++
      (if e.access.length ≠ 0 then ["# Access coordinates (start/length)\n".toList] else []) ++ l ++ [b])
    return some r

/-- The loop of `osl_extbody_sread` (source/extensions/extbody.c:220-223). -/
def readLoop : Nat → Str → Out (List (Int × Int) × Str)
  | 0, s => .ok ([], s)
  | n + 1, s => do
    let (a, s) ← Util.read_int s
    let (b, s) ← Util.read_int s
    let (l, s) ← readLoop n s
    return ((a, b) :: l, s)

/-- The part of `osl_extbody_sread` between the number of accesses and the body (source/extensions/extbody.c:208-223). -/
def readAccess (n : Int) (s : Str) : Out (List (Int × Int) × Str) := if n < 0 then .err else readLoop n.toNat s

/-- `osl_extbody_sread` (source/extensions/extbody.c:196-229): a NULL string is dereferenced. -/
def sread : Option Str → Out (Option Extbody × Option Str)
  | none => .ub
  | some s => do
    let (n, s) ← Util.read_int s
    let (l, s) ← readAccess n s
    let (b, s) ← Body.sread s
    return (some { body := b, access := l }, some s)

/-- `osl_extbody_clone` (source/extensions/extbody.c:280-300). -/
def clone : Option Extbody → Out (Option Extbody)
  | none => .ok none
  | some e => .ok (some { body := Body.clone e.body, access := e.access })

/-- The inner loop of `osl_extbody_equal` (source/extensions/extbody.c:334-339). -/
def found (p : Int × Int) : List (Int × Int) → Bool
  | [] => false
  | q :: l => if p.1 = q.1 ∧ p.2 = q.2 then true else found p l

/-- The outer loop of `osl_extbody_equal` (source/extensions/extbody.c:332-344). -/
def equalLoop (m : List (Int × Int)) : List (Int × Int) → Bool
  | [] => true
  | p :: l => if !found p m then false else equalLoop m l

/-- `osl_extbody_equal` (source/extensions/extbody.c:312-347). -/
def equal : Option Extbody → Option Extbody → Out Bool
  | none, none => .ok true
  | some a, some b =>
    if a.access.length ≠ b.access.length then .ok false
    else if !equalLoop b.access a.access then .ok false
    else .ok (Body.equal a.body b.body)
  | _, _ => .ok false

/-- `osl_extbody_add` (source/extensions/extbody.c:374-382). -/
def add (e : Extbody) (start length : Int) : Extbody := { e with access := e.access ++ [(start, length)] }

/-- The interface (source/extensions/extbody.c:355-368). -/
def ops : Ops Extbody := { sprint := sprint, sread := sread, clone := clone, equal := equal }

end Extbody
end Ext
end Osl
