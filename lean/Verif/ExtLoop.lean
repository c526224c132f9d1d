import Verif.ExtBase
/-!
# Model of the extensions loop and scatinfos

(source/extensions/loop.c, scatinfos.c; the `idump` functions are in Verif/Dump.lean.)

Simplifications: an array and its number of elements are a list.  A NULL pointer printed with `%s` by `osl_loop_sprint` gives
`(null)`, as with the GNU C library; `osl_loop_sread` relies on it (it is undefined in the C standard).
-/

namespace Osl
namespace Ext

/-- `osl_loop_t` without its `next` pointer (include/osl/extensions/loop.h:90-98). -/
structure Loop where
  iter : Option Str
  stmt_ids : List Int
  private_vars : Option Str
  directive : Int
  user : Option Str
deriving Repr, DecidableEq

namespace Loop

/-- `%s` with the GNU C library. -/
def percentS : Option Str → Str
  | none => "(null)".toList
  | some s => s

/-- `directive & OSL_LOOP_DIRECTIVE_USER` (include/osl/extensions/loop.h:81), the bit 8. -/
def isUser (directive : Int) : Bool := decide (directive / 8 % 2 = 1)

/-- The text of the directive (source/extensions/loop.c:231-240). -/
def directiveText (l : Loop) : Out Str :=
  if isUser l.directive then do
    let u ← buf (" ".toList ++ percentS l.user)
    return showInt l.directive ++ u ++ "\n".toList
  else .ok (showInt l.directive ++ "\n".toList)

/-- One turn of the printing loop (source/extensions/loop.c:199-240): the text which is appended. -/
def piece (n : Nat) (l : Loop) : Out Str := do
  let it ← buf (percentS l.iter ++ "\n".toList)
  let pv ← buf (percentS l.private_vars ++ "\n".toList)
  let dt ← directiveText l
  return "# ===========================================\n".toList ++ "# Loop number ".toList ++ showNat n ++ " \n".toList ++
    "# Iterator name\n".toList ++ it ++ "# Number of stmts\n".toList ++ showNat l.stmt_ids.length ++ "\n".toList ++
    (if l.stmt_ids.length ≠ 0 then "# Statement identifiers\n".toList else []) ++
    (l.stmt_ids.map fun i => showInt i ++ "\n".toList).flatten ++
    "# Private variables\n".toList ++ pv ++ "# Directive\n".toList ++ dt

/-- The printing loop (source/extensions/loop.c:198-243). -/
def pieces : Nat → List Loop → Out (List Str)
  | _, [] => .ok []
  | n, l :: ls => do
    let p ← piece n l
    let ps ← pieces (n + 1) ls
    return p :: ps

/-- `osl_loop_sprint` (source/extensions/loop.c:185-247); a NULL list has a text. -/
def sprint (l : List Loop) : Out (Option Str) := do
  let ps ← pieces 1 l
  let r ← Util.emit (("# Number of loops\n".toList ++ showInt l.length ++ "\n".toList) :: ps)
  return some r

/-- A loop reading integers (source/extensions/loop.c:288-289, scatinfos.c:248-249). -/
def readInts : Nat → Str → Out (List Int × Str)
  | 0, s => .ok ([], s)
  | n + 1, s => do
    let (v, s) ← Util.read_int s
    let (l, s) ← readInts n s
    return (v :: l, s)

/-- The conversion to `size_t`, the allocation, which fails for a negative number, and the reading of the identifiers
(source/extensions/loop.c:285-289). -/
def readIds (n : Int) (s : Str) : Out (List Int × Str) := if n < 0 then .err else readInts n.toNat s

/-- A line which may be `(null)` (source/extensions/loop.c:291-295, 301-305). -/
def nullLine (l : Str) : Option Str := if l = "(null)".toList then none else some l

/-- The user string, after a directive which announces it (source/extensions/loop.c:299-306). -/
def readUser (d : Int) (s : Str) : Out (Option Str × Str) :=
  if isUser d then do
    let (u, s) ← Util.read_line s
    return (nullLine u, s)
  else .ok (none, s)

/-- One turn of the reading loop (source/extensions/loop.c:284-306). -/
def readOne (s : Str) : Out (Loop × Str) := do
  let (it, s) ← Util.read_string s
  let (n, s) ← Util.read_int s
  let (ids, s) ← readIds n s
  let (pv, s) ← Util.read_line s
  let (d, s) ← Util.read_int s
  let (u, s) ← readUser d s
  return ({ iter := some it, stmt_ids := ids, private_vars := nullLine pv, directive := d, user := u }, s)

/-- The reading loop (source/extensions/loop.c:283-313), on the number of remaining loops.  A negative number is
decremented too: the loop then ends with an error of the readers, at the end of the text at the latest. -/
def readLoop : Nat → Int → Str → Out (List Loop × Str)
  | 0, _, _ => .ub
  | fuel + 1, n, s =>
    if n = 0 then .ok ([], s)
    else do
      let (l, s) ← readOne s
      let (ls, s) ← readLoop fuel (n - 1) s
      return (l :: ls, s)

/-- `osl_loop_sread` (source/extensions/loop.c:264-316): a NULL string is dereferenced. -/
def sread : Option Str → Out (List Loop × Option Str)
  | none => .ub
  | some s => do
    let (n, s) ← Util.read_int s
    let (l, s) ← readLoop (n.natAbs + s.length + 1) n s
    return (l, some s)

/-- `osl_loop_clone_one` (source/extensions/loop.c:383-408), on a non NULL loop. -/
def cloneOne (l : Loop) : Loop :=
  { iter := strdup l.iter, stmt_ids := l.stmt_ids, private_vars := strdup l.private_vars, directive := l.directive, user := strdup l.user }

/-- `osl_loop_clone` (source/extensions/loop.c:418-437). -/
def clone : List Loop → List Loop
  | [] => []
  | l :: ls => cloneOne l :: clone ls

/-- The inner loop of the comparison of the identifiers (source/extensions/loop.c:476-481). -/
def found (i : Int) : List Int → Bool
  | [] => false
  | j :: l => if i = j then true else found i l

/-- The comparison of the identifiers (source/extensions/loop.c:474-486). -/
def idsLoop (m : List Int) : List Int → Bool
  | [] => true
  | i :: l => if !found i m then false else idsLoop m l

/-- The comparison of two strings which may be NULL (source/extensions/loop.c:489-494, 502-506): when only one is NULL,
`strcmp` receives NULL. -/
def sameStr : Option Str → Option Str → Out Bool
  | none, none => .ok true
  | some a, some b => .ok (decide (a = b))
  | _, _ => .ub

/-- The end of `osl_loop_equal_one` (source/extensions/loop.c:489-508). -/
def equalRest (a b : Loop) : Out Bool := do
  let p ← sameStr a.private_vars b.private_vars
  if !p then return false
  else if a.directive ≠ b.directive then return false
  else do
    let u ← sameStr a.user b.user
    if !u then return false else return true

/-- `osl_loop_equal_one` (source/extensions/loop.c:450-509), on two non NULL loops. -/
def equalOne (a b : Loop) : Out Bool :=
  if a.stmt_ids.length ≠ b.stmt_ids.length then .ok false
  else do
    let e ← strEq a.iter b.iter
    if !e then return false
    else if !idsLoop b.stmt_ids a.stmt_ids then return false
    else equalRest a b

/-- The inner loop of `osl_loop_equal` (source/extensions/loop.c:542-548). -/
def foundLoop (a : Loop) : List Loop → Out Bool
  | [] => .ok false
  | b :: m => do
    let e ← equalOne a b
    if e then return true else foundLoop a m

/-- The outer loop of `osl_loop_equal` (source/extensions/loop.c:538-555). -/
def equalLoop (m : List Loop) : List Loop → Out Bool
  | [] => .ok true
  | a :: l => do
    let f ← foundLoop a m
    if !f then return false else equalLoop m l

/-- `osl_loop_equal` (source/extensions/loop.c:522-558). -/
def equal : List Loop → List Loop → Out Bool
  | [], [] => .ok true
  | [], _ :: _ => .ok false
  | _ :: _, [] => .ok false
  | l, m => if l.length ≠ m.length then .ok false else equalLoop m l

/-- `osl_loop_add` (source/extensions/loop.c:589-594). -/
def add (loop : List Loop) : List Loop → List Loop
  | [] => loop
  | l :: ll => l :: add loop ll

/-- `osl_loop_count` (source/extensions/loop.c:603-611). -/
def count : List Loop → Nat
  | [] => 0
  | _ :: l => count l + 1

/-- The interface (source/extensions/loop.c:567-580). -/
def ops : Ops (NE Loop) where
  sprint := fun l => sprint (NE.elems l)
  sread := fun s => sread s >>= fun p => .ok (NE.ofList p.1, p.2)
  clone := fun l => .ok (NE.ofList (clone (NE.elems l)))
  equal := fun a b => equal (NE.elems a) (NE.elems b)

end Loop

/-- `osl_scatinfos_t` (include/osl/extensions/scatinfos.h:82-87): parallel, permutable and type of each dimension. -/
structure Scatinfos where
  parallel : List Int
  permutable : List Int
  type : List Int
deriving Repr, DecidableEq

namespace Scatinfos

/-- The three arrays have the advertised number of elements `nb_scatdims` (that of `parallel` in the model). -/
def Sized (s : Scatinfos) : Prop := s.permutable.length = s.parallel.length ∧ s.type.length = s.parallel.length

/-- The printing of an array (source/extensions/scatinfos.c:188-191). -/
def row (l : List Int) : Str := (l.map fun i => showInt i ++ " ".toList).flatten

/-- `osl_scatinfos_sprint` (source/extensions/scatinfos.c:170-220). -/
def sprint : Option Scatinfos → Out (Option Str)
  | none => .ok none
  | some s => do
    let r ← Util.emit (["# Number of scattering dimensions\n".toList, showNat s.parallel.length ++ "\n".toList] ++
      (if s.parallel.length > 0 then ["# Parallel info\n".toList] else []) ++ [row s.parallel] ++
      (if s.parallel.length > 0 then ["\n# Permutable info\n".toList] else []) ++ [row s.permutable] ++
      (if s.parallel.length > 0 then ["\n# Type info\n".toList] else []) ++ [row s.type] ++
      (if s.parallel.length > 0 then ["\n".toList] else []))
    return some r

/-- The part of `osl_scatinfos_sread` after the number of dimensions (source/extensions/scatinfos.c:247-257). -/
def readArrays (n : Int) (s : Str) : Out (Scatinfos × Str) :=
  if n < 0 then .err
  else do
    let (a, s) ← Loop.readInts n.toNat s
    let (b, s) ← Loop.readInts n.toNat s
    let (t, s) ← Loop.readInts n.toNat s
    return ({ parallel := a, permutable := b, type := t }, s)

/-- `osl_scatinfos_sread` (source/extensions/scatinfos.c:236-260). -/
def sread : Option Str → Out (Option Scatinfos × Option Str)
  | none => .ok (none, none)
  | some s => do
    let (n, s) ← Util.read_int s
    let (r, s) ← readArrays n s
    return (some r, some s)

/-- `osl_scatinfos_clone` (source/extensions/scatinfos.c:315-337). -/
def clone : Option Scatinfos → Out (Option Scatinfos)
  | none => .ok none
  | some s => .ok (some { parallel := s.parallel, permutable := s.permutable, type := s.type })

/-- The loop of `osl_scatinfos_equal` (source/extensions/scatinfos.c:363-370), on arrays of the same lengths. -/
def equalLoop : List Int → List Int → List Int → List Int → List Int → List Int → Bool
  | a :: as, b :: bs, t :: ts, a' :: as', b' :: bs', t' :: ts' =>
    if a ≠ a' then false else if b ≠ b' then false else if t ≠ t' then false else equalLoop as bs ts as' bs' ts'
  | _, _, _, _, _, _ => true

/-- `osl_scatinfos_equal` (source/extensions/scatinfos.c:347-373). -/
def equal : Option Scatinfos → Option Scatinfos → Out Bool
  | none, none => .ok true
  | some x, some y =>
    if x.parallel.length ≠ y.parallel.length then .ok false
    else .ok (equalLoop x.parallel x.permutable x.type y.parallel y.permutable y.type)
  | _, _ => .ok false

/-- The interface (source/extensions/scatinfos.c:381-394). -/
def ops : Ops Scatinfos := { sprint := sprint, sread := sread, clone := clone, equal := equal }

end Scatinfos
end Ext
end Osl
