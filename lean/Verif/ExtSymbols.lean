import Verif.ExtBase
import Verif.Generic
/-!
# Model of the extension symbols (source/extensions/symbols.c)

The structures hold generics, whose functions are those of an environment, as in `Verif/Generic.lean`.  Not modelled:
the `usr` pointer (`osl_symbols_idump` is in Verif/Dump.lean).  (`osl_symbols_lookup` and `osl_symbols_remove` are declared but not defined in the library.)
-/

namespace Osl
namespace Ext

/-- `osl_symbols_t` without its `next` pointer (include/osl/extensions/symbols.h:85-97). -/
structure Symbol (D : Type) where
  type : Int
  generated : Int
  nb_dims : Int
  identifier : GList D
  datatype : GList D
  scope : GList D
  extent : GList D
deriving Repr, DecidableEq

namespace Symbol

variable {D : Type}

/-- `osl_symbols_malloc` (source/extensions/symbols.c:399-413). -/
def malloc : Symbol D :=
  { type := UNDEFINED, generated := UNDEFINED, nb_dims := UNDEFINED, identifier := [], datatype := [], scope := [], extent := [] }

/-- The word of a type (source/extensions/symbols.c:235-258); OSL_SYMBOL_TYPE_ITERATOR, .. are 1 to 4 (include/osl/macros.h:105-108). -/
def typeText (t : Int) : Str :=
  if t = 1 then "Iterator".toList else if t = 2 then "Parameter".toList else if t = 3 then "Array".toList
  else if t = 4 then "Function".toList else "Undefined".toList

/-- The type of a word (source/extensions/symbols.c:343-356). -/
def typeOf (w : Str) : Int :=
  if w = "Iterator".toList then 1 else if w = "Parameter".toList then 2 else if w = "Array".toList then 3
  else if w = "Function".toList then 4 else UNDEFINED

/-- One turn of the loop of `osl_symbols_sprint` (source/extensions/symbols.c:229-297).  The number is always 1: it is not
incremented. -/
def pieces (E : Env D) (s : Symbol D) : Out (List Str) := do
  let a ← GList.sprint E s.identifier
  let b ← GList.sprint E s.datatype
  let c ← GList.sprint E s.scope
  let d ← GList.sprint E s.extent
  return ["# ===========================================\n".toList, "# 1 Data for symbol number 1 \n".toList,
    "# 1.1 Symbol type\n".toList, typeText s.type ++ "\n".toList,
    "\n# 1.2 Generated Boolean\n".toList ++ (showInt s.generated ++ "\n".toList),
    "\n# 1.3 Number of dimensions\n".toList ++ (showInt s.nb_dims ++ "\n".toList),
    "\n# 1.4 Identifier\n".toList, a, "\n# 1.5 Datatype\n".toList, b, "\n# 1.6 Scope\n".toList, c, "\n# 1.7 Extent\n".toList, d]

/-- The loop of `osl_symbols_sprint` (source/extensions/symbols.c:229-297). -/
def piecesLoop (E : Env D) : List (Symbol D) → Out (List Str)
  | [] => .ok []
  | s :: l => do
    let a ← pieces E s
    let b ← piecesLoop E l
    return a ++ b

/-- `osl_symbols_get_nb_symbols` (source/extensions/symbols.c:532-540). -/
def number (l : List (Symbol D)) : Nat := l.length

/-- `osl_symbols_sprint` (source/extensions/symbols.c:216-301). -/
def sprint (E : Env D) (l : List (Symbol D)) : Out (Option Str) := do
  let p ← piecesLoop E l
  let r ← Util.emit (("# Number of symbols\n".toList ++ (showInt (wrap 32 (number l)) ++ "\n".toList)) :: p)
  return some r

/-- One turn of the loop of `osl_symbols_sread` (source/extensions/symbols.c:341-381). -/
def readOne (E : Env D) (registry : Ifaces) (s : Str) : Out (Symbol D × Str) := do
  let (w, s) ← Util.read_string s
  let (g, s) ← Util.read_int s
  let (n, s) ← Util.read_int s
  let (a, s) ← GList.sread_one E registry s
  let (b, s) ← GList.sread_one E registry s
  let (c, s) ← GList.sread_one E registry s
  let (d, s) ← GList.sread_one E registry s
  return ({ type := typeOf w, generated := g, nb_dims := n, identifier := a, datatype := b, scope := c, extent := d }, s)

/-- The loop of `osl_symbols_sread` (source/extensions/symbols.c:341-381). -/
def readLoop (E : Env D) (registry : Ifaces) : Nat → Str → Out (List (Symbol D) × Str)
  | 0, s => .ok ([], s)
  | n + 1, s => do
    let (a, s) ← readOne E registry s
    let (l, s) ← readLoop E registry n s
    return (a :: l, s)

/-- The part of `osl_symbols_sread` after the number of symbols (source/extensions/symbols.c:335-384).  With a negative number the
loop only ends when the string does, by an error of a reader: each turn moves the position. -/
def readSymbols (E : Env D) (registry : Ifaces) (n : Int) (s : Str) : Out (List (Symbol D) × Str) :=
  if n < 0 then readLoop E registry (s.length + 1) s >>= fun _ => .err else readLoop E registry n.toNat s

/-- `osl_symbols_sread` (source/extensions/symbols.c:317-385): the list (`[]` for NULL) and the position; `registry` is the default
registry. -/
def sread (E : Env D) (registry : Ifaces) : Option Str → Out (List (Symbol D) × Option Str)
  | none => .ok ([], none)
  | some s =>
    if s.length > MAX_STRING then .err
    else do
      let (n, s) ← Util.read_int s
      let (l, s) ← readSymbols E registry n s
      return (l, some s)

/-- `osl_symbols_add` (source/extensions/symbols.c:446-451). -/
def add (l m : List (Symbol D)) : List (Symbol D) := l ++ m

/-- One turn of the loop of `osl_symbols_nclone` (source/extensions/symbols.c:466-473). -/
def cloneOne (E : Env D) (s : Symbol D) : Out (Symbol D) := do
  let a ← GList.clone E s.identifier
  let b ← GList.clone E s.datatype
  let c ← GList.clone E s.scope
  let d ← GList.clone E s.extent
  return { type := s.type, generated := s.generated, nb_dims := s.nb_dims, identifier := a, datatype := b, scope := c, extent := d }

/-- The loop of `osl_symbols_nclone` (source/extensions/symbols.c:465-478); `i` nodes are copied. -/
def ncloneLoop (E : Env D) (n : Int) : Nat → List (Symbol D) → List (Symbol D) → Out (List (Symbol D))
  | _, [], acc => .ok acc
  | i, s :: l, acc =>
    if n = -1 ∨ (i : Int) < n then do
      let a ← cloneOne E s
      ncloneLoop E n (i + 1) l (add acc [a])
    else .ok acc

/-- `osl_symbols_nclone` (source/extensions/symbols.c:461-481). -/
def nclone (E : Env D) (l : List (Symbol D)) (n : Int) : Out (List (Symbol D)) := ncloneLoop E n 0 l []

/-- `osl_symbols_clone` (source/extensions/symbols.c:490-492). -/
def clone (E : Env D) (l : List (Symbol D)) : Out (List (Symbol D)) := nclone E l (-1)

/-- `if (a) .. return 1` nested in the tests of `osl_symbols_equal` (source/extensions/symbols.c:511-521). -/
def andThen (a b : Out Bool) : Out Bool := a >>= fun x => if x then b else .ok false

/-- `osl_symbols_equal` (source/extensions/symbols.c:502-523): the symbols after the first ones are not looked at. -/
def equal (E : Env D) : List (Symbol D) → List (Symbol D) → Out Bool
  | [], [] => .ok true
  | a :: _, b :: _ =>
    if a.type = b.type ∧ a.generated = b.generated ∧ a.nb_dims = b.nb_dims then
      andThen (GList.equal E a.identifier b.identifier) (andThen (GList.equal E a.datatype b.datatype)
        (andThen (GList.equal E a.scope b.scope) (GList.equal E a.extent b.extent)))
    else .ok false
  | _, _ => .ok false

/-- The interface (source/extensions/symbols.c:548-560); `registry` is the default registry. -/
def ops (E : Env D) (registry : Ifaces) : Ops (NE (Symbol D)) where
  sprint := fun l => sprint E (NE.elems l)
  sread := fun s => sread E registry s >>= fun p => .ok (NE.ofList p.1, p.2)
  clone := fun l => clone E (NE.elems l) >>= fun l => .ok (NE.ofList l)
  equal := fun a b => equal E (NE.elems a) (NE.elems b)

end Symbol
end Ext
end Osl
