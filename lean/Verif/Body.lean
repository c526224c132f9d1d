import Verif.Strings
import Verif.Util
/-!
# Model of source/body.c

A pointer to a body is an `Option`.  `osl_body_idump` is in Verif/Dump.lean.
-/

namespace Osl

/-- `osl_body_t` (include/osl/body.h:78-82). -/
structure Body where
  iterators : Option Strings
  expression : Option Strings
deriving Repr, DecidableEq

namespace Body

/-- `osl_body_malloc` (source/body.c:278-286). -/
def malloc : Body := { iterators := none, expression := none }

/-- The iterators part of `osl_body_sprint` (source/body.c:202-208). -/
def iterPieces (iterators : Option Strings) : Out (List Str) :=
  if Strings.size iterators > 0 then do
    let s ← Strings.sprint iterators
    return ["# List of original iterators\n".toList, s]
  else .ok []

/-- `osl_body_sprint` (source/body.c:187-221). -/
def sprint (body : Option Body) : Out Str :=
  match body with
  | none => Util.emit ["# NULL body\n".toList]
  | some b => do
    let its ← iterPieces b.iterators
    let e ← Strings.sprint b.expression
    Util.emit (["# Number of original iterators\n".toList ++ showNat (Strings.size b.iterators) ++ "\n".toList] ++ its ++
      ["# Statement body expression\n".toList, e])

/-- The iterators part of `osl_body_sread` (source/body.c:251-255): the position may be after the end of the input,
`none`. -/
def readIters (n : Int) (s : Str) : Out (Option Strings × Option Str) :=
  if n > 0 then Strings.sread s else .ok (some Strings.malloc, some s)

/-- `osl_body_sread` (source/body.c:239-265): the input pointer itself is not NULL. -/
def sread (input : Str) : Out (Option Body × Str) := do
  let (n, s) ← Util.read_int input
  let (its, s) ← readIters n s
  match s with
  | none => .ub
  | some s => do
    let (e, s) ← Util.read_line s
    return (some { iterators := its, expression := some (Strings.encapsulate e) }, s)

/-- `osl_body_clone` (source/body.c:314-324). -/
def clone : Option Body → Option Body
  | none => none
  | some b => some { iterators := Strings.clone b.iterators, expression := Strings.clone b.expression }

/-- `osl_body_equal` (source/body.c:335-355). -/
def equal : Option Body → Option Body → Bool
  | none, none => true
  | some a, some b => if !Strings.equal a.iterators b.iterators then false else Strings.equal a.expression b.expression
  | _, _ => false

end Body
end Osl
