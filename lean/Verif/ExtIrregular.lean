import Verif.ExtBase
/-!
# The irregular extension (source/extensions/irregular.c, include/osl/extensions/irregular.h)

Predicates (control predicates first, then exit predicates) and, for each statement, the numbers of its predicates.  The
extension is not part of the default registry (source/interface.c:329-352); the user registers it.

Simplifications: allocations of a non negative size succeed (`malloc(0)` is not NULL), allocations of a negative number of
elements fail (the size is converted to a huge `size_t`).  The C strings are values; the memory is not modelled here, except
for the bounds of the arrays.
-/

namespace Osl
namespace Ext

/-- One predicate: `nb_iterators[i]`, `iterators[i]` and `body[i]` of `struct osl_irregular`
(include/osl/extensions/irregular.h:86-94); the strings may be NULL.  `nb_iterators[i]` is the length of the list. -/
structure Pred where
  iters : List (Option Str)
  body : Option Str
deriving Repr, DecidableEq

/-- `struct osl_irregular` (include/osl/extensions/irregular.h:86-103).  `nb_statements` and `nb_predicates[i]` are the
lengths of the lists; the arrays `nb_iterators`, `iterators` and `body` have the length of `preds`. -/
structure Irregular where
  nbControl : Int
  nbExit : Int
  preds : List Pred
  stmts : List (List Int)
deriving Repr, DecidableEq

namespace Irregular

/-- Access to an array at an index of type `int`: undefined outside of the bounds. -/
def atI {α : Type} (l : List α) (i : Int) : Out α :=
  if i < 0 then .ub else match l[i.toNat]? with | some a => .ok a | none => .ub

/-- `osl_irregular_malloc` (source/extensions/irregular.c:343-357). -/
def malloc : Irregular := { nbControl := 0, nbExit := 0, preds := [], stmts := [] }

/-! ## Printing -/

/-- The buffer of `printf_in_buf`: its text and its size. -/
structure PBuf where
  str : Str
  size : Nat
deriving Repr, DecidableEq

/-- The loop of `printf_in_buf` for a text of length `n`, without arguments: the size is doubled until the text fits
(source/extensions/irregular.c:157-170). -/
def grow (n off : Nat) : Nat → Nat → Nat
  | 0, size => size
  | f + 1, size => if n < size - off then size else grow n off f (size * 2)

/-- `printf_in_buf` (source/extensions/irregular.c:149-172) of the text `t`.  When the text does not fit, the buffer grows
and `vsnprintf` is called again with the same `va_list`: undefined if the format has arguments (`args`), C11 7.16p3. -/
def printfInBuf (args : Bool) (t : Str) (b : PBuf) : Out PBuf :=
  if t.length < b.size - b.str.length then .ok { b with str := b.str ++ t }
  else if args then .ub
  else .ok { str := b.str ++ t, size := grow t.length b.str.length (t.length + b.str.length + 1) b.size }

/-- A sequence of calls to `printf_in_buf`. -/
def printAll : List (Bool × Str) → PBuf → Out PBuf
  | [], b => .ok b
  | p :: l, b => printfInBuf p.1 p.2 b >>= fun b => printAll l b

/-- `"%d "` (source/extensions/irregular.c:201, 204, 217, 229). -/
def numPiece (v : Int) : Bool × Str := (true, showInt v ++ " ".toList)

/-- A `"%s "` or the `"\n%s\n"` of a string which must not be NULL (source/extensions/irregular.c:220-223). -/
def strPiece (a : Str) (s : Option Str) (b : Str) : Out (Bool × Str) := do
  let s ← str s
  return (true, a ++ s ++ b)

/-- The pieces of the list of one statement (source/extensions/irregular.c:200-208). -/
def stmtPieces (l : List Int) : List (Bool × Str) := numPiece l.length :: (l.map numPiece ++ [(false, "\n".toList)])

/-- The pieces of one predicate (source/extensions/irregular.c:216-223 and 227-235). -/
def predPieces (p : Pred) : Out (List (Bool × Str)) := do
  let its ← Out.mapOut (fun s => strPiece [] s " ".toList) p.iters
  let b ← strPiece "\n".toList p.body "\n".toList
  return numPiece p.iters.length :: (its ++ [b])

/-- The loops over the predicates `lo`, ..., `lo + n - 1` (source/extensions/irregular.c:215-224 and 226-235). -/
def predLoop (l : List Pred) (lo n : Int) : Out (List (List (Bool × Str))) :=
  Out.mapOut (fun k : Nat => atI l (lo + k) >>= predPieces) (List.range n.toNat)

/-- The calls to `printf_in_buf` of the printer (source/extensions/irregular.c:196-235). -/
def pieces (x : Irregular) : Out (List (Bool × Str)) := do
  let cs ← predLoop x.preds 0 x.nbControl
  let es ← predLoop x.preds x.nbControl x.nbExit
  return (true, "\n".toList ++ showInt x.stmts.length ++ "\n".toList) ::
    ((x.stmts.map stmtPieces).flatten ++ ((true, showInt x.nbControl ++ "\n".toList) :: (true, showInt x.nbExit ++ "\n".toList) ::
      (cs.flatten ++ es.flatten)))

/-- `osl_irregular_sprint` (source/extensions/irregular.c:182-247). -/
def sprint : Option Irregular → Out (Option Str)
  | none => .ok none
  | some x => do
    let ps ← pieces x
    let b ← printAll ps { str := [], size := MAX_STRING }
    let s ← Util.emit ["<irregular>".toList, b.str, "</irregular>\n".toList]
    return some s

/-! ## Reading -/

/-- C `strtok` (C11 7.24.5.8): the token, or NULL, and what remains of the string. -/
def strtok (d : Char → Bool) (s : Str) : Option Str × Str :=
  match s.dropWhile d with
  | [] => (none, [])
  | t => (some (t.takeWhile fun c => !d c), (t.dropWhile fun c => !d c).drop 1)

/-- The delimiters `" \n"`. -/
def blank (c : Char) : Bool := c == ' ' || c == '\n'

/-- The delimiter `"\n"`. -/
def eol (c : Char) : Bool := c == '\n'

/-- C `atoi` (C11 7.22.1.2): 0 when there is no number, undefined for NULL and when the number does not fit. -/
def atoi : Option Str → Out Int
  | none => .ub
  | some s => match scanInt s with
    | .val v _ => if fits 32 v then .ok v else .ub
    | _ => .ok 0

/-- `tok = strtok(NULL, " \n"); x = atoi(tok);`. -/
def readNum (s : Str) : Out (Int × Str) := do
  let v ← atoi (strtok blank s).1
  return (v, (strtok blank s).2)

/-- The numbers of one statement (source/extensions/irregular.c:298-301). -/
def readNums : Nat → Str → Out (List Int × Str)
  | 0, s => .ok ([], s)
  | n + 1, s => do
    let (v, s) ← readNum s
    let (l, s) ← readNums n s
    return (v :: l, s)

/-- An allocation of `n` elements followed by a loop over them. -/
def alloc (n : Int) : Out Nat := if n < 0 then .err else .ok n.toNat

/-- The statements (source/extensions/irregular.c:292-302). -/
def readStmts : Nat → Str → Out (List (List Int) × Str)
  | 0, s => .ok ([], s)
  | n + 1, s => do
    let (k, s) ← readNum s
    let k ← alloc k
    let (l, s) ← readNums k s
    let (ls, s) ← readStmts n s
    return (l :: ls, s)

/-- `OSL_strdup(x, strtok(NULL, d))` (source/extensions/irregular.c:323, 325): the macro (include/osl/macros.h:164-173)
evaluates its argument twice when it is not NULL, so the string which is copied is the next token; `osl_util_strdup` of
NULL is undefined. -/
def dupTok (d : Char → Bool) (s : Str) : Out (Option Str × Str) :=
  match strtok d s with
  | (none, s) => .ok (none, s)
  | (some _, s) => match strtok d s with
    | (none, _) => .ub
    | (some t, s) => .ok (some (Util.strdup t), s)

/-- The iterators of one predicate (source/extensions/irregular.c:322-323). -/
def readIters : Nat → Str → Out (List (Option Str) × Str)
  | 0, s => .ok ([], s)
  | n + 1, s => do
    let (t, s) ← dupTok blank s
    let (l, s) ← readIters n s
    return (t :: l, s)

/-- The predicates (source/extensions/irregular.c:314-326). -/
def readPreds : Nat → Str → Out (List Pred × Str)
  | 0, s => .ok ([], s)
  | n + 1, s => do
    let (k, s) ← readNum s
    let k ← alloc k
    let (its, s) ← readIters k s
    let (b, s) ← dupTok eol s
    let (ps, s) ← readPreds n s
    return ({ iters := its, body := b } :: ps, s)

/-- The sum of two `int`s: undefined when it does not fit. -/
def addI (a b : Int) : Out Int := if fits 32 (a + b) then .ok (a + b) else .ub

/-- `osl_irregular_sread` (source/extensions/irregular.c:261-329).  The position of the caller is not moved, but `strtok`
ends its string after the first token. -/
def sread : Option Str → Out (Option Irregular × Option Str)
  | none => .ok (none, none)
  | some s =>
    if s.length > MAX_STRING then .err else do
      let (n, s1) ← readNum s
      let n ← alloc n
      let (stmts, s2) ← readStmts n s1
      let (c, s3) ← readNum s2
      let (e, s4) ← readNum s3
      let t ← addI c e
      let t ← alloc t
      let (preds, _) ← readPreds t s4
      return (some { nbControl := c, nbExit := e, preds := preds, stmts := stmts },
        some (s.takeWhile blank ++ (s.dropWhile blank).takeWhile fun c => !blank c))

/-! ## Copies -/

/-- A write in an array. -/
def slotWrite {α : Type} (slots : List α) (j : Nat) (v : α) : Out (List α) :=
  if j < slots.length then .ok (slots.set j v) else .ub

/-- The writes `copy->iterators[i][j] = ...` for the successive `j` (source/extensions/irregular.c:460-461). -/
def slotsWrite : List (Option Str) → Nat → List (Option Str) → Out (List (Option Str))
  | slots, _, [] => .ok slots
  | slots, j, s :: l => slotWrite slots j (strdup s) >>= fun slots => slotsWrite slots (j + 1) l

/-- The copy of one predicate by `osl_irregular_clone` (source/extensions/irregular.c:453-463): line 462 writes the body in
the array of the iterators, after its end, instead of `body[i]`. -/
def clonePred (p : Pred) : Out Pred := do
  let slots ← slotsWrite (List.replicate p.iters.length none) 0 p.iters
  let slots ← slotWrite slots p.iters.length (strdup p.body)
  return { iters := slots, body := none }

/-- `osl_irregular_clone` (source/extensions/irregular.c:405-466). -/
def clone : Option Irregular → Out (Option Irregular)
  | none => .ok none
  | some x => do
    let t ← addI x.nbControl x.nbExit
    let t ← alloc t
    let ps ← Out.mapOut (fun k : Nat => atI x.preds k >>= clonePred) (List.range t)
    return some { nbControl := x.nbControl, nbExit := x.nbExit, preds := ps, stmts := x.stmts }

/-- The copy of one predicate by the functions which add something (source/extensions/irregular.c:532-543, 556-567,
609-620, 674-685). -/
def copyPred (p : Pred) : Pred := { iters := p.iters.map strdup, body := strdup p.body }

/-- The copies of the predicates `lo`, ..., `lo + n - 1`. -/
def copyPreds (l : List Pred) (lo n : Int) : Out (List Pred) :=
  Out.mapOut (fun k : Nat => atI l (lo + k) >>= fun p => .ok (copyPred p)) (List.range n.toNat)

/-- `osl_irregular_add_control` (source/extensions/irregular.c:512-587). -/
def addControl (x : Irregular) (iters : List (Option Str)) (body : Option Str) : Out Irregular := do
  let c ← addI x.nbControl 1
  let t ← addI c x.nbExit
  let t ← alloc t
  let cs ← copyPreds x.preds 0 x.nbControl
  let es ← copyPreds x.preds x.nbControl (t - c)
  return { nbControl := c, nbExit := x.nbExit, preds := cs ++ copyPred ⟨iters, body⟩ :: es, stmts := x.stmts }

/-- `osl_irregular_add_exit` (source/extensions/irregular.c:589-652). -/
def addExit (x : Irregular) (iters : List (Option Str)) (body : Option Str) : Out Irregular := do
  let e ← addI x.nbExit 1
  let t ← addI x.nbControl e
  let t ← alloc t
  let ps ← copyPreds x.preds 0 (t - 1)
  return { nbControl := x.nbControl, nbExit := e, preds := ps ++ [copyPred ⟨iters, body⟩], stmts := x.stmts }

/-- `osl_irregular_add_predicates` (source/extensions/irregular.c:654-716). -/
def addPredicates (x : Irregular) (l : List Int) : Out Irregular := do
  let _ ← addI x.stmts.length 1
  let t ← addI x.nbControl x.nbExit
  let t ← alloc t
  let ps ← copyPreds x.preds 0 t
  return { nbControl := x.nbControl, nbExit := x.nbExit, preds := ps, stmts := x.stmts ++ [l] }

/-! ## Equality -/

/-- The loop over the statements (source/extensions/irregular.c:489-494): only the numbers of predicates are compared. -/
def equalStmts : List (List Int) → List (List Int) → Bool
  | a :: l, b :: m => if a.length ≠ b.length then false else equalStmts l m
  | _, _ => true

/-- `strcmp(a, b)` on strings which must not be NULL; only the sign of the result is known, see C11 7.24.4.2. -/
def strCmp (cmp : Str → Str → Int) (a b : Option Str) : Out Int := do
  let a ← str a
  let b ← str b
  return cmp a b

/-- The loop over the iterators of a predicate (source/extensions/irregular.c:502-505), with as many steps as the first
predicate has iterators; the index is outside of the second array when it is shorter. -/
def equalIters (cmp : Str → Str → Int) : List (Option Str) → List (Option Str) → Out Bool
  | [], _ => .ok true
  | _ :: _, [] => .ub
  | a :: l, b :: m => do
    let v ← strCmp cmp a b
    if v ≠ 0 then return false else equalIters cmp l m

/-- The loop over the predicates (source/extensions/irregular.c:498-507): the difference of the numbers of iterators is
added to the result of `strcmp`.  (Simplification: the sum does not overflow.) -/
def equalPreds (cmp : Str → Str → Int) : Nat → List Pred → List Pred → Out Bool
  | 0, _, _ => .ok true
  | n + 1, p :: ps, q :: qs => do
    let v ← strCmp cmp p.body q.body
    if (if p.iters.length ≠ q.iters.length then 1 else 0) + v ≠ 0 then return false else do
      let b ← equalIters cmp p.iters q.iters
      if b then equalPreds cmp n ps qs else return false
  | _ + 1, _, _ => .ub

/-- `osl_irregular_equal` (source/extensions/irregular.c:476-510). -/
def equal (cmp : Str → Str → Int) : Option Irregular → Option Irregular → Out Bool
  | none, none => .ok true
  | none, some _ => .ok false
  | some _, none => .ok false
  | some x, some y =>
    if x.stmts.length ≠ y.stmts.length ∨ x.nbControl ≠ y.nbControl ∨ x.nbExit ≠ y.nbExit then .ok false
    else if equalStmts x.stmts y.stmts = false then .ok false
    else equalPreds cmp (x.nbControl + x.nbExit).toNat x.preds y.preds

/-- The functions of the extension (source/extensions/irregular.c:724-737). -/
def ops (cmp : Str → Str → Int) : Ops Irregular := { sprint := sprint, sread := sread, clone := clone, equal := equal cmp }

end Irregular
end Ext
end Osl
