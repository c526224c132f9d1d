import Verif.ExtBase
/-!
# Model of the extensions annotation and region

(source/extensions/annotation.c, region.c.)  Both hold texts, arrays of typed lines; the code of the texts is the same in
the two files.  Simplification: the lines are not NULL.  `size_t` has 64 bits.
-/

namespace Osl
namespace Ext

/-- `osl_annotation_text_t` and `osl_region_text_t` (include/osl/extensions/annotation.h:85-89, region.h:89-93): the types
and the lines. -/
abbrev Lines := List (Int × Str)

namespace Lines

/-- `osl_annotation_text_append` (source/extensions/annotation.c:84-104) and `osl_region_text_append`
(source/extensions/region.c:83-102). -/
def append (t : Lines) (type : Int) (line : Str) : Lines := t ++ [(type, line)]

/-- The loop of `osl_annotation_text_clone` (source/extensions/annotation.c:122-125) and `osl_region_text_clone`
(source/extensions/region.c:120-123). -/
def cloneLoop : Lines → Lines → Lines
  | dst, [] => dst
  | dst, (ty, l) :: src => cloneLoop (append dst ty (Util.strdup l)) src

/-- `osl_annotation_text_clone` (source/extensions/annotation.c:115-127), `osl_region_text_clone`
(source/extensions/region.c:114-125). -/
def clone (src : Lines) : Lines := cloneLoop [] src

/-- The loop of `osl_annotation_text_equal` (source/extensions/annotation.c:158-162), of `osl_region_text_equal`
(source/extensions/region.c:156-160), on texts of the same size. -/
def equalLoop : Lines → Lines → Bool
  | (t1, l1) :: a, (t2, l2) :: b => if t1 ≠ t2 ∨ l1 ≠ l2 then false else equalLoop a b
  | _, _ => true

/-- `osl_annotation_text_equal` (source/extensions/annotation.c:148-165), `osl_region_text_equal`
(source/extensions/region.c:146-163), on non NULL texts. -/
def equal (a b : Lines) : Bool := if a.length ≠ b.length then false else equalLoop a b

/-- One turn of the printing loop (source/extensions/annotation.c:232-235, region.c:274-277). -/
def linePieces (p : Int × Str) : Out (List Str) := do
  let a ← buf (showInt p.1 ++ " ".toList)
  let b ← buf (p.2 ++ "\n".toList)
  return [a, b]

/-- The macros `_osl_annotation_sprint_text` (source/extensions/annotation.c:223-237) and `_osl_region_sprint_text`
(source/extensions/region.c:265-279). -/
def pieces (name : Str) (t : Lines) : Out (List Str) := do
  let a ← buf ("# ".toList ++ name ++ " count \n".toList)
  let b ← buf (showInt (wrap 32 t.length) ++ "\n".toList)
  let c ← buf ("# ".toList ++ name ++ " lines (if any)\n".toList)
  let l ← Out.mapOut linePieces t
  return [a, b, c] ++ l.flatten

/-- The reading loop (source/extensions/annotation.c:263-267, region.c:317-321). -/
def readLoop : Nat → Str → Lines → Out (Lines × Str)
  | 0, s, acc => .ok (acc, s)
  | n + 1, s, acc => do
    let (ty, s) ← Util.read_int s
    let (l, s) ← Util.read_line s
    readLoop n s (append acc ty l)

/-- The conversion of an `int` to `size_t`. -/
def toSize (n : Int) : Nat := (if n < 0 then n + 2 ^ 64 else n).toNat

/-- The macros `..._sread_text` of `osl_annotation_sread` (source/extensions/annotation.c:260-268), `osl_region_sread`
(source/extensions/region.c:314-322), on an empty text. -/
def read (s : Str) : Out (Lines × Str) := do
  let (n, s) ← Util.read_int s
  readLoop (toSize n) s []

end Lines

/-- `osl_annotation_t` (include/osl/extensions/annotation.h:98-101). -/
structure Annotation where
  pre : Lines
  suf : Lines
deriving Repr, DecidableEq

namespace Annotation

/-- The line of `=` (source/extensions/annotation.c:220, region.c:254). -/
def rule : Str := "# ===========================================\n".toList

/-- `osl_annotation_sprint` (source/extensions/annotation.c:212-246): NULL is dereferenced. -/
def sprint : Option Annotation → Out (Option Str)
  | none => .ub
  | some a => do
    let p ← Lines.pieces "Prefix".toList a.pre
    let s ← Lines.pieces "Suffix".toList a.suf
    let r ← Util.emit ([rule] ++ p ++ s)
    return some r

/-- `osl_annotation_sread` (source/extensions/annotation.c:252-274): the test of line 253 is on the address of the string
pointer, so a NULL string is dereferenced. -/
def sread : Option Str → Out (Option Annotation × Option Str)
  | none => .ub
  | some s => do
    let (p, s) ← Lines.read s
    let (u, s) ← Lines.read s
    return (some { pre := p, suf := u }, some s)

/-- `osl_annotation_clone` (source/extensions/annotation.c:303-310). -/
def clone : Option Annotation → Out (Option Annotation)
  | none => .ub
  | some a => .ok (some { pre := Lines.clone a.pre, suf := Lines.clone a.suf })

/-- `osl_annotation_equal` (source/extensions/annotation.c:312-325). -/
def equal : Option Annotation → Option Annotation → Out Bool
  | none, none => .ok true
  | some a, some b => .ok (Lines.equal a.pre b.pre && Lines.equal a.suf b.suf)
  | _, _ => .ok false

/-- `osl_annotation_append_prefix` (source/extensions/annotation.c:167-170). -/
def append_prefix (a : Annotation) (ty : Int) (l : Str) : Annotation := { a with pre := Lines.append a.pre ty l }

/-- `osl_annotation_append_suffix` (source/extensions/annotation.c:172-175). -/
def append_suffix (a : Annotation) (ty : Int) (l : Str) : Annotation := { a with suf := Lines.append a.suf ty l }

/-- The interface (source/extensions/annotation.c:327-341). -/
def ops : Ops Annotation := { sprint := sprint, sread := sread, clone := clone, equal := equal }

end Annotation

/-- `osl_region_t` without its `next` pointer (include/osl/extensions/region.h:109-130). -/
structure Region where
  location : Int
  pre : Lines
  suf : Lines
  prelude : Lines
  postlude : Lines
deriving Repr, DecidableEq

namespace Region

/-- `osl_region_count` (source/extensions/region.c:440-446). -/
def count (l : List Region) : Nat := l.length

/-- One turn of the loop of `osl_region_sprint` (source/extensions/region.c:253-289); `step` counts the previous turns. -/
def pieces (count step : Nat) (r : Region) : Out (List Str) := do
  let a ← buf ("# Region number ".toList ++ showInt (wrap 32 (step + 1 : Nat)) ++ " / ".toList ++ showInt (wrap 32 count) ++ " \n".toList)
  let b ← buf (showInt r.location ++ "\n".toList)
  let p ← Lines.pieces "Prefix".toList r.pre
  let s ← Lines.pieces "Suffix".toList r.suf
  let e ← Lines.pieces "Prelude".toList r.prelude
  let o ← Lines.pieces "Postlude".toList r.postlude
  return [Annotation.rule, a, "# Location \n".toList, b] ++ p ++ s ++ e ++ o

/-- The loop of `osl_region_sprint` (source/extensions/region.c:253-289). -/
def piecesLoop (count : Nat) : Nat → List Region → Out (List Str)
  | _, [] => .ok []
  | step, r :: rs => do
    let a ← pieces count step r
    let b ← piecesLoop count (step + 1) rs
    return a ++ b

/-- `osl_region_sprint` (source/extensions/region.c:239-293). -/
def sprint (l : List Region) : Out (Option Str) := do
  let a ← buf ("# Number of regions\n".toList ++ showInt (wrap 32 (count l)) ++ "\n".toList)
  let b ← piecesLoop (count l) 0 l
  let r ← Util.emit ([a] ++ b)
  return some r

/-- One turn of the loop of `osl_region_sread` (source/extensions/region.c:312-327). -/
def readOne (s : Str) : Out (Region × Str) := do
  let (loc, s) ← Util.read_int s
  let (p, s) ← Lines.read s
  let (u, s) ← Lines.read s
  let (e, s) ← Lines.read s
  let (o, s) ← Lines.read s
  return ({ location := loc, pre := p, suf := u, prelude := e, postlude := o }, s)

/-- The loop of `osl_region_sread` (source/extensions/region.c:311-333). -/
def readLoop : Nat → Str → Out (List Region × Str)
  | 0, s => .ok ([], s)
  | n + 1, s => do
    let (r, s) ← readOne s
    let (l, s) ← readLoop n s
    return (r :: l, s)

/-- `osl_region_malloc` (source/extensions/region.c:342-359). -/
def malloc : Region := { location := 0, pre := [], suf := [], prelude := [], postlude := [] }

/-- The part of `osl_region_sread` after the number of regions (source/extensions/region.c:306-335): a negative number gives
one empty region. -/
def readRegions (n : Int) (s : Str) : Out (List Region × Str) :=
  if n = 0 then .ok ([], s) else if n < 0 then .ok ([malloc], s) else readLoop n.toNat s

/-- `osl_region_sread` (source/extensions/region.c:299-336); a NULL string is dereferenced, as for the annotations. -/
def sread : Option Str → Out (List Region × Option Str)
  | none => .ub
  | some s => do
    let (n, s) ← Util.read_int s
    let (l, s) ← readRegions n s
    return (l, some s)

/-- `osl_region_clone_one` (source/extensions/region.c:383-393). -/
def clone_one (r : Region) : Region :=
  { location := r.location, pre := Lines.clone r.pre, suf := Lines.clone r.suf, prelude := Lines.clone r.prelude, postlude := Lines.clone r.postlude }

/-- `osl_region_clone` (source/extensions/region.c:395-412). -/
def clone : List Region → List Region
  | [] => []
  | r :: rs => clone_one r :: clone rs

/-- `osl_region_equal_one` (source/extensions/region.c:414-429), on non NULL regions. -/
def equal_one (a b : Region) : Bool :=
  decide (a.location = b.location) && Lines.equal a.pre b.pre && Lines.equal a.suf b.suf && Lines.equal a.prelude b.prelude && Lines.equal a.postlude b.postlude

/-- `osl_region_equal` (source/extensions/region.c:431-438): two NULL lists are equal for `osl_region_equal_one`, and are then
dereferenced. -/
def equal : List Region → List Region → Out Bool
  | [], [] => .ub
  | a :: as, b :: bs => if equal_one a b then equal as bs else .ok false
  | _, _ => .ok false

/-- The interface (source/extensions/region.c:448-462). -/
def ops : Ops (NE Region) where
  sprint := fun l => sprint (NE.elems l)
  sread := fun s => sread s >>= fun p => .ok (NE.ofList p.1, p.2)
  clone := fun l => .ok (NE.ofList (clone (NE.elems l)))
  equal := fun a b => equal (NE.elems a) (NE.elems b)

end Region
end Ext
end Osl
