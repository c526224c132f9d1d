import Verif.HeapReadRel
/-!
# The readers in memory: texts, and the extensions which are linked lists (source/extensions/*.c)
-/

namespace Osl.Mem

open Osl.Ext

/-! ## Texts, annotations -/

/-- The loop of the macros `..._sread_text` (source/extensions/annotation.c:263-267, region.c:317-321), for the text number `k` of the structure `p`. -/
def textReadLoop [Allocator] (p : Ptr) (k : Nat) : Nat → Str → M Str
  | 0, s => pure s
  | n + 1, s => do
    let ty ← lift (Util.read_int s)
    let l ← hReadLine ty.2
    appendText p k ty.1 l.1
    textReadLoop p k n l.2

/-- The macros `..._sread_text` (source/extensions/annotation.c:260-268, region.c:314-322). -/
def textRead [Allocator] (p : Ptr) (k : Nat) (s : Str) : M Str := do
  let n ← lift (Util.read_int s)
  textReadLoop p k (Lines.toSize n.1) n.2

/-- `osl_annotation_sread` (source/extensions/annotation.c:252-274): a NULL string is dereferenced. -/
def annSread [Allocator] : Option Str → M (Ptr × Option Str)
  | none => undef
  | some s => do
    let p ← annMalloc
    let s ← textRead p 0 s
    let s ← textRead p 1 s
    pure (p, some s)

/-! ## Lists which are filled in place -/

/-- The loops which fill a structure, allocate the next one while `fill` says that there is one, and go on with it (source/extensions/region.c:311-333,
loop.c:283-313, pluto_unroll.c:227-239, symbols.c:341-381).  The fuel bounds the number of turns. -/
def fillAll {σ : Type} (N : Next) (malloc : M Ptr) (fill : Ptr → σ → M (Bool × σ)) : Nat → Ptr → σ → M σ
  | 0, _, _ => undef
  | k + 1, p, s => do
    let r ← fill p s
    if r.1 then do
      let q ← malloc
      N.set p q
      fillAll N malloc fill k q r.2
    else pure r.2

/-! ## Regions -/

/-- One turn of the loop of `osl_region_sread` (source/extensions/region.c:312-332), with the number of the regions to be read. -/
def regionFill [Allocator] (p : Ptr) (s : Nat × Str) : M (Bool × Nat × Str) := do
  let loc ← lift (Util.read_int s.2)
  setInt p 4 loc.1
  let t ← textRead p 0 loc.2
  let t ← textRead p 1 t
  let t ← textRead p 2 t
  let t ← textRead p 3 t
  pure (decide (1 < s.1), s.1 - 1, t)

/-- `osl_region_sread` (source/extensions/region.c:306-335) after the number of regions: with a negative number the loop makes no turn. -/
def regionReadList [Allocator] (n : Int) (s : Str) : M (Ptr × Str) :=
  if n = 0 then pure (0, s)
  else do
    let p ← regionMalloc
    if 0 < n then do
      let r ← fillAll regionNext regionMalloc regionFill n.toNat p (n.toNat, s)
      pure (p, r.2)
    else pure (p, s)

/-- `osl_region_sread` (source/extensions/region.c:299-336): a NULL string is dereferenced. -/
def regionSread [Allocator] : Option Str → M (Ptr × Option Str)
  | none => undef
  | some s => do
    let n ← lift (Util.read_int s)
    let r ← regionReadList n.1 n.2
    pure (r.1, some r.2)

/-! ## Loops -/

/-- A line stored in the field `i`, which is freed when it is `(null)` (source/extensions/loop.c:291-295, 301-305). -/
def loopLine [Allocator] (p : Ptr) (i : Nat) (s : Str) : M Str := do
  let l ← hReadLine s
  setPtr p i l.1
  let w ← loadChars l.1
  if w = "(null)".toList then do
    free l.1
    setPtr p i 0
    pure l.2
  else pure l.2

/-- The user string (source/extensions/loop.c:299-306). -/
def loopUser [Allocator] (p : Ptr) (d : Int) (s : Str) : M Str := if Loop.isUser d then loopLine p 3 s else pure s

/-- One turn of the loop of `osl_loop_sread` (source/extensions/loop.c:284-312), with the number of the loops to be read. -/
def loopFill [Allocator] (p : Ptr) (s : Int × Str) : M (Bool × Int × Str) := do
  let it ← hReadString s.2
  setPtr p 0 it.1
  let n ← lift (Util.read_int it.2)
  setInt p 0 n.1
  let k ← lift (count n.1)
  let a ← allocInts k
  setPtr p 1 a
  let t ← intsReadLoop a k 0 n.2
  let t ← loopLine p 2 t
  let d ← lift (Util.read_int t)
  setInt p 1 d.1
  let t ← loopUser p d.1 d.2
  pure (decide (s.1 - 1 ≠ 0), s.1 - 1, t)

/-- `osl_loop_sread` (source/extensions/loop.c:275-315) after the number of loops. -/
def loopReadList [Allocator] (n : Int) (s : Str) : M (Ptr × Str) :=
  if n = 0 then pure (0, s)
  else do
    let p ← loopMalloc
    let r ← fillAll loopNext loopMalloc loopFill (n.natAbs + s.length) p (n, s)
    pure (p, r.2)

/-- `osl_loop_sread` (source/extensions/loop.c:264-316): a NULL string is dereferenced. -/
def loopSread [Allocator] : Option Str → M (Ptr × Option Str)
  | none => undef
  | some s => do
    let n ← lift (Util.read_int s)
    let r ← loopReadList n.1 n.2
    pure (r.1, some r.2)

/-! ## Unrollings -/

/-- One turn of the loop of `osl_pluto_unroll_sread` (source/extensions/pluto_unroll.c:228-238). -/
def unrollReadFill [Allocator] (p : Ptr) (s : Str) : M (Bool × Str) := do
  let l ← hReadLine s
  setPtr p 0 l.1
  let j ← lift (Util.read_int l.2)
  setInt p 0 (Unroll.ofBool (decide (j.1 ≠ 0)))
  let f ← lift (Util.read_int j.2)
  setInt p 1 (f.1 % 2 ^ 32)
  let n ← lift (Util.read_int f.2)
  pure (decide (n.1 = 1), n.2)

/-- `osl_pluto_unroll_sread` (source/extensions/pluto_unroll.c:220-242) after the first number. -/
def unrollReadList [Allocator] (n : Int) (s : Str) : M (Ptr × Str) :=
  if n = 1 then do
    let p ← unrollMalloc
    let r ← fillAll unrollNext unrollMalloc unrollReadFill (s.length + 1) p s
    pure (p, r)
  else pure (0, s)

/-- `osl_pluto_unroll_sread` (source/extensions/pluto_unroll.c:220-242): a NULL string is dereferenced. -/
def unrollSread [Allocator] : Option Str → M (Ptr × Option Str)
  | none => undef
  | some s => do
    let n ← lift (Util.read_int s)
    let r ← unrollReadList n.1 n.2
    pure (r.1, some r.2)

/-! ## Dependences -/

/-- The dimension information in the structure (source/extensions/dependence.c:382-390). -/
def depSetDims (p : Ptr) : Nat → List Int → M Unit
  | _, [] => pure ()
  | i, v :: l => do
    setInt p i v
    depSetDims p (i + 1) l

/-- `osl_dependence_read_one_dep` (source/extensions/dependence.c:335-401). -/
def depReadOne [Allocator] (c : Cfg) (prec : Int) (s : Str) : M (Ptr × Option Str) := do
  let p ← depMalloc
  let w ← hReadString s
  let b ← loadChars w.1
  setInt p 5 (Dep.typeOf b)
  free w.1
  let ls ← lift (Util.read_int w.2)
  setInt p 0 ls.1
  let lt ← lift (Util.read_int ls.2)
  setInt p 1 lt.1
  let de ← lift (Util.read_int lt.2)
  setInt p 4 de.1
  let rs ← lift (Util.read_int de.2)
  setInt p 2 rs.1
  let rt ← lift (Util.read_int rs.2)
  setInt p 3 rt.1
  let ds ← lift (Dep.readDims rt.2)
  depSetDims p 6 ds.1
  let r ← relPsread c prec ds.2
  setPtr p 0 r.1
  pure (p, r.2)

/-- One turn of the loop of `osl_dependence_psread` (source/extensions/dependence.c:431), from a position. -/
def depReadAt [Allocator] (c : Cfg) (prec : Int) (pos : Option Str) : M (Ptr × Option Str) := do
  let s ← lift (position pos)
  depReadOne c prec s

/-- `osl_dependence_psread` (source/extensions/dependence.c:416-441). -/
def depPsread [Allocator] (c : Cfg) (prec : Int) : Option Str → M (Ptr × Option Str)
  | none => pure (0, none)
  | some s => do
    let n ← lift (Util.read_int s)
    readCount depNext (depReadAt c prec) n.1.toNat 0 0 (some n.2)

end Osl.Mem
