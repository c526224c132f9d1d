import Verif.HeapReadList
/-!
# The readers of generics and symbols in memory (source/generic.c, source/extensions/symbols.c)
-/

namespace Osl.Mem

open Osl.Ext

/-- The value of a string, `none` for NULL. -/
def loadOpt (p : Ptr) : M (Option Str) :=
  if p = 0 then pure none
  else do
    let w ← loadChars p
    pure (some w)

/-- The new generic of `osl_generic_sread_one` and `osl_generic_read_one` (source/generic.c:273-281, 315-323), NULL when the interface is not known.  `sread`
are the functions `sread` of the interfaces; the content is not modified, it is given by its value. -/
def genReadData [Allocator] (sread : Nat → Option Str → M Ptr) (interface content : Ptr) : M Ptr :=
  if interface = 0 then pure 0
  else do
    let generic ← genMalloc
    let i ← ifaceNclone interface 1
    setField generic 0 i
    let f ← loadIface interface
    let s ← loadOpt content
    let d ← sread f.fns.sread s
    setField generic 1 d
    pure generic

/-- `osl_generic_sread_one` and `osl_generic_read_one` after an opening tag `w` (source/generic.c:270-285, 312-327). -/
def genReadOpen [Allocator] (sread : Nat → Option Str → M Ptr) (registry tag : Ptr) (w rest : Str) : M (Ptr × Str) := do
  let content ← hReadUptoflag rest (Util.endTag w)
  let interface ← ifaceLookup registry tag
  let generic ← genReadData sread interface content.1
  free content.1
  free tag
  pure (generic, content.2)

/-- `osl_generic_sread_one` and `osl_generic_read_one` after the tag (source/generic.c:265-285, 307-327).  The tag is not freed when it is empty or when it is a closing one
(source/generic.c:265-268, 307-310). -/
def genReadTagged [Allocator] (sread : Nat → Option Str → M Ptr) (registry tag : Ptr) (rest : Str) : M (Ptr × Str) := do
  let t ← loadOpt tag
  match t with
  | none => pure (0, rest)
  | some [] => pure (0, rest)
  | some (c :: w) => if c = '/' then pure (0, rest) else genReadOpen sread registry tag (c :: w) rest

/-- `osl_generic_sread_one` (source/generic.c:257-286). -/
def genSreadOne [Allocator] (sread : Nat → Option Str → M Ptr) (registry : Ptr) (s : Str) : M (Ptr × Str) := do
  let tag ← hReadTag s
  genReadTagged sread registry tag.1 tag.2

/-- `osl_generic_read_one` (source/generic.c:299-328). -/
def genFreadOne [Allocator] (sread : Nat → Option Str → M Ptr) (registry : Ptr) (s : Str) : M (Ptr × Str) := do
  let tag ← hFReadTag s
  genReadTagged sread registry tag.1 tag.2

/-- The loop of `osl_generic_sread` (source/generic.c:238-241); each turn moves the position, so it ends. -/
def genSreadLoop [Allocator] (sread : Nat → Option Str → M Ptr) (registry : Ptr) : Nat → Str → Ptr → M (Ptr × Str)
  | 0, _, _ => undef
  | _ + 1, [], list => pure (list, [])
  | n + 1, c :: s, list => do
    let new ← genSreadOne sread registry (c :: s)
    let list ← genAdd list new.1
    genSreadLoop sread registry n new.2 list

/-- `osl_generic_sread` (source/generic.c:234-244). -/
def genSread [Allocator] (sread : Nat → Option Str → M Ptr) (registry : Ptr) (s : Str) : M (Ptr × Str) := genSreadLoop sread registry (s.length + 1) s 0

/-- `osl_generic_read` (source/generic.c:339-349). -/
def genRead [Allocator] (sread : Nat → Option Str → M Ptr) (registry : Ptr) (file : Str) : M (Ptr × Str) := do
  let content ← hReadUptoflag file (Util.endTag "OpenScop".toList)
  let s ← loadChars content.1
  let list ← genSread sread registry s
  free content.1
  pure (list.1, content.2)

/-! ## Symbols -/

/-- One field of a symbol read by `osl_symbols_sread` (source/extensions/symbols.c:368-377). -/
def symReadField [Allocator] (sread : Nat → Option Str → M Ptr) (registry p : Ptr) (i : Nat) (s : Str) : M Str := do
  let g ← genSreadOne sread registry s
  setPtr p i g.1
  pure g.2

/-- One turn of the loop of `osl_symbols_sread` (source/extensions/symbols.c:341-381), without the allocation of the next node
(`fillAll`). -/
def symFill [Allocator] (sread : Nat → Option Str → M Ptr) (registry p : Ptr) (s : Int × Str) : M (Bool × Int × Str) := do
  let w ← hReadString s.2
  let v ← loadChars w.1
  setInt p 0 (Symbol.typeOf v)
  free w.1
  let g ← lift (Util.read_int w.2)
  setInt p 1 g.1
  let n ← lift (Util.read_int g.2)
  setInt p 2 n.1
  let s1 ← symReadField sread registry p 0 n.2
  let s2 ← symReadField sread registry p 1 s1
  let s3 ← symReadField sread registry p 2 s2
  let s4 ← symReadField sread registry p 3 s3
  pure (decide (s.1 - 1 ≠ 0), s.1 - 1, s4)

/-- `osl_symbols_sread` (source/extensions/symbols.c:335-384) after the number of symbols.  With a negative number the loop only ends by an error. -/
def symReadList [Allocator] (sread : Nat → Option Str → M Ptr) (n : Int) (s : Str) : M (Ptr × Str) :=
  if n = 0 then pure (0, s)
  else do
    let p ← symMalloc
    let registry ← ifaceDefault
    let r ← fillAll symNext symMalloc (symFill sread registry) (n.toNat + s.length + 1) p (n, s)
    ifaceFree registry
    pure (p, r.2)

/-- `osl_symbols_sread` (source/extensions/symbols.c:317-385). -/
def symSread [Allocator] (sread : Nat → Option Str → M Ptr) : Option Str → M (Ptr × Option Str)
  | none => pure (0, none)
  | some s =>
    if s.length > MAX_STRING then fail
    else do
      let n ← lift (Util.read_int s)
      let r ← symReadList sread n.1 n.2
      pure (r.1, some r.2)

end Osl.Mem
