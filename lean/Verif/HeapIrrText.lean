import Verif.HeapIrr
/-!
# The text of the irregular extension in memory (source/extensions/irregular.c)

The buffer of `printf_in_buf` is a block with the text written up to `*offset`, and its size.  The rest of the string which `strtok` keeps between two calls is a value; the
string itself is cut after the first token, where the first call to `strtok` writes a NUL.
-/

namespace Osl.Mem

open Osl.Ext

/-! ## Printing -/

/-- `printf_in_buf` (source/extensions/irregular.c:149-172) of the text `t`; `args` tells whether the format has arguments. -/
def pput [Allocator] (args : Bool) (t : Str) (b : StrBuf) : M StrBuf := do
  let d ← loadChars b.ptr
  let r ← lift (Irregular.printfInBuf args t ⟨d, b.hwm⟩)
  if r.size = b.hwm then do
    store b.ptr (.chars r.str)
    pure b
  else do
    free b.ptr
    let p ← alloc (.chars r.str)
    pure ⟨p, r.size⟩

/-- One number of the list of the statement number `i` (source/extensions/irregular.c:203-206). -/
def irrPutNum [Allocator] (pr : Ptr) (i j : Int) (b : StrBuf) : M StrBuf := do
  let s ← slotPtr pr i
  let v ← slotInt s j
  pput true (showInt v ++ " ".toList) b

/-- The list of the statement number `i` (source/extensions/irregular.c:200-208). -/
def irrPutStmt [Allocator] (np pr : Ptr) (i : Int) (b : StrBuf) : M StrBuf := do
  let n ← slotInt np i
  let b1 ← pput true (showInt n ++ " ".toList) b
  let b2 ← forS 0 n (irrPutNum pr i) b1
  pput false "\n".toList b2

/-- A string of a table between two texts (source/extensions/irregular.c:219-223, 230-234). -/
def putSlot [Allocator] (a : Str) (q : Ptr) (i : Int) (z : Str) (b : StrBuf) : M StrBuf := do
  let w ← slotPtr q i
  let t ← loadChars w
  pput true (a ++ t ++ z) b

/-- One iterator of the predicate number `i` (source/extensions/irregular.c:218-220, 229-231). -/
def irrPutIter [Allocator] (it : Ptr) (i j : Int) (b : StrBuf) : M StrBuf := do
  let s ← slotPtr it i
  putSlot [] s j " ".toList b

/-- The predicate number `i` (source/extensions/irregular.c:216-223, 227-234). -/
def irrPutPred [Allocator] (o : Ptr × Ptr × Ptr) (i : Int) (b : StrBuf) : M StrBuf := do
  let n ← slotInt o.1 i
  let b1 ← pput true (showInt n ++ " ".toList) b
  let b2 ← forS 0 n (irrPutIter o.2.1 i) b1
  putSlot "\n".toList o.2.2 i "\n".toList b2

/-- One turn of the loop on the exit predicates (source/extensions/irregular.c:226-235). -/
def irrPutExit [Allocator] (o : Ptr × Ptr × Ptr) (c i : Int) (b : StrBuf) : M StrBuf := do
  let k ← addInt c i
  irrPutPred o k b

/-- The content, printed in a new buffer (source/extensions/irregular.c:191-235). -/
def irrPutAll [Allocator] (p : Ptr) : M StrBuf := do
  let d ← bufNew
  let s ← getInt p 2
  let d1 ← pput true ("\n".toList ++ showInt s ++ "\n".toList) d
  let np ← getPtr p 3
  let pr ← getPtr p 4
  let d2 ← forS 0 s (irrPutStmt np pr) d1
  let c ← getInt p 0
  let d3 ← pput true (showInt c ++ "\n".toList) d2
  let e ← getInt p 1
  let d4 ← pput true (showInt e ++ "\n".toList) d3
  let o ← irrPreds p
  let d5 ← forS 0 c (irrPutPred o) d4
  forS 0 e (irrPutExit o c) d5

/-- `osl_irregular_sprint` (source/extensions/irregular.c:182-247). -/
def irrSprint [Allocator] (p : Ptr) : M Ptr :=
  if p ≠ 0 then do
    let b ← bufNew
    let b1 ← bufCat b "<irregular>".toList
    let d ← irrPutAll p
    let t ← loadChars d.ptr
    let b2 ← bufCat b1 t
    let b3 ← bufCat b2 "</irregular>\n".toList
    let q ← bufDone b3
    free d.ptr
    pure q
  else pure 0

/-! ## Reading -/

/-- One number of a statement (source/extensions/irregular.c:298-301), from the rest `s` of the string: the new rest. -/
def irrReadNum (a : Ptr) (j : Int) (s : Str) : M Str := do
  let x ← lift (Irregular.readNum s)
  slotPut a j x.1
  pure x.2

/-- One statement (source/extensions/irregular.c:292-302). -/
def irrReadStmt [Allocator] (np pr : Ptr) (i : Int) (s : Str) : M Str := do
  let x ← lift (Irregular.readNum s)
  slotPut np i x.1
  let a ← mallocInts x.1
  slotSet pr i a
  forS 0 x.1 (irrReadNum a) x.2

/-- The string which `OSL_strdup` (include/osl/macros.h:164-173) makes of a token. -/
def newStr [Allocator] : Option Str → M Ptr
  | none => pure 0
  | some t => alloc (.chars t)

/-- `OSL_strdup(a[j], strtok(NULL, d))` (source/extensions/irregular.c:323, 325): the new rest. -/
def irrReadStr [Allocator] (d : Char → Bool) (a : Ptr) (j : Int) (s : Str) : M Str := do
  let x ← lift (Irregular.dupTok d s)
  let w ← newStr x.1
  slotSet a j w
  pure x.2

/-- One predicate (source/extensions/irregular.c:314-326). -/
def irrReadPred [Allocator] (d : Ptr × Ptr × Ptr) (i : Int) (s : Str) : M Str := do
  let x ← lift (Irregular.readNum s)
  slotPut d.1 i x.1
  let a ← mallocPtrs x.1
  slotSet d.2.1 i a
  let s' ← forS 0 x.1 (irrReadStr Irregular.blank a) x.2
  irrReadStr Irregular.eol d.2.2 i s'

/-- The statements (source/extensions/irregular.c:286-302). -/
def irrReadStmts [Allocator] (r : Ptr) (n : Int) (s : Str) : M Str := do
  let pr ← mallocPtrs n
  setPtr r 4 pr
  let np ← mallocInts n
  setPtr r 3 np
  forS 0 n (irrReadStmt np pr) s

/-- The predicates (source/extensions/irregular.c:303-326). -/
def irrReadPreds [Allocator] (r : Ptr) (s : Str) : M Unit := do
  let x ← lift (Irregular.readNum s)
  setInt r 0 x.1
  let y ← lift (Irregular.readNum x.2)
  setInt r 1 y.1
  let t ← addInt x.1 y.1
  let d ← irrArrays r t
  let _ ← forS 0 t (irrReadPred d) y.2
  pure ()

/-- The string after the first call to `strtok`. -/
def firstTok (s : Str) : Str := s.takeWhile Irregular.blank ++ (s.dropWhile Irregular.blank).takeWhile fun c => !Irregular.blank c

/-- `osl_irregular_sread` (source/extensions/irregular.c:261-329), on the string `content`. -/
def irrSread [Allocator] (content : Ptr) : M Ptr :=
  if content = 0 then pure 0
  else do
    let s ← loadChars content
    if s.length > MAX_STRING then fail
    else do
      let r ← irrMalloc
      let x ← lift (Irregular.readNum s)
      store content (.chars (firstTok s))
      setInt r 2 x.1
      let s' ← irrReadStmts r x.1 x.2
      irrReadPreds r s'
      pure r

end Osl.Mem
