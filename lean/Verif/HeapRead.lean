import Verif.HeapExt
/-!
# The readers in memory (source/util.c, source/strings.c, source/body.c, source/extensions/*.c)

What the reading functions allocate, fill, link and free.  The text which is read is not modified by these functions: it is given
by its value, from the position on (`none` for the NULL pointer, or a position after the terminator), as in the other modules; so are the
local arrays of characters.  What is stored in the structures is always in freshly allocated blocks.
-/

namespace Osl.Mem

/-! ## Utilities -/

/-- `OSL_realloc` (include/osl/macros.h:158-162) of a string, to what its content `w` needs. -/
def reallocChars [Allocator] (p : Ptr) (w : Str) : M Ptr := do
  free p
  alloc (.chars w)

/-- `osl_util_read_string` (source/util.c:171-200), on a string: the buffer of OSL_MAX_STRING characters is allocated first. -/
def hReadString [Allocator] (s : Str) : M (Ptr × Str) := do
  let buf ← alloc (.chars [])
  let r ← lift (Util.read_string s)
  store buf (.chars r.1)
  let p ← reallocChars buf r.1
  pure (p, r.2)

/-- `osl_util_read_string` (source/util.c:171-200), on a file. -/
def hFReadString [Allocator] (s : Str) : M (Ptr × Str) := do
  let buf ← alloc (.chars [])
  let r ← lift (Util.fread_string s)
  store buf (.chars r.1)
  let p ← reallocChars buf r.1
  pure (p, r.2)

/-- `osl_util_read_line` (source/util.c:214-238), on a string. -/
def hReadLine [Allocator] (s : Str) : M (Ptr × Str) := do
  let buf ← alloc (.chars [])
  let r ← lift (Util.read_line s)
  store buf (.chars r.1)
  let p ← reallocChars buf r.1
  pure (p, r.2)

/-- The string of a tag (source/util.c:282-299), NULL at the end of the input (source/util.c:273-274). -/
def allocTag [Allocator] : Option Str → M Ptr
  | none => pure 0
  | some w => do
    let res ← alloc (.chars [])
    store res (.chars w)
    pure res

/-- `osl_util_read_tag` (source/util.c:254-300), on a string. -/
def hReadTag [Allocator] (s : Str) : M (Ptr × Str) := do
  let r ← lift (Util.read_tag s)
  let p ← allocTag r.1
  pure (p, r.2)

/-- `osl_util_read_tag` (source/util.c:254-300), on a file. -/
def hFReadTag [Allocator] (s : Str) : M (Ptr × Str) := do
  let r ← lift (Util.fread_tag s)
  let p ← allocTag r.1
  pure (p, r.2)

/-- The end of `osl_util_read_uptoflag` (source/util.c:345-355): the buffer is freed when the flag has not been found. -/
def uptoEnd [Allocator] (res : Ptr) : Option Str → M Ptr
  | none => do
    free res
    pure 0
  | some w => do
    store res (.chars w)
    reallocChars res w

/-- `osl_util_read_uptoflag` (source/util.c:315-356); the reallocations of the buffer while it is filled (source/util.c:339-342) are not modelled. -/
def hReadUptoflag [Allocator] (s flag : Str) : M (Ptr × Str) := do
  let res ← alloc (.chars [])
  let r ← lift (Util.read_uptoflag s flag)
  let p ← uptoEnd res r.1
  pure (p, r.2)

/-- The value of a string which is not NULL. -/
def loadChars (p : Ptr) : M Str := do
  let b ← load p
  lift (asChars b)

/-! ## Strings and bodies -/

/-- The reading loop of `osl_strings_sread` (source/strings.c:219-226), from the index `i` on: the final position. -/
def strReadLoop [Allocator] (arr : Ptr) : Nat → Nat → Str → M (Option Str)
  | 0, _, s => pure (some s)
  | n + 1, i, s =>
    if (s.takeWhile Strings.tokChar).length ≥ MAX_STRING then undef
    else do
      let d ← alloc (.chars (s.takeWhile Strings.tokChar))
      setField arr i d
      match s.dropWhile Strings.tokChar with
      | [] => if n = 0 then pure none else undef
      | c :: t => strReadLoop arr n (i + 1) (if c = '#' then c :: t else t)

/-- `osl_strings_sread` (source/strings.c:212-235), once the strings have been counted. -/
def strReadWords [Allocator] (nb : Nat) (s : Str) : M (Ptr × Option Str) :=
  if nb > 0 then do
    let arr ← allocPtrs (nb + 1)
    let pos ← strReadLoop arr nb 0 s
    let strings ← strMalloc
    let old ← getField strings 0
    free old
    setField strings 0 arr
    pure (strings, pos)
  else pure (0, some s)

/-- `osl_strings_sread` (source/strings.c:185-238). -/
def strSread [Allocator] (input : Str) : M (Ptr × Option Str) :=
  strReadWords (Strings.countLoop ((Util.sskip input).length + 1) (Util.sskip input) 0) (Util.sskip input)

/-- `osl_strings_read` (source/strings.c:249-257). -/
def strRead [Allocator] (file : Str) : M (Ptr × Str) :=
  match (Util.fskip file).1 with
  | none => undef
  | some line => do
    let r ← strSread line
    pure (r.1, (Util.fskip file).2)

/-- The iterators in `osl_body_sread` (source/body.c:251-255). -/
def bodyReadIters [Allocator] (n : Int) (s : Str) : M (Ptr × Option Str) :=
  if n > 0 then strSread s
  else do
    let p ← strMalloc
    pure (p, some s)

/-- The position where the reading goes on: none after the terminator. -/
def position : Option Str → Out Str
  | none => .ub
  | some s => .ok s

/-- `osl_body_sread` (source/body.c:239-265). -/
def bodySread [Allocator] (input : Str) : M (Ptr × Str) := do
  let body ← bodyMalloc
  let n ← lift (Util.read_int input)
  let its ← bodyReadIters n.1 n.2
  setField body 0 its.1
  let s ← lift (position its.2)
  let e ← hReadLine s
  let x ← strEncapsulate e.1
  setField body 1 x
  pure (body, e.2)

/-! ## Textual, comment, clay, null -/

/-- `osl_textual_sread` (source/extensions/textual.c:187-200). -/
def textualSread [Allocator] : Option Str → M (Ptr × Option Str)
  | none => pure (0, none)
  | some s => do
    let t ← stringMalloc
    let d ← alloc (.chars s)
    setField t 0 d
    pure (t, some [])

/-- `osl_comment_sread` (source/extensions/comment.c:172-191). -/
def commentSread [Allocator] : Option Str → M (Ptr × Option Str)
  | none => pure (0, none)
  | some s =>
    if s.length > MAX_STRING then fail
    else do
      let t ← stringMalloc
      let d ← alloc (.chars s)
      setField t 0 d
      pure (t, some s)

/-- `osl_clay_sread` (source/extensions/clay.c:171-197). -/
def claySread [Allocator] : Option Str → M (Ptr × Option Str)
  | none => pure (0, none)
  | some s =>
    if s.length > MAX_STRING then fail
    else do
      let t ← stringMalloc
      let d ← alloc (.chars (s.dropWhile (fun c => c == '\n')))
      setField t 0 d
      pure (t, some s)

/-- `osl_null_sread` (source/extensions/null.c:147-162). -/
def nullSread [Allocator] : Option Str → M (Ptr × Option Str)
  | none => pure (0, none)
  | some s => do
    let p ← nullMalloc
    pure (p, some s)

/-! ## Coordinates, scatnames -/

/-- `osl_coordinates_sread` (source/extensions/coordinates.c:197-221). -/
def coordSread [Allocator] : Option Str → M (Ptr × Option Str)
  | none => pure (0, none)
  | some s => do
    let p ← coordMalloc
    let name ← hReadLine s
    setPtr p 0 name.1
    let ls ← lift (Util.read_int name.2)
    setInt p 0 ls.1
    let cs ← lift (Util.read_int ls.2)
    setInt p 2 cs.1
    let le ← lift (Util.read_int cs.2)
    setInt p 1 le.1
    let ce ← lift (Util.read_int le.2)
    setInt p 3 ce.1
    let ind ← lift (Util.read_int ce.2)
    setInt p 4 ind.1
    pure (p, some ind.2)

/-- The structure of `osl_scatnames_sread` (source/extensions/scatnames.c:164-167). -/
def scatnamesBuild [Allocator] (names : Ptr) : M Ptr :=
  if names ≠ 0 then do
    let p ← scatnamesMalloc
    setField p 0 names
    pure p
  else pure 0

/-- `osl_scatnames_sread` (source/extensions/scatnames.c:153-170). -/
def scatnamesSread [Allocator] : Option Str → M (Ptr × Option Str)
  | none => pure (0, none)
  | some s => do
    let names ← strSread s
    let p ← scatnamesBuild names.1
    pure (p, names.2)

/-! ## Scatinfos, extbody, arrays -/

/-- A loop which reads integers in an array (source/extensions/scatinfos.c:248-249, 252-253, 256-257, loop.c:303-304), from the index `i` on:
the final position. -/
def intsReadLoop (a : Ptr) : Nat → Nat → Str → M Str
  | 0, _, s => pure s
  | n + 1, i, s => do
    let x ← lift (Util.read_int s)
    setInt a i x.1
    intsReadLoop a n (i + 1) x.2

/-- One of the arrays in `osl_scatinfos_sread` (source/extensions/scatinfos.c:247-249, 251-253, 255-257). -/
def scatinfosReadArray [Allocator] (p : Ptr) (k n : Nat) (s : Str) : M Str := do
  let a ← allocInts n
  setPtr p k a
  intsReadLoop a n 0 s

/-- The allocation of a negative number of elements fails (include/osl/macros.h:152-156). -/
def count (n : Int) : Out Nat := if n < 0 then .err else .ok n.toNat

/-- `osl_scatinfos_sread` (source/extensions/scatinfos.c:236-260). -/
def scatinfosSread [Allocator] : Option Str → M (Ptr × Option Str)
  | none => pure (0, none)
  | some s => do
    let p ← scatinfosMalloc
    let x ← lift (Util.read_int s)
    setInt p 0 x.1
    let n ← lift (count x.1)
    let s ← scatinfosReadArray p 0 n x.2
    let s ← scatinfosReadArray p 1 n s
    let s ← scatinfosReadArray p 2 n s
    pure (p, some s)

/-- The loop of `osl_extbody_sread` (source/extensions/extbody.c:220-223). -/
def extbodyReadLoop (a b : Ptr) : Nat → Nat → Str → M Str
  | 0, _, s => pure s
  | n + 1, i, s => do
    let x ← lift (Util.read_int s)
    setInt a i x.1
    let y ← lift (Util.read_int x.2)
    setInt b i y.1
    extbodyReadLoop a b n (i + 1) y.2

/-- `osl_extbody_sread` (source/extensions/extbody.c:196-229). -/
def extbodySread [Allocator] : Option Str → M (Ptr × Option Str)
  | none => undef
  | some s => do
    let x ← lift (Util.read_int s)
    let n ← lift (count x.1)
    let p ← extbodyMalloc
    let a ← allocInts n
    setPtr p 0 a
    let b ← allocInts n
    setPtr p 1 b
    setInt p 0 x.1
    let s ← extbodyReadLoop a b n 0 x.2
    let body ← bodySread s
    setPtr p 2 body.1
    pure (p, some body.2)

/-- The loop of `osl_arrays_sread` (source/extensions/arrays.c:210-216). -/
def arraysReadLoop [Allocator] (d a : Ptr) : Nat → Nat → Str → M Str
  | 0, _, s => pure s
  | n + 1, i, s => do
    let x ← lift (Util.read_int s)
    setInt d i x.1
    let w ← hReadString x.2
    setField a i w.1
    arraysReadLoop d a n (i + 1) w.2

/-- `osl_arrays_sread` (source/extensions/arrays.c:188-219). -/
def arraysSread [Allocator] : Option Str → M (Ptr × Option Str)
  | none => undef
  | some s => do
    let x ← lift (Util.read_int s)
    let n ← lift (count x.1)
    let p ← arraysMalloc
    let d ← allocInts n
    setPtr p 0 d
    let a ← allocPtrs n
    setPtr p 1 a
    setInt p 0 x.1
    let s ← arraysReadLoop d a n 0 x.2
    pure (p, some s)

end Osl.Mem
