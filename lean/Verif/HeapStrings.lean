import Verif.HeapListProps
import Verif.Strings
/-!
# Strings and names in memory (source/strings.c, source/names.c)

An `osl_strings_t` (include/osl/strings.h:79-81) is a structure with one pointer, to a NULL-terminated array of pointers to
C strings; an `osl_names_t` (include/osl/names.h:74-80) is a structure of five pointers.  The pointers of an array which has just
been allocated and not yet been written are NULL in the model.
-/

namespace Osl.Mem

def asChars : Block → Out Str
  | .chars s => .ok s
  | _ => .ub

/-- `OSL_strdup` (include/osl/macros.h:164-173): a copy of a C string, NULL for NULL. -/
def hStrdup [Allocator] (s : Ptr) : M Ptr :=
  if s ≠ 0 then do
    let b ← load s
    let w ← lift (asChars b)
    alloc (.chars w)
  else pure 0

/-- `OSL_realloc` (include/osl/macros.h:158-162) of an array of pointers, to `n` elements. -/
def reallocPtrs [Allocator] (p : Ptr) (n : Nat) : M Ptr :=
  if p = 0 then alloc (.ptrs (List.replicate n 0))
  else do
    let l ← loadPtrs p
    free p
    alloc (.ptrs (l.take n ++ List.replicate (n - l.length) 0))

/-- `osl_strings_malloc` (source/strings.c:271-279). -/
def strMalloc [Allocator] : M Ptr := do
  let a ← alloc (.ptrs [0])
  alloc (.ptrs [a])

/-- The loop of `osl_strings_free` (source/strings.c:292-295): from the index `i` on; an access after the end of the array is undefined. -/
def strFreeLoop (arr : Ptr) : Nat → Nat → M Unit
  | 0, _ => undef
  | f + 1, i => do
    let s ← getField arr i
    if s = 0 then pure ()
    else do
      free s
      strFreeLoop arr f (i + 1)

/-- The deallocation of the array (source/strings.c:290-297). -/
def strFreeArray (arr : Ptr) : M Unit :=
  if arr ≠ 0 then do
    let l ← loadPtrs arr
    strFreeLoop arr l.length 0
    free arr
  else pure ()

/-- `osl_strings_free` (source/strings.c:286-300). -/
def strFree (p : Ptr) : M Unit :=
  if p ≠ 0 then do
    let arr ← getField p 0
    strFreeArray arr
    free p
  else pure ()

/-- The loop of `osl_strings_size` (source/strings.c:402-404). -/
def strSizeLoop (arr : Ptr) : Nat → Nat → M Nat
  | 0, _ => undef
  | f + 1, i => do
    let s ← getField arr i
    if s = 0 then pure i else strSizeLoop arr f (i + 1)

/-- The size of an array, NULL having none (source/strings.c:401-405). -/
def strSizeArray (arr : Ptr) : M Nat :=
  if arr ≠ 0 then do
    let l ← loadPtrs arr
    strSizeLoop arr l.length 0
  else pure 0

/-- `osl_strings_size` (source/strings.c:398-408). -/
def strSize (p : Ptr) : M Nat :=
  if p ≠ 0 then do
    let arr ← getField p 0
    strSizeArray arr
  else pure 0

/-- The loop of `osl_strings_clone` (source/strings.c:327-328). -/
def strDupLoop [Allocator] (src dst : Ptr) : Nat → Nat → M Unit
  | 0, _ => pure ()
  | n + 1, i => do
    let s ← getField src i
    let d ← hStrdup s
    setField dst i d
    strDupLoop src dst n (i + 1)

/-- The end of `osl_strings_clone` (source/strings.c:321-330). -/
def strCloneWords [Allocator] (strings clone : Ptr) (nb : Nat) : M Ptr :=
  if nb = 0 then pure clone
  else do
    let old ← getField clone 0
    free old
    let arr ← alloc (.ptrs (List.replicate (nb + 1) 0))
    setField clone 0 arr
    let src ← getField strings 0
    strDupLoop src arr nb 0
    pure clone

/-- `osl_strings_clone` (source/strings.c:313-331). -/
def strClone [Allocator] (strings : Ptr) : M Ptr :=
  if strings = 0 then pure 0
  else do
    let clone ← strMalloc
    let nb ← strSize strings
    strCloneWords strings clone nb

/-- `osl_strings_add` (source/strings.c:357-363). -/
def strAdd [Allocator] (strings string : Ptr) : M Unit := do
  let n ← strSize strings
  let old ← getField strings 0
  let arr ← reallocPtrs old (n + 1 + 1)
  setField strings 0 arr
  setField arr (n + 1) 0
  let d ← hStrdup string
  setField arr n d

/-- `osl_strings_encapsulate` (source/strings.c:417-425). -/
def strEncapsulate [Allocator] (string : Ptr) : M Ptr := do
  let capsule ← strMalloc
  let old ← getField capsule 0
  free old
  let arr ← alloc (.ptrs [string, 0])
  setField capsule 0 arr
  pure capsule

/-- The loop of `osl_strings_generate` (source/strings.c:466-471). -/
def strGenLoop [Allocator] (pre : Str) (arr : Ptr) : Nat → Nat → M Unit
  | 0, _ => pure ()
  | n + 1, i => do
    let d ← alloc (.chars (pre ++ showNat (i + 1)))
    setField arr i d
    strGenLoop pre arr n (i + 1)

/-- The array built by `osl_strings_generate` (source/strings.c:463-472). -/
def strGenArray [Allocator] (pre : Str) (n : Int) : M Ptr :=
  if n = 0 then pure 0
  else if n < 0 ∨ n = cMax 32 then undef
  else do
    let arr ← alloc (.ptrs (List.replicate (n.toNat + 1) 0))
    strGenLoop pre arr n.toNat 0
    pure arr

/-- `osl_strings_generate` (source/strings.c:457-478). -/
def strGenerate [Allocator] (pre : Str) (n : Int) : M Ptr := do
  let arr ← strGenArray pre n
  let g ← strMalloc
  let old ← getField g 0
  free old
  setField g 0 arr
  pure g

/-- The loop of `osl_strings_add_strings` (source/strings.c:495-498). -/
def strAddLoop [Allocator] (res arr : Ptr) : Nat → Nat → M Unit
  | 0, _ => undef
  | f + 1, i => do
    let s ← getField arr i
    if s = 0 then pure ()
    else do
      strAdd res s
      strAddLoop res arr f (i + 1)

/-- `osl_strings_add_strings` (source/strings.c:488-501): the new value of `*dest`. -/
def strAddStrings [Allocator] (str1 str2 : Ptr) : M Ptr := do
  let res ← strClone str1
  let arr ← getField str2 0
  let l ← loadPtrs arr
  strAddLoop res arr l.length 0
  pure res

/-- `osl_names_malloc` (source/names.c:142-153). -/
def namesMalloc [Allocator] : M Ptr := alloc (.ptrs [0, 0, 0, 0, 0])

/-- `osl_names_free` (source/names.c:163-173). -/
def namesFree (p : Ptr) : M Unit :=
  if p ≠ 0 then do
    let x ← getField p 0
    strFree x
    let x ← getField p 1
    strFree x
    let x ← getField p 2
    strFree x
    let x ← getField p 3
    strFree x
    let x ← getField p 4
    strFree x
    free p
  else pure ()

/-- `osl_names_generate` (source/names.c:195-209). -/
def namesGenerate [Allocator] (pp : Str) (np : Int) (ip : Str) (ni : Int) (sp : Str) (ns : Int) (lp : Str) (nl : Int) (ap : Str) (na : Int) : M Ptr := do
  let names ← namesMalloc
  let x ← strGenerate pp np
  setField names 0 x
  let x ← strGenerate ip ni
  setField names 1 x
  let x ← strGenerate sp ns
  setField names 2 x
  let x ← strGenerate lp nl
  setField names 3 x
  let x ← strGenerate ap na
  setField names 4 x
  pure names

/-- One field of the copy (source/names.c:223-227). -/
def namesCloneField [Allocator] (names clone : Ptr) (i : Nat) : M Unit := do
  let x ← getField names i
  let y ← strClone x
  setField clone i y

/-- `osl_names_clone` (source/names.c:218-230). -/
def namesClone [Allocator] (names : Ptr) : M Ptr :=
  if names ≠ 0 then do
    let clone ← namesMalloc
    namesCloneField names clone 0
    namesCloneField names clone 1
    namesCloneField names clone 2
    namesCloneField names clone 3
    namesCloneField names clone 4
    pure clone
  else pure 0

end Osl.Mem
