import Verif.HeapScop
import Verif.Library
/-!
# The data of the extensions in memory (source/body.c, source/extensions/*.c)

A structure is a block `.node ints ptrs` (or `.ptrs` when it has only pointers), with its integers and its pointers in the order given
in the comments; an array of `int` is a block `.node ints []`, an array of strings a block `.ptrs`.  The elements of an array which has just been
allocated and not yet been written are 0 or NULL in the model.  `malloc(0)` is not NULL, as with the GNU C library.
-/

namespace Osl.Mem

/-! ## Arrays -/

/-- `OSL_malloc` (include/osl/macros.h:152-156) of an array of `n` integers. -/
def allocInts [Allocator] (n : Nat) : M Ptr := alloc (.node (List.replicate n 0) [])

/-- `OSL_malloc` (include/osl/macros.h:152-156) of an array of `n` pointers. -/
def allocPtrs [Allocator] (n : Nat) : M Ptr := alloc (.ptrs (List.replicate n 0))

/-- `OSL_realloc` (include/osl/macros.h:158-162) of an array of integers, to `n` elements. -/
def reallocInts [Allocator] (p : Ptr) (n : Nat) : M Ptr :=
  if p = 0 then allocInts n
  else do
    let l ← loadNode p
    free p
    alloc (.node (l.1.take n ++ List.replicate (n - l.1.length) 0) [])

/-- The copy of the elements of an array of integers, one by one, from the index `i` on (as in source/extensions/scatinfos.c:325-326). -/
def copyInts (src dst : Ptr) : Nat → Nat → M Unit
  | 0, _ => pure ()
  | n + 1, i => do
    let x ← getInt src i
    setInt dst i x
    copyInts src dst n (i + 1)

/-- `if (p) free(p)` (as in source/extensions/textual.c:231-232). -/
def freeIf (p : Ptr) : M Unit := if p ≠ 0 then free p else pure ()

/-- `strdup` of the C library: NULL is dereferenced. -/
def libcStrdup [Allocator] (s : Ptr) : M Ptr := do
  let b ← load s
  let w ← lift (asChars b)
  alloc (.chars w)

/-! ## Bodies -/

/-- `osl_body_malloc` (source/body.c:278-286): iterators, expression. -/
def bodyMalloc [Allocator] : M Ptr := alloc (.ptrs [0, 0])

/-- `osl_body_free` (source/body.c:294-300). -/
def bodyFree (p : Ptr) : M Unit :=
  if p ≠ 0 then do
    let x ← getField p 0
    strFree x
    let y ← getField p 1
    strFree y
    free p
  else pure ()

/-- `osl_body_clone` (source/body.c:314-324). -/
def bodyClone [Allocator] (body : Ptr) : M Ptr :=
  if body ≠ 0 then do
    let copy ← bodyMalloc
    let x ← getField body 0
    let x' ← strClone x
    setField copy 0 x'
    let y ← getField body 1
    let y' ← strClone y
    setField copy 1 y'
    pure copy
  else pure 0

/-! ## Textual, comment, clay: one string -/

/-- `osl_textual_malloc` (source/extensions/textual.c:214-221), `osl_comment_malloc` (source/extensions/comment.c:205-212), `osl_clay_malloc`
(source/extensions/clay.c:211-218). -/
def stringMalloc [Allocator] : M Ptr := alloc (.ptrs [0])

/-- `osl_textual_free` (source/extensions/textual.c:229-235), `osl_comment_free` (source/extensions/comment.c:220-226), `osl_clay_free`
(source/extensions/clay.c:226-232). -/
def stringFree (p : Ptr) : M Unit :=
  if p ≠ 0 then do
    let s ← getField p 0
    freeIf s
    free p
  else pure ()

/-- `osl_textual_clone` (source/extensions/textual.c:248-258), `osl_comment_clone` (source/extensions/comment.c:239-249), `osl_clay_clone`
(source/extensions/clay.c:245-255). -/
def stringClone [Allocator] (p : Ptr) : M Ptr :=
  if p = 0 then pure 0
  else do
    let clone ← stringMalloc
    let s ← getField p 0
    let s' ← hStrdup s
    setField clone 0 s'
    pure clone

/-! ## Null -/

/-- `osl_null_malloc` (source/extensions/null.c:176-181). -/
def nullMalloc [Allocator] : M Ptr := alloc (.ptrs [])

/-- `osl_null_free` (source/extensions/null.c:189-193). -/
def nullFree (p : Ptr) : M Unit := if p ≠ 0 then free p else pure ()

/-- `osl_null_clone` (source/extensions/null.c:206-214). -/
def nullClone [Allocator] (p : Ptr) : M Ptr := if p = 0 then pure 0 else nullMalloc

/-! ## Coordinates -/

/-- `osl_coordinates_malloc` (source/extensions/coordinates.c:235-247): line_start, line_end, column_start, column_end, indent; name. -/
def coordMalloc [Allocator] : M Ptr := alloc (.node [-1, -1, -1, -1, -1] [0])

/-- `osl_coordinates_free` (source/extensions/coordinates.c:255-260). -/
def coordFree (p : Ptr) : M Unit :=
  if p ≠ 0 then do
    let s ← getPtr p 0
    free s
    free p
  else pure ()

/-- One assignment of the copy of a structure: `clone->x = p->x`. -/
def copyInt (p clone : Ptr) (i : Nat) : M Unit := do
  let x ← getInt p i
  setInt clone i x

/-- `osl_coordinates_clone` (source/extensions/coordinates.c:273-289). -/
def coordClone [Allocator] (p : Ptr) : M Ptr :=
  if p = 0 then pure 0
  else do
    let clone ← coordMalloc
    let s ← getPtr p 0
    let s' ← hStrdup s
    setPtr clone 0 s'
    copyInt p clone 0
    copyInt p clone 2
    copyInt p clone 1
    copyInt p clone 3
    copyInt p clone 4
    pure clone

/-! ## Scatnames -/

/-- `osl_scatnames_malloc` (source/extensions/scatnames.c:184-191). -/
def scatnamesMalloc [Allocator] : M Ptr := alloc (.ptrs [0])

/-- `osl_scatnames_free` (source/extensions/scatnames.c:199-204). -/
def scatnamesFree (p : Ptr) : M Unit :=
  if p ≠ 0 then do
    let s ← getField p 0
    strFree s
    free p
  else pure ()

/-- `osl_scatnames_clone` (source/extensions/scatnames.c:217-227). -/
def scatnamesClone [Allocator] (p : Ptr) : M Ptr :=
  if p = 0 then pure 0
  else do
    let clone ← scatnamesMalloc
    let s ← getField p 0
    let s' ← strClone s
    setField clone 0 s'
    pure clone

/-! ## Scatinfos -/

/-- `osl_scatinfos_malloc` (source/extensions/scatinfos.c:274-284): nb_scatdims; parallel, permutable, type. -/
def scatinfosMalloc [Allocator] : M Ptr := alloc (.node [0] [0, 0, 0])

/-- `osl_scatinfos_free` (source/extensions/scatinfos.c:292-302). -/
def scatinfosFree (p : Ptr) : M Unit :=
  if p ≠ 0 then do
    let a ← getPtr p 0
    freeIf a
    let b ← getPtr p 1
    freeIf b
    let t ← getPtr p 2
    freeIf t
    free p
  else pure ()

/-- The copy of one of the arrays (source/extensions/scatinfos.c:324-326, 328-330, 332-334). -/
def scatinfosArray [Allocator] (p clone : Ptr) (i : Nat) : M Unit := do
  let n ← getInt clone 0
  let a ← allocInts n.toNat
  setPtr clone i a
  let s ← getPtr p i
  copyInts s a n.toNat 0

/-- `osl_scatinfos_clone` (source/extensions/scatinfos.c:315-337). -/
def scatinfosClone [Allocator] (p : Ptr) : M Ptr :=
  if p = 0 then pure 0
  else do
    let clone ← scatinfosMalloc
    copyInt p clone 0
    scatinfosArray p clone 0
    scatinfosArray p clone 1
    scatinfosArray p clone 2
    pure clone

/-! ## Extbody -/

/-- `osl_extbody_malloc` (source/extensions/extbody.c:243-253): nb_access; start, length, body. -/
def extbodyMalloc [Allocator] : M Ptr := alloc (.node [0] [0, 0, 0])

/-- `osl_extbody_free` (source/extensions/extbody.c:260-267). -/
def extbodyFree (p : Ptr) : M Unit :=
  if p ≠ 0 then do
    let s ← getPtr p 0
    free s
    let l ← getPtr p 1
    free l
    let b ← getPtr p 2
    bodyFree b
    free p
  else pure ()

/-- The loop of `osl_extbody_clone` (source/extensions/extbody.c:292-295). -/
def extbodyLoop (s l s' l' : Ptr) : Nat → Nat → M Unit
  | 0, _ => pure ()
  | n + 1, i => do
    let x ← getInt s i
    setInt s' i x
    let y ← getInt l i
    setInt l' i y
    extbodyLoop s l s' l' n (i + 1)

/-- `osl_extbody_clone` (source/extensions/extbody.c:280-300). -/
def extbodyClone [Allocator] (p : Ptr) : M Ptr :=
  if p = 0 then pure 0
  else do
    let clone ← extbodyMalloc
    copyInt p clone 0
    let n ← getInt p 0
    let s' ← allocInts n.toNat
    setPtr clone 0 s'
    let l' ← allocInts n.toNat
    setPtr clone 1 l'
    let s ← getPtr p 0
    let l ← getPtr p 1
    extbodyLoop s l s' l' n.toNat 0
    let b ← getPtr p 2
    let b' ← bodyClone b
    setPtr clone 2 b'
    pure clone

/-- `osl_extbody_add` (source/extensions/extbody.c:374-382). -/
def extbodyAdd [Allocator] (p : Ptr) (start length : Int) : M Unit := do
  let n ← getInt p 0
  setInt p 0 (n + 1)
  let s ← getPtr p 0
  let s' ← reallocInts s (n + 1).toNat
  setPtr p 0 s'
  let l ← getPtr p 1
  let l' ← reallocInts l (n + 1).toNat
  setPtr p 1 l'
  setInt s' n.toNat start
  setInt l' n.toNat length

/-! ## Arrays extension -/

/-- `osl_arrays_malloc` (source/extensions/arrays.c:233-242): nb_names; id, names. -/
def arraysMalloc [Allocator] : M Ptr := alloc (.node [0] [0, 0])

/-- The loop of `osl_arrays_free` (source/extensions/arrays.c:254-255). -/
def freeWords (a : Ptr) : Nat → Nat → M Unit
  | 0, _ => pure ()
  | n + 1, i => do
    let s ← getField a i
    free s
    freeWords a n (i + 1)

/-- `osl_arrays_free` (source/extensions/arrays.c:249-259). -/
def arraysFree (p : Ptr) : M Unit :=
  if p ≠ 0 then do
    let d ← getPtr p 0
    free d
    let n ← getInt p 0
    let a ← getPtr p 1
    freeWords a n.toNat 0
    free a
    free p
  else pure ()

/-- The loop of `osl_arrays_clone` (source/extensions/arrays.c:284-287). -/
def arraysLoop [Allocator] (d a d' a' : Ptr) : Nat → Nat → M Unit
  | 0, _ => pure ()
  | n + 1, i => do
    let x ← getInt d i
    setInt d' i x
    let s ← getField a i
    let s' ← hStrdup s
    setField a' i s'
    arraysLoop d a d' a' n (i + 1)

/-- `osl_arrays_clone` (source/extensions/arrays.c:272-290). -/
def arraysClone [Allocator] (p : Ptr) : M Ptr :=
  if p = 0 then pure 0
  else do
    let clone ← arraysMalloc
    copyInt p clone 0
    let n ← getInt p 0
    let d' ← allocInts n.toNat
    setPtr clone 0 d'
    let a' ← allocPtrs n.toNat
    setPtr clone 1 a'
    let d ← getPtr p 0
    let a ← getPtr p 1
    arraysLoop d a d' a' n.toNat 0
    pure clone

/-- The end of `osl_arrays_add` (source/extensions/arrays.c:386-393). -/
def arraysAddTo [Allocator] (p : Ptr) (id : Int) (name : Ptr) : M Int := do
  let n ← getInt p 0
  let d ← getPtr p 0
  let d' ← reallocInts d (n + 1).toNat
  setPtr p 0 d'
  let a ← getPtr p 1
  let a' ← reallocPtrs a (n + 1).toNat
  setPtr p 1 a'
  setInt d' n.toNat id
  let s ← hStrdup name
  setField a' n.toNat s
  setInt p 0 (n + 1)
  getInt p 0

/-- `osl_arrays_add` (source/extensions/arrays.c:382-394); the overflow of the number of names is not modelled. -/
def arraysAdd [Allocator] (p : Ptr) (id : Int) (name : Ptr) : M Int := if p = 0 ∨ name = 0 then pure (-1) else arraysAddTo p id name

/-! ## Texts of annotations and regions -/

/-- `osl_annotation_text_t`, `osl_region_text_t` (include/osl/extensions/annotation.h:85-89, region.h:89-93), as a value. -/
structure TextRec where
  count : Int
  types : Ptr
  lines : Ptr
deriving Repr, DecidableEq

/-- The text number `k` of the structure at `p`: the integer `k`, the pointers `2k` and `2k+1`. -/
def getText (p : Ptr) (k : Nat) : M TextRec := do
  let n ← getInt p k
  let t ← getPtr p (2 * k)
  let l ← getPtr p (2 * k + 1)
  pure ⟨n, t, l⟩

/-- The assignment of the text number `k`. -/
def setText (p : Ptr) (k : Nat) (t : TextRec) : M Unit := do
  setInt p k t.count
  setPtr p (2 * k) t.types
  setPtr p (2 * k + 1) t.lines

/-- `osl_annotation_text_append` (source/extensions/annotation.c:84-104), `osl_region_text_append` (source/extensions/region.c:83-102): the new text. -/
def textAppend [Allocator] (t : TextRec) (type : Int) (line : Ptr) : M TextRec := do
  let lines ← reallocPtrs t.lines (t.count + 1).toNat
  let types ← reallocInts t.types (t.count + 1).toNat
  setField lines t.count.toNat line
  setInt types t.count.toNat type
  pure ⟨t.count + 1, types, lines⟩

/-- The loop of `osl_annotation_text_clone` (source/extensions/annotation.c:122-125), `osl_region_text_clone` (source/extensions/region.c:120-123). -/
def textCloneLoop [Allocator] (src : TextRec) : Nat → Nat → TextRec → M TextRec
  | 0, _, dst => pure dst
  | n + 1, i, dst => do
    let s ← getField src.lines i
    let line ← libcStrdup s
    let type ← getInt src.types i
    let dst ← textAppend dst type line
    textCloneLoop src n (i + 1) dst

/-- `osl_annotation_text_clone` (source/extensions/annotation.c:115-127), `osl_region_text_clone` (source/extensions/region.c:114-125). -/
def textClone [Allocator] (src : TextRec) : M TextRec := textCloneLoop src src.count.toNat 0 ⟨0, 0, 0⟩

/-- The loop of `osl_annotation_text_clean` (source/extensions/annotation.c:137-140), `osl_region_text_clean` (source/extensions/region.c:135-138). -/
def textCleanLoop (lines : Ptr) : Nat → Nat → M Unit
  | 0, _ => pure ()
  | n + 1, i => do
    let s ← getField lines i
    freeIf s
    textCleanLoop lines n (i + 1)

/-- The lines of a text are freed (source/extensions/annotation.c:136-142, region.c:134-140). -/
def textCleanLines (lines : Ptr) (n : Nat) : M Unit :=
  if lines ≠ 0 then do
    textCleanLoop lines n 0
    free lines
  else pure ()

/-- `osl_annotation_text_clean` (source/extensions/annotation.c:135-146), `osl_region_text_clean` (source/extensions/region.c:133-144). -/
def textClean (t : TextRec) : M Unit := do
  textCleanLines t.lines t.count.toNat
  freeIf t.types

/-! ## Annotations -/

/-- `osl_annotation_malloc` (source/extensions/annotation.c:280-291): the texts prefix, suffix. -/
def annMalloc [Allocator] : M Ptr := alloc (.node [0, 0] [0, 0, 0, 0])

/-- `osl_annotation_free` (source/extensions/annotation.c:293-297): NULL is dereferenced. -/
def annFree (p : Ptr) : M Unit := do
  let a ← getText p 0
  textClean a
  let b ← getText p 1
  textClean b
  free p

/-- The copy of one text of a structure (source/extensions/annotation.c:306, 307, region.c:387-390). -/
def copyText [Allocator] (p clone : Ptr) (k : Nat) : M Unit := do
  let t ← getText p k
  let t' ← textClone t
  setText clone k t'

/-- `osl_annotation_clone` (source/extensions/annotation.c:303-310). -/
def annClone [Allocator] (p : Ptr) : M Ptr := do
  let clone ← annMalloc
  copyText p clone 0
  copyText p clone 1
  pure clone

/-- `osl_annotation_append_prefix`, `osl_annotation_append_suffix` (source/extensions/annotation.c:172-175) for the texts 0 and 1,
`osl_region_append_prefix`... (source/extensions/region.c:165-183) for the texts 0 to 3. -/
def appendText [Allocator] (p : Ptr) (k : Nat) (type : Int) (line : Ptr) : M Unit := do
  let t ← getText p k
  let t' ← textAppend t type line
  setText p k t'

/-! ## Regions -/

/-- The `next` field of a region (include/osl/extensions/region.h:128). -/
def regionNext : Next where
  get p := getPtr p 8
  set p n := setPtr p 8 n

/-- `osl_region_malloc` (source/extensions/region.c:342-359): the texts prefix, suffix, prelude, postlude, then the location, and the pointer `next`. -/
def regionMalloc [Allocator] : M Ptr := alloc (.node [0, 0, 0, 0, 0] [0, 0, 0, 0, 0, 0, 0, 0, 0])

/-- One turn of the loop of `osl_region_free` (source/extensions/region.c:361-377). -/
def regionFreeStep (p : Ptr) : M Ptr := do
  let a ← getText p 0
  textClean a
  let b ← getText p 1
  textClean b
  let d ← getText p 2
  textClean d
  let e ← getText p 3
  textClean e
  let next ← regionNext.get p
  free p
  pure next

/-- `osl_region_free` (source/extensions/region.c:361-377). -/
def regionFree (p : Ptr) : M Unit := freeAll regionFreeStep p

/-- `osl_region_clone_one` (source/extensions/region.c:383-393). -/
def regionCopy [Allocator] (p : Ptr) : M Ptr := do
  let clone ← regionMalloc
  copyInt p clone 4
  copyText p clone 0
  copyText p clone 1
  copyText p clone 2
  copyText p clone 3
  pure clone

/-- `osl_region_clone` (source/extensions/region.c:395-412). -/
def regionClone [Allocator] (p : Ptr) : M Ptr := copyAll regionNext regionCopy p

/-- `osl_region_count` (source/extensions/region.c:440-446). -/
def regionCount (p : Ptr) : M Nat := countAll regionNext p

/-! ## Loops -/

/-- The `next` field of a loop (include/osl/extensions/loop.h:97). -/
def loopNext : Next where
  get p := getPtr p 4
  set p n := setPtr p 4 n

/-- `osl_loop_malloc` (source/extensions/loop.c:331-344): nb_stmts, directive; iter, stmt_ids, private_vars, user, next. -/
def loopMalloc [Allocator] : M Ptr := alloc (.node [0, 0] [0, 0, 0, 0, 0])

/-- One turn of the loop of `osl_loop_free` (source/extensions/loop.c:352-369). -/
def loopFreeStep (p : Ptr) : M Ptr := do
  let a ← getPtr p 0
  freeIf a
  let b ← getPtr p 1
  freeIf b
  let d ← getPtr p 2
  freeIf d
  let e ← getPtr p 3
  freeIf e
  let next ← loopNext.get p
  free p
  pure next

/-- `osl_loop_free` (source/extensions/loop.c:352-369). -/
def loopFree (p : Ptr) : M Unit := freeAll loopFreeStep p

/-- The copy of a string which may be NULL (source/extensions/loop.c:401-402, 404-405). -/
def copyStrIf [Allocator] (s clone : Ptr) (i : Nat) : M Unit :=
  if s ≠ 0 then do
    let d ← hStrdup s
    setPtr clone i d
  else pure ()

/-- `osl_loop_clone_one` (source/extensions/loop.c:383-408), on a loop which is not NULL. -/
def loopCopy [Allocator] (p : Ptr) : M Ptr := do
  let clone ← loopMalloc
  let s ← getPtr p 0
  let s' ← hStrdup s
  setPtr clone 0 s'
  copyInt p clone 0
  let n ← getInt p 0
  let a' ← allocInts n.toNat
  setPtr clone 1 a'
  let a ← getPtr p 1
  copyInts a a' n.toNat 0
  copyInt p clone 1
  let v ← getPtr p 2
  copyStrIf v clone 2
  let u ← getPtr p 3
  copyStrIf u clone 3
  pure clone

/-- `osl_loop_clone` (source/extensions/loop.c:418-437). -/
def loopClone [Allocator] (p : Ptr) : M Ptr := copyAll loopNext loopCopy p

/-- `osl_loop_add` (source/extensions/loop.c:589-594). -/
def loopAdd (loop ll : Ptr) : M Ptr := append loopNext ll loop

/-- `osl_loop_count` (source/extensions/loop.c:603-611). -/
def loopCount (p : Ptr) : M Nat := countAll loopNext p

/-! ## Unrollings of Pluto -/

/-- The `next` field (include/osl/extensions/pluto_unroll.h:84). -/
def unrollNext : Next where
  get p := getPtr p 1
  set p n := setPtr p 1 n

/-- `osl_pluto_unroll_malloc` (source/extensions/pluto_unroll.c:257-267): jam, factor; iter, next. -/
def unrollMalloc [Allocator] : M Ptr := alloc (.node [0, 0] [0, 0])

/-- The recursion of `osl_pluto_unroll_free` (source/extensions/pluto_unroll.c:276-284). -/
def unrollFreeLoop : Nat → Ptr → M Unit
  | 0, p => if p ≠ 0 then undef else pure ()
  | f + 1, p =>
    if p ≠ 0 then do
      let next ← unrollNext.get p
      unrollFreeLoop f next
      let s ← getPtr p 0
      free s
      free p
    else pure ()

/-- `osl_pluto_unroll_free` (source/extensions/pluto_unroll.c:276-284); a list with a cycle would be freed twice. -/
def unrollFree (p : Ptr) : M Unit := do
  let f ← heapSize
  unrollFreeLoop f p

/-- `OSL_realloc` (include/osl/macros.h:158-162) then `strcpy` (source/extensions/pluto_unroll.c:305-307): the string is now a copy of `name`. -/
def reallocStr [Allocator] (p name : Ptr) : M Ptr := do
  let b ← load name
  let w ← lift (asChars b)
  free p
  alloc (.chars w)

/-- The iterator in `osl_pluto_unroll_fill` (source/extensions/pluto_unroll.c:304-308). -/
def unrollIter [Allocator] (p name : Ptr) : M Unit :=
  if name ≠ 0 then do
    let s ← getPtr p 0
    let s' ← reallocStr s name
    setPtr p 0 s'
  else pure ()

/-- `osl_pluto_unroll_fill` (source/extensions/pluto_unroll.c:299-316). -/
def unrollFill [Allocator] (p name : Ptr) (jam factor : Int) : M Unit :=
  if p ≠ 0 then do
    unrollIter p name
    setInt p 0 jam
    setInt p 1 factor
  else pure ()

/-- `osl_pluto_unroll_fill(p, pluto_unroll->iter, pluto_unroll->jam, pluto_unroll->factor)` (source/extensions/pluto_unroll.c:337-338). -/
def unrollCopyTo [Allocator] (p q : Ptr) : M Unit := do
  let s ← getPtr q 0
  let j ← getInt q 0
  let f ← getInt q 1
  unrollFill p s j f

/-- `if (pluto_unroll != NULL) p->next = osl_pluto_unroll_malloc()` (source/extensions/pluto_unroll.c:342-344). -/
def unrollMore [Allocator] (p q : Ptr) : M Unit :=
  if q ≠ 0 then do
    let m ← unrollMalloc
    unrollNext.set p m
  else pure ()

/-- The loop of `osl_pluto_unroll_clone` (source/extensions/pluto_unroll.c:336-346). -/
def unrollCloneLoop [Allocator] : Nat → Ptr → Ptr → M Unit
  | 0, q, _ => if q ≠ 0 then undef else pure ()
  | f + 1, q, p =>
    if q ≠ 0 then do
      unrollCopyTo p q
      let q' ← unrollNext.get q
      unrollMore p q'
      let p' ← unrollNext.get p
      unrollCloneLoop f q' p'
    else pure ()

/-- The first node of the copy (source/extensions/pluto_unroll.c:330-333). -/
def unrollFirst [Allocator] (q : Ptr) : M Ptr := if q ≠ 0 then unrollMalloc else pure 0

/-- `osl_pluto_unroll_clone` (source/extensions/pluto_unroll.c:328-349). -/
def unrollClone [Allocator] (q : Ptr) : M Ptr := do
  let r ← unrollFirst q
  let f ← heapSize
  unrollCloneLoop f q r
  pure r

/-! ## Dependences -/

/-- The `next` field of a dependence (include/osl/extensions/dependence.h:162). -/
def depNext : Next where
  get p := getPtr p 6
  set p n := setPtr p 6 n

/-- `osl_dependence_malloc` (source/extensions/dependence.c:454-484): label_source, label_target, ref_source, ref_target, depth, type, the eight dimensions in the
order of the structure; domain, stmt_source_ptr, stmt_target_ptr, usr, ref_source_access_ptr, ref_target_access_ptr, next. -/
def depMalloc [Allocator] : M Ptr := alloc (.node [-1, -1, -1, -1, -1, -1, -1, -1, -1, -1, -1, -1, -1, -1] [0, 0, 0, 0, 0, 0, 0])

/-- One turn of the loop of `osl_dependence_free` (source/extensions/dependence.c:491-499). -/
def depFreeStep (c : Cfg) (p : Ptr) : M Ptr := do
  let next ← depNext.get p
  let d ← getPtr p 0
  relFree c d
  free p
  pure next

/-- `osl_dependence_free` (source/extensions/dependence.c:491-499). -/
def depFree (c : Cfg) (p : Ptr) : M Unit := freeAll (depFreeStep c) p

/-- The copy of one dependence (source/extensions/dependence.c:519-538). -/
def depCopy [Allocator] (c : Cfg) (p : Ptr) : M Ptr := do
  let node ← depMalloc
  let s ← getPtr p 1
  setPtr node 1 s
  let t ← getPtr p 2
  setPtr node 2 t
  copyInt p node 4
  copyInt p node 5
  copyInt p node 0
  copyInt p node 1
  copyInt p node 2
  copyInt p node 3
  let d ← getPtr p 0
  let d' ← relClone c d
  setPtr node 0 d'
  copyInt p node 6
  copyInt p node 7
  copyInt p node 8
  copyInt p node 9
  copyInt p node 10
  copyInt p node 11
  copyInt p node 12
  copyInt p node 13
  depNext.set node 0
  setPtr node 3 0
  pure node

/-- `osl_dependence_clone` (source/extensions/dependence.c:563-565, 513-554). -/
def depClone [Allocator] (c : Cfg) (p : Ptr) : M Ptr := copyAll depNext (depCopy c) p

/-- `osl_nb_dependences` (source/extensions/dependence.c:649-657). -/
def depCount (p : Ptr) : M Nat := countAll depNext p

/-- `while ((*now)->next != NULL) *now = (*now)->next` (source/extensions/dependence.c:637-638). -/
def depLast : Nat → Ptr → M Ptr
  | 0, _ => undef
  | f + 1, p => do
    let n ← depNext.get p
    if n ≠ 0 then depLast f n else pure p

/-- The link of `osl_dependence_add` (source/extensions/dependence.c:629-635). -/
def depLink (start now dependence : Ptr) : M Ptr :=
  if start = 0 then pure dependence
  else do
    depNext.set now dependence
    pure start

/-- `osl_dependence_add` (source/extensions/dependence.c:626-640), on a dependence which is not NULL: the values of `*start` and `*now`. -/
def depAddTo (start now dependence : Ptr) : M (Ptr × Ptr) := do
  let s ← depLink start now dependence
  let f ← heapSize
  let l ← depLast f dependence
  pure (s, l)

/-- `osl_dependence_add` (source/extensions/dependence.c:626-640). -/
def depAdd (start now dependence : Ptr) : M (Ptr × Ptr) := if dependence ≠ 0 then depAddTo start now dependence else pure (start, now)

/-! ## Symbols -/

/-- The `next` field of a symbol (include/osl/extensions/symbols.h:96). -/
def symNext : Next where
  get p := getPtr p 4
  set p n := setPtr p 4 n

/-- `osl_symbols_malloc` (source/extensions/symbols.c:399-413): type, generated, nb_dims; identifier, datatype, scope, extent, next. -/
def symMalloc [Allocator] : M Ptr := alloc (.node [-1, -1, -1] [0, 0, 0, 0, 0])

/-- One turn of the loop of `osl_symbols_free` (source/extensions/symbols.c:424-432). -/
def symFreeStep (O : DataFns) (p : Ptr) : M Ptr := do
  let next ← symNext.get p
  let a ← getPtr p 0
  genFree O a
  let b ← getPtr p 1
  genFree O b
  let d ← getPtr p 2
  genFree O d
  let e ← getPtr p 3
  genFree O e
  free p
  pure next

/-- `osl_symbols_free` (source/extensions/symbols.c:421-433). -/
def symFree (O : DataFns) (p : Ptr) : M Unit := freeAll (symFreeStep O) p

/-- `osl_symbols_add` (source/extensions/symbols.c:446-451): the new list. -/
def symAdd (location symbols : Ptr) : M Ptr := append symNext location symbols

/-- `osl_symbols_get_nb_symbols` (source/extensions/symbols.c:532-540). -/
def symCount (p : Ptr) : M Nat := countAll symNext p

/-- One field of the copy (source/extensions/symbols.c:470-473). -/
def symField [Allocator] (O : DataFns) (p new : Ptr) (i : Nat) : M Unit := do
  let x ← getPtr p i
  let y ← genClone O x
  setPtr new i y

/-- The copy of one symbol (source/extensions/symbols.c:466-473). -/
def symCopy [Allocator] (O : DataFns) (p : Ptr) : M Ptr := do
  let new ← symMalloc
  copyInt p new 0
  copyInt p new 1
  copyInt p new 2
  symField O p new 0
  symField O p new 1
  symField O p new 2
  symField O p new 3
  pure new

/-- The loop of `osl_symbols_nclone` (source/extensions/symbols.c:465-478); the counter of `n` (`none` for -1). -/
def symNcloneLoop [Allocator] (O : DataFns) : Nat → Option Nat → Ptr → Ptr → M Ptr
  | 0, n, p, clone => if p ≠ 0 ∧ n ≠ some 0 then undef else pure clone
  | f + 1, n, p, clone =>
    if p ≠ 0 ∧ n ≠ some 0 then do
      let new ← symCopy O p
      let clone ← symAdd clone new
      let p ← symNext.get p
      symNcloneLoop O f (n.map (· - 1)) p clone
    else pure clone

/-- `osl_symbols_nclone` (source/extensions/symbols.c:461-481). -/
def symNclone [Allocator] (O : DataFns) (p : Ptr) (n : Int) : M Ptr := do
  let f ← heapSize
  symNcloneLoop O f (if n = -1 then none else some n.toNat) p 0

/-- `osl_symbols_clone` (source/extensions/symbols.c:490-492). -/
def symClone [Allocator] (O : DataFns) (p : Ptr) : M Ptr := symNclone O p (-1)

/-! ## The functions of the default registry -/

/-- The functions `free` of the interfaces, in the order of `osl_interface_get_default_registry` (source/interface.c:366-393). -/
def extFree (c : Cfg) (sym : Ptr → M Unit) : List (Ptr → M Unit) :=
  [strFree, bodyFree, relFree c, stringFree, stringFree, nullFree, scatinfosFree, scatnamesFree, arraysFree, coordFree, stringFree, depFree c,
    sym, extbodyFree, loopFree, unrollFree, regionFree, annFree]

/-- The functions `clone` of the interfaces, in the order of `osl_interface_get_default_registry` (source/interface.c:366-393). -/
def extClone [Allocator] (c : Cfg) (sym : Ptr → M Ptr) : List (Ptr → M Ptr) :=
  [strClone, bodyClone, relClone c, stringClone, stringClone, nullClone, scatinfosClone, scatnamesClone, arraysClone, coordClone, stringClone, depClone c,
    sym, extbodyClone, loopClone, unrollClone, regionClone, annClone]

/-- The functions of the interfaces (source/interface.c:366-393): those of the `k`th interface are numbered `k` (`Ifaces.fnsOf`). -/
def extFns [Allocator] (c : Cfg) (symF : Ptr → M Unit) (symC : Ptr → M Ptr) : DataFns where
  free := fun k p => match (extFree c symF)[k]? with | some f => f p | none => undef
  clone := fun k p => match (extClone c symC)[k]? with | some f => f p | none => undef

/-- No symbols: `osl_symbols_free` on NULL (source/extensions/symbols.c:421-433). -/
def noSymFree (p : Ptr) : M Unit := if p ≠ 0 then undef else pure ()

/-- No symbols: never called. -/
def noSymClone (_ : Ptr) : M Ptr := undef

/-- The functions on data with symbols nested at most `n` times (source/interface.c:366-393). -/
def fnsAt [Allocator] (c : Cfg) : Nat → DataFns
  | 0 => extFns c noSymFree noSymClone
  | n + 1 => extFns c (symFree (fnsAt c n)) (symClone (fnsAt c n))

end Osl.Mem
