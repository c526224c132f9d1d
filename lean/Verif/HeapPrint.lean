import Verif.HeapQueryRel
import Verif.HeapRead
import Verif.RelationText
/-!
# Printing relations in memory (source/relation.c, source/util.c)

The functions which print a relation, on the memory of `Verif/Heap.lean`: they allocate strings, arrays of names and generated names, and
`osl_relation_subexpression` opposes coefficients of the matrix in place and then restores them.

Simplifications: the size of a string buffer is not a part of the memory, it is kept with its pointer (`StrBuf`) or it is OSL_MAX_STRING (`buffered`); local arrays
of characters are values; the functions which only read a relation (`osl_relation_get_array_id`, `osl_relation_get_attributes`) are those of
`Verif/HeapQueryRel.lean`; printing to a file gives the text which is written.
-/

namespace Osl.Mem

/-! ## Strings which grow -/

/-- A string with the size of its buffer (`high_water_mark`). -/
structure StrBuf where
  ptr : Ptr
  hwm : Nat

/-- A new empty string (for instance source/relation.c:801-802). -/
def bufNew [Allocator] : M StrBuf := do
  let p ← alloc (.chars [])
  pure ⟨p, MAX_STRING⟩

/-- `osl_util_safe_strcat` (source/util.c:459-466): the string is reallocated when the buffer is too small. -/
def bufCat [Allocator] (b : StrBuf) (src : Str) : M StrBuf := do
  let d ← loadChars b.ptr
  let r ← lift (Util.safe_strcat ⟨d, b.hwm⟩ src)
  if r.hwm = b.hwm then do
    store b.ptr (.chars r.str)
    pure b
  else do
    free b.ptr
    let p ← alloc (.chars r.str)
    pure ⟨p, r.hwm⟩

/-- `osl_util_safe_strcat(&string, temp, &high_water_mark); free(temp)` (for instance source/relation.c:1149-1150). -/
def bufTake [Allocator] (b : StrBuf) (temp : Ptr) : M StrBuf := do
  let s ← loadChars temp
  let b ← bufCat b s
  free temp
  pure b

/-- Several `osl_util_safe_strcat`. -/
def bufCats [Allocator] (b : StrBuf) : List Str → M StrBuf
  | [] => pure b
  | s :: l => do
    let b ← bufCat b s
    bufCats b l

/-- `fprintf(file, "%s", string); free(string)` (for instance source/relation.c:1203-1204): the text written. -/
def writeFree (string : Ptr) : M Str := do
  let s ← loadChars string
  free string
  pure s

/-! ## Expressions -/

/-- `osl_relation_expression_element` (source/relation.c:272-330): the string and the new value of `*first`. -/
def relExprElement [Allocator] (c : Cfg) (precision v : Int) (first cst : Bool) (name : Ptr) : M (Ptr × Bool) := do
  let temp ← alloc (.chars [])
  let body ← alloc (.chars [])
  let sval ← alloc (.chars [])
  let s ← loadChars name
  let r ← lift (Rel.expression_element c precision v first cst s)
  store sval (.chars r.1)
  free temp
  free body
  pure (sval, r.2)

/-- `osl_int_oppose` (source/int.c:1203-1223) of `m[row][i]` in place (source/relation.c:427-430, 440-443). -/
def relOppose (c : Cfg) (precision : Int) (m : Ptr) (row i : Int) : M Unit := do
  let v ← mget (kind c precision) m row i
  let v ← lift (OInt.oppose c precision v)
  mset (kind c precision) m row i v

/-- `if (oppose) osl_int_oppose(..)` (source/relation.c:427-430, 440-443). -/
def relOpposeIf (c : Cfg) (precision : Int) (m : Ptr) (oppose : Bool) (row i : Int) : M Unit :=
  if oppose then relOppose c precision m row i else pure ()

/-- One turn of the loop of `osl_relation_subexpression` (source/relation.c:426-446). -/
def relSubexprStep [Allocator] (c : Cfg) (h : Hdr) (m : Ptr) (row : Int) (oppose : Bool) (strings sline : Ptr) (i : Int) (first : Bool) : M Bool := do
  relOpposeIf c h.precision m oppose row i
  let v ← mget (kind c h.precision) m row i
  let name ← getField strings i.toNat
  let r ← relExprElement c h.precision v first (decide (i = h.nb_columns - 1)) name
  relOpposeIf c h.precision m oppose row i
  let s ← loadChars r.1
  let line ← loadChars sline
  let t ← lift (Rel.buffered (line ++ s))
  store sline (.chars t)
  free r.1
  pure r.2

/-- `osl_relation_subexpression` (source/relation.c:415-449). -/
def relSubexpr [Allocator] (c : Cfg) (h : Hdr) (m : Ptr) (row start stop : Int) (oppose : Bool) (strings : Ptr) : M Ptr := do
  let sline ← alloc (.chars [])
  let _ ← forS start (stop + 1) (relSubexprStep c h m row oppose strings sline) true
  pure sline

/-- `osl_relation_expression` (source/relation.c:460-464). -/
def relExpression [Allocator] (c : Cfg) (h : Hdr) (m : Ptr) (row : Int) (strings : Ptr) : M Ptr := relSubexpr c h m row 1 (h.nb_columns - 1) false strings

/-- The loop of `osl_relation_is_simple_output` (source/relation.c:495-509). -/
def relSimpleLoop (c : Cfg) (h : Hdr) (m : Ptr) (row : Int) : Nat → Int → Bool → Int → M Int
  | 0, _, _, sign => pure sign
  | n + 1, i, first, sign => do
    let v ← mget (kind c h.precision) m row i
    let z ← lift (OInt.zero c h.precision v)
    if !z then
      if !first then pure 0
      else do
        let o ← lift (OInt.one c h.precision v)
        if o then relSimpleLoop c h m row n (i + 1) false 1
        else do
          let mo ← lift (OInt.mone c h.precision v)
          if mo then relSimpleLoop c h m row n (i + 1) false (-1) else pure 0
    else relSimpleLoop c h m row n (i + 1) first sign

/-- `osl_relation_is_simple_output` (source/relation.c:477-512) on a non NULL relation. -/
def relSimple (c : Cfg) (h : Hdr) (m : Ptr) (row : Int) : M Int :=
  if m = 0 ∨ h.nb_output_dims = 0 then pure 0
  else if row < 0 ∨ row > h.nb_rows then fail
  else do
    let v ← mget (kind c h.precision) m row 0
    let z ← lift (OInt.zero c h.precision v)
    if !z then pure 0 else relSimpleLoop c h m row h.nb_output_dims.toNat 1 true 0

/-! ## Comments -/

/-- `snprintf(buffer, OSL_MAX_STRING, "..%s", expression); osl_util_safe_strcat(..); free(expression)` (for instance source/relation.c:551-553). -/
def bufExpr [Allocator] (b : StrBuf) (pre : Str) (expression : Ptr) : M StrBuf := do
  let s ← loadChars expression
  let b ← bufCat b (Rel.truncated (pre ++ s))
  free expression
  pure b

/-- Does the right hand side of a simple output name an array (source/relation.c:556-557)? -/
def relNotArray (c : Cfg) (h : Hdr) (m : Ptr) (row : Int) : M Bool :=
  if Rel.isAccessPart (hdrPart h []) then do
    let v ← mget (kind c h.precision) m row 1
    lift (OInt.zero c h.precision v)
  else pure true

/-- The right hand side of a simple output (source/relation.c:556-568). -/
def relRhs [Allocator] (c : Cfg) (p : Ptr) (h : Hdr) (m : Ptr) (row sign : Int) (strings arrays : Ptr) (b : StrBuf) : M StrBuf := do
  let e ← relNotArray c h m row
  if e then do
    let expression ← relSubexpr c h m row (h.nb_output_dims + 1) (h.nb_columns - 1) (decide (sign > 0)) strings
    bufExpr b " == ".toList expression
  else do
    let id ← relArrayId c p
    let _ ← lift (if id < 1 then .ub else .ok ())
    let a ← getField arrays (id - 1).toNat
    let s ← loadChars a
    bufCat b (Rel.truncated (" == ".toList ++ s))

/-- `== 0` or `>= 0` (source/relation.c:578-582). -/
def relSign (c : Cfg) (h : Hdr) (m : Ptr) (row : Int) : M Str := do
  let v ← mget (kind c h.precision) m row 0
  let z ← lift (OInt.zero c h.precision v)
  pure (if z then " == 0".toList else " >= 0".toList)

/-- `osl_relation_sprint_comment` (source/relation.c:527-582), after the tests of NULL. -/
def relComment [Allocator] (c : Cfg) (p : Ptr) (h : Hdr) (m : Ptr) (row : Int) (strings arrays : Ptr) : M StrBuf := do
  let b ← bufNew
  let sign ← relSimple c h m row
  if sign ≠ 0 then do
    let expression ← relSubexpr c h m row 1 h.nb_output_dims (decide (sign < 0)) strings
    let b ← bufExpr b "   ## ".toList expression
    relRhs c p h m row sign strings arrays b
  else do
    let expression ← relExpression c h m row strings
    let b ← bufExpr b "   ## ".toList expression
    let s ← relSign c h m row
    bufCat b s

/-! ## Names -/

/-- `OSL_strdup(.., names->x->string[i])` (for instance source/relation.c:371), `x` being the field number `field`. -/
def nameDup [Allocator] (names : Ptr) (field : Nat) (i : Int) : M Ptr := do
  let x ← getField names field
  let a ← getField x 0
  let s ← getField a i.toNat
  hStrdup s

/-- `for (i = offset; i < n + offset; i++) strings[i] = ..` (for instance source/relation.c:370-372). -/
def fillNames (get : Int → M Ptr) (strings : Ptr) (offset n : Int) : M Unit :=
  forM offset (n + offset) (fun i => do
    let d ← get (i - offset)
    setField strings i.toNat d)

/-- The name of an output dimension of an access (source/relation.c:362-368). -/
def accessName [Allocator] (i : Int) : M Ptr := alloc (.chars (if i = 0 then "Arr".toList else '[' :: showInt i ++ [']']))

/-- The name of an output dimension (source/relation.c:361-378). -/
def outputName [Allocator] (h : Hdr) (names : Ptr) (i : Int) : M Ptr :=
  if Rel.isAccessPart (hdrPart h []) then accessName i
  else if h.type = TYPE_DOMAIN ∨ h.type = TYPE_CONTEXT then nameDup names 1 i
  else nameDup names 2 i

/-- `osl_relation_strings` (source/relation.c:341-400); the dimensions must account for the columns. -/
def relStrings [Allocator] (h : Hdr) (names : Ptr) : M Ptr := do
  let _ ← lift (if (hdrPart h []).Dims then .ok () else .ub)
  let strings ← alloc (.ptrs (List.replicate (h.nb_columns.toNat + 1) 0))
  let s ← alloc (.chars "e/i".toList)
  setField strings 0 s
  fillNames (outputName h names) strings 1 h.nb_output_dims
  fillNames (nameDup names 1) strings (1 + h.nb_output_dims) h.nb_input_dims
  fillNames (nameDup names 3) strings (1 + h.nb_output_dims + h.nb_input_dims) h.nb_local_dims
  fillNames (nameDup names 0) strings (1 + h.nb_output_dims + h.nb_input_dims + h.nb_local_dims) h.nb_parameters
  let s ← alloc (.chars ['1'])
  setField strings (1 + h.nb_output_dims + h.nb_input_dims + h.nb_local_dims + h.nb_parameters).toNat s
  pure strings

/-- The strings of a NULL terminated array, from the index `i` on. -/
def readWords (arr : Ptr) : Nat → Nat → M (List Str)
  | 0, _ => undef
  | f + 1, i => do
    let s ← getField arr i
    if s = 0 then pure []
    else do
      let w ← loadChars s
      let l ← readWords arr f (i + 1)
      pure (w :: l)

/-- `osl_relation_column_string` (source/relation.c:593-656). -/
def relColumns [Allocator] (h : Hdr) (strings : Ptr) : M Ptr := do
  let scolumn ← alloc (.chars [])
  let l ← loadPtrs strings
  let ws ← readWords strings l.length 0
  let s ← lift (Rel.column_string (hdrPart h []) ws)
  store scolumn (.chars s)
  pure scolumn

/-- `osl_relation_names` (source/relation.c:745-757). -/
def relNames [Allocator] (c : Cfg) (p : Ptr) : M Ptr := do
  let a ← relAttributes c p ⟨UNDEFINED, UNDEFINED, UNDEFINED, UNDEFINED, UNDEFINED⟩
  namesGenerate ['P'] a.nb_parameters ['i'] a.nb_iterators ['c'] a.nb_scattdims ['l'] a.nb_localdims ['A'] a.array_id

/-! ## Relations -/

/-- One element of a row (source/relation.c:844-848). -/
def relPrintCell [Allocator] (c : Cfg) (h : Hdr) (m : Ptr) (i j : Int) (b : StrBuf) : M StrBuf := do
  let v ← mget (kind c h.precision) m i j
  let t ← lift (OInt.sprint c h.precision v)
  let t ← lift (Rel.buffered t)
  let b ← bufCat b t
  bufCat b [' ']

/-- One row (source/relation.c:843-859). -/
def relPrintRow [Allocator] (c : Cfg) (p : Ptr) (h : Hdr) (m : Ptr) (name_array names : Ptr) (i : Int) (b : StrBuf) : M StrBuf := do
  let b ← forS 0 h.nb_columns (fun j b => relPrintCell c h m i j b) b
  let x ← getField names 4
  let arrays ← getField x 0
  let comment ← relComment c p h m i name_array arrays
  let b ← bufTake b comment.ptr
  bufCat b ['\n']

/-- The line of the names of the columns (source/relation.c:836-841). -/
def relPrintColumns [Allocator] (h : Hdr) (name_array : Ptr) (b : StrBuf) : M StrBuf :=
  if h.nb_rows > 0 then do
    let scolumn ← relColumns h name_array
    bufExpr b [] scolumn
  else pure b

/-- The deallocation of the names (source/relation.c:862-866). -/
def relFreeNames (name_array : Ptr) (nb_columns : Int) : M Unit := do
  forM 0 nb_columns (fun i => do
    let s ← getField name_array i.toNat
    free s)
  free name_array

/-- One union part (source/relation.c:821-869): the string and the next part. -/
def relPrintPart [Allocator] (c : Cfg) (nb_parts : Nat) (part : Nat) (p names : Ptr) (b : StrBuf) : M (Ptr × StrBuf) := do
  let r ← loadRel p
  let name_array ← relStrings r.1 names
  let b ← bufCats b (if nb_parts > 1 then ["# Union part No.".toList ++ showNat part ++ ['\n']] else [])
  let b ← bufCat b (Rel.headerLine (hdrPart r.1 []))
  let b ← relPrintColumns r.1 name_array b
  let b ← forS 0 r.1.nb_rows (relPrintRow c p r.1 r.2.1 name_array names) b
  relFreeNames name_array r.1.nb_columns
  pure (r.2.2, b)

/-- The loop on the union parts (source/relation.c:821-869). -/
def relPrintParts [Allocator] (c : Cfg) (nb_parts : Nat) (names : Ptr) : Nat → Nat → Ptr → StrBuf → M StrBuf
  | 0, _, _, b => pure b
  | n + 1, part, p, b => do
    let r ← relPrintPart c nb_parts part p names b
    relPrintParts c nb_parts names n (part + 1) r.1 r.2

/-- The loop and what is before it (source/relation.c:812-869), the names being known. -/
def relPrintNamed [Allocator] (c : Cfg) (p names : Ptr) (b : StrBuf) : M StrBuf := do
  let n ← countAll relNext p
  let b ← bufCats b (if n > 1 then ["# Union with ".toList ++ showNat n ++ " parts\n".toList ++ showNat n ++ ['\n']] else [])
  relPrintParts c n names n 1 p b

/-- `osl_relation_spprint_polylib` (source/relation.c:786-875) on a non NULL relation. -/
def relPolylib [Allocator] (c : Cfg) (p names : Ptr) : M StrBuf := do
  let b ← bufNew
  if names = 0 then do
    let local_names ← relNames c p
    let b ← relPrintNamed c p local_names b
    namesFree local_names
    pure b
  else relPrintNamed c p names b

/-- `osl_relation_spprint_polylib` (source/relation.c:786-875). -/
def relSpprintPolylib [Allocator] (c : Cfg) (p names : Ptr) : M Ptr :=
  if p = 0 then alloc (.chars "# NULL relation\n".toList)
  else do
    let b ← relPolylib c p names
    pure b.ptr

/-- `osl_relation_sprint_type` (source/relation.c:103-149). -/
def relSprintType [Allocator] (type : Int) : M Ptr := alloc (.chars (Rel.sprint_type type))

/-- `osl_relation_spprint` (source/relation.c:1138-1161). -/
def relSpprint [Allocator] (c : Cfg) (p names : Ptr) : M Ptr := do
  let b ← bufNew
  let n ← countAll relNext p
  if n > 0 then do
    let r ← loadRel p
    let temp ← relSprintType r.1.type
    let b ← bufTake b temp
    let b ← bufCat b ['\n']
    let temp ← relSpprintPolylib c p names
    let b ← bufTake b temp
    pure b.ptr
  else pure b.ptr

/-- `osl_relation_sprint` (source/relation.c:1234-1236). -/
def relSprint [Allocator] (c : Cfg) (p : Ptr) : M Ptr := relSpprint c p 0

/-- `osl_relation_pprint` (source/relation.c:1200-1205). -/
def relPprint [Allocator] (c : Cfg) (p names : Ptr) : M Str := do
  let string ← relSpprint c p names
  writeFree string

/-- `osl_relation_print` (source/relation.c:1245-1247). -/
def relPrint [Allocator] (c : Cfg) (p : Ptr) : M Str := relPprint c p 0

end Osl.Mem
