import Verif.HeapPrintScop
import Verif.HeapPrintExt
import Verif.Scoplib
/-!
# Printing in the SCoPLib format in memory (source/relation.c, relation_list.c, body.c, generic.c, statement.c, scop.c)

The functions of `Verif/Scoplib.lean` on the memory of `Verif/Heap.lean`.

Simplifications: those of `Verif/HeapPrint.lean` and `Verif/HeapPrintScop.lean`; the text of the line of the columns is computed at once from the names in memory; the sizes
printed with `%d` are computed without overflow.
-/

namespace Osl.Mem

/-! ## Relations -/

/-- `osl_relation_column_string_scoplib` (source/relation.c:667-736). -/
def scColumns [Allocator] (h : Hdr) (strings : Ptr) : M Ptr := do
  let scolumn ← alloc (.chars [])
  let l ← loadPtrs strings
  let ws ← readWords strings l.length 0
  let s ← lift (Rel.column_string_scoplib (hdrPart h []) ws)
  store scolumn (.chars s)
  pure scolumn

/-- The first column of a row (source/relation.c:1006-1029). -/
def scFirst [Allocator] (c : Cfg) (h : Hdr) (m : Ptr) (access : Bool) (start i : Int) (b : StrBuf) : M StrBuf :=
  if !access then relPrintCell c h m i 0 b
  else if i = start then relPrintCell c h m 0 (h.nb_columns - 1) b
  else bufCats b ["   0 ".toList, [' ']]

/-- One column of a row which is not that of a domain (source/relation.c:1050-1060, 1068-1078). -/
def scCell [Allocator] (c : Cfg) (h : Hdr) (m : Ptr) (access : Bool) (zero : Str) (i j : Int) (b : StrBuf) : M StrBuf :=
  if access && decide (h.nb_rows = 1) && decide (j = h.nb_columns - 1) then bufCat b zero else relPrintCell c h m i j b

/-- The other columns of a row (source/relation.c:1031-1080). -/
def scRest [Allocator] (c : Cfg) (h : Hdr) (m : Ptr) (access fake : Bool) (i : Int) (b : StrBuf) : M StrBuf :=
  if h.type = TYPE_DOMAIN then do
    let b ← forS 1 (1 + h.nb_output_dims) (fun j b => relPrintCell c h m i j b) b
    forS (1 + h.nb_output_dims + h.nb_input_dims) h.nb_columns (fun j b => relPrintCell c h m i j b) b
  else do
    let b ← forS (1 + h.nb_output_dims) (1 + h.nb_output_dims + h.nb_input_dims) (fun j b => scCell c h m access "   0 ".toList i j b) b
    let b ← bufCats b (if fake then ["   0 ".toList] else [])
    forS (1 + h.nb_output_dims + h.nb_input_dims) h.nb_columns (fun j b => scCell c h m access "  0 ".toList i j b) b

/-- The comment of a row and the end of the line (source/relation.c:1082-1090). -/
def scComment [Allocator] (c : Cfg) (p : Ptr) (h : Hdr) (m : Ptr) (name_array names : Ptr) (i : Int) (b : StrBuf) : M StrBuf := do
  let x ← getField names 4
  let arrays ← getField x 0
  let comment ← relComment c p h m i name_array arrays
  let b ← bufTake b comment.ptr
  bufCat b ['\n']

/-- One row (source/relation.c:1005-1090). -/
def scRow [Allocator] (c : Cfg) (p : Ptr) (h : Hdr) (m : Ptr) (name_array names : Ptr) (access fake : Bool) (start i : Int) (b : StrBuf) : M StrBuf := do
  let b ← scFirst c h m access start i b
  let b ← scRest c h m access fake i b
  scComment c p h m name_array names i b

/-- One of the two rows added for the fake iterator (source/relation.c:1096-1104); `index_output_dims` is 1. -/
def scFakeRow [Allocator] (h : Hdr) (i : Int) (b : StrBuf) : M StrBuf := do
  let b ← forS 0 h.nb_columns (fun j b => bufCat b (if j = 1 ∧ i = 0 then "   1 ".toList else "   0 ".toList)) b
  bufCat b ['\n']

/-- What follows a row (source/relation.c:1092-1107): the counter of the rows, which the loop of the two added rows has changed, and the string. -/
def scAfter [Allocator] (h : Hdr) (fake : Bool) (i : Int) (b : StrBuf) : M (Int × StrBuf) :=
  if decide (h.nb_rows > 0) && fake && decide (h.type = TYPE_SCATTERING) then do
    let b ← scFakeRow h 0 b
    let b ← scFakeRow h 1 b
    pure (2, b)
  else pure (i, b)

/-- The loop on the rows (source/relation.c:1004-1108), from row `i` on; a loop which does not end in `fuel` turns is undefined. -/
def scRows [Allocator] (c : Cfg) (p : Ptr) (h : Hdr) (m : Ptr) (name_array names : Ptr) (access fake : Bool) (start : Int) : Nat → Int → StrBuf → M StrBuf
  | 0, i, b => if i < h.nb_rows then undef else pure b
  | f + 1, i, b =>
    if i < h.nb_rows then do
      let b ← scRow c p h m name_array names access fake start i b
      let r ← scAfter h fake i b
      scRows c p h m name_array names access fake start f (r.1 + 1) r.2
    else pure b

/-- The size of the matrix of a domain, and the row of the fake iterator (source/relation.c:954-980). -/
def scSizeDomain [Allocator] (h : Hdr) (fake : Bool) (b : StrBuf) : M StrBuf :=
  if fake then do
    let b ← bufCats b [Rel.sizeLine (h.nb_rows + 1) (h.nb_columns - h.nb_input_dims + 1), "   0 ".toList, "   1 ".toList]
    let b ← forS 0 h.nb_parameters (fun _ b => bufCat b "   0 ".toList) b
    bufCat b "    0  ## fakeiter == 0\n".toList
  else bufCat b (Rel.sizeLine h.nb_rows (h.nb_columns - h.nb_input_dims))

/-- The size of the matrix of another relation (source/relation.c:980-990). -/
def scSizeOther [Allocator] (h : Hdr) (fake : Bool) (b : StrBuf) : M StrBuf :=
  if fake then bufCat b (Rel.sizeLine (h.nb_rows + 2) (h.nb_columns - h.nb_output_dims + 1))
  else bufCat b (Rel.sizeLine h.nb_rows (h.nb_columns - h.nb_output_dims))

/-- The line of the names of the columns (source/relation.c:986-992). -/
def scPrintColumns [Allocator] (h : Hdr) (name_array : Ptr) (b : StrBuf) : M StrBuf :=
  if h.nb_rows > 0 then do
    let scolumn ← scColumns h name_array
    bufExpr b [] scolumn
  else pure b

/-- The size of the matrix and the names of the columns (source/relation.c:948-992); nothing for an access. -/
def scSize [Allocator] (h : Hdr) (name_array : Ptr) (access fake : Bool) (b : StrBuf) : M StrBuf :=
  if !access then
    if h.type = TYPE_DOMAIN then do
      let b ← scSizeDomain h fake b
      scPrintColumns h name_array b
    else do
      let b ← scSizeOther h fake b
      scPrintColumns h name_array b
  else pure b

/-- The first row to print (source/relation.c:994-1001). -/
def scStart (h : Hdr) (access : Bool) : Int := if !access then 0 else if h.nb_rows = 1 then 0 else 1

/-- One union part (source/relation.c:936-1120): the next part and the string. -/
def scPart [Allocator] (c : Cfg) (nb_parts part : Nat) (access nth fake : Bool) (p names : Ptr) (b : StrBuf) : M (Ptr × StrBuf) := do
  let r ← loadRel p
  let name_array ← relStrings r.1 names
  let b ← bufCats b (if nb_parts > 1 then ["# Union part No.".toList ++ showNat part ++ ['\n']] else [])
  let b ← bufCats b (if nth then [showNat part ++ ['\n']] else [])
  let b ← scSize r.1 name_array access fake b
  let b ← scRows c p r.1 r.2.1 name_array names access fake (scStart r.1 access) r.1.nb_rows.toNat (scStart r.1 access) b
  relFreeNames name_array r.1.nb_columns
  pure (r.2.2, b)

/-- The loop on the union parts (source/relation.c:936-1120). -/
def scParts [Allocator] (c : Cfg) (nb_parts : Nat) (access nth fake : Bool) (names : Ptr) : Nat → Nat → Ptr → StrBuf → M StrBuf
  | 0, _, _, b => pure b
  | n + 1, part, p, b => do
    let r ← scPart c nb_parts part access nth fake p names b
    scParts c nb_parts access nth fake names n (part + 1) r.1 r.2

/-- The loop and what is before it (source/relation.c:920-1120), the names being known. -/
def scNamed [Allocator] (c : Cfg) (nth fake : Bool) (p names : Ptr) (b : StrBuf) : M StrBuf := do
  let n ← countAll relNext p
  let b ← bufCats b (if n > 1 then ["# Union with ".toList ++ showNat n ++ " parts\n".toList ++ showNat n ++ ['\n']] else [])
  let r ← loadRel p
  scParts c n (Rel.isAccessArray r.1.type) nth fake names n 1 p b

/-- `osl_relation_spprint_polylib_scoplib` (source/relation.c:888-1128) on a non NULL relation. -/
def scPolylib [Allocator] (c : Cfg) (nth fake : Bool) (p names : Ptr) : M StrBuf := do
  let b ← bufNew
  if names = 0 then do
    let local_names ← relNames c p
    let b ← scNamed c nth fake p local_names b
    namesFree local_names
    pure b
  else scNamed c nth fake p names b

/-- `osl_relation_spprint_polylib_scoplib` (source/relation.c:888-1128). -/
def relSpprintPolylibScoplib [Allocator] (c : Cfg) (p names : Ptr) (nth fake : Bool) : M Ptr :=
  if p = 0 then alloc (.chars "# NULL relation\n".toList)
  else do
    let b ← scPolylib c nth fake p names
    pure b.ptr

/-- `osl_relation_spprint_scoplib` (source/relation.c:1173-1190). -/
def relSpprintScoplib [Allocator] (c : Cfg) (p names : Ptr) (nth fake : Bool) : M Ptr := do
  let b ← bufNew
  if p ≠ 0 then do
    let temp ← relSpprintPolylibScoplib c p names nth fake
    let b ← bufTake b temp
    pure b.ptr
  else pure b.ptr

/-- `osl_relation_pprint_scoplib` (source/relation.c:1217-1225): the text written. -/
def relPprintScoplib [Allocator] (c : Cfg) (p names : Ptr) (nth fake : Bool) : M Str := do
  let string ← relSpprintScoplib c p names nth fake
  writeFree string

/-! ## Accesses -/

/-- The six counters (source/relation_list.c:193-195). -/
structure AccessSizes where
  read : Int × Int
  write : Int × Int
  may : Int × Int
deriving DecidableEq

/-- The number of rows printed for an access (for instance source/relation_list.c:211-216) is added, and its number of columns is kept. -/
def accessAdd (h : Hdr) (s : Int × Int) : Int × Int := (if h.nb_rows = 1 then s.1 + 1 else s.1 + (h.nb_rows - 1), h.nb_columns - h.nb_output_dims)

/-- One turn of the loop computing the sizes (source/relation_list.c:207-238), on an access. -/
def accessCount (h : Hdr) (s : AccessSizes) : AccessSizes :=
  if h.type = TYPE_READ then { s with read := accessAdd h s.read }
  else if h.type = TYPE_WRITE then { s with write := accessAdd h s.write }
  else if h.type = TYPE_MAY_WRITE then { s with may := accessAdd h s.may }
  else s

/-- One turn of the loop computing the sizes (source/relation_list.c:207-238). -/
def accessSizeStep (head : Ptr) (s : AccessSizes) : M AccessSizes := do
  let elt ← getField head 0
  if elt ≠ 0 then do
    let r ← loadRel elt
    pure (accessCount r.1 s)
  else pure s

/-- One turn of the loop printing the accesses of type `type` (for instance source/relation_list.c:247-252). -/
def accessPrintStep [Allocator] (c : Cfg) (names : Ptr) (fake : Bool) (type : Int) (head : Ptr) (text : Str) : M Str := do
  let elt ← getField head 0
  if elt ≠ 0 then do
    let r ← loadRel elt
    if r.1.type = type then do
      let t ← relPprintScoplib c elt names false fake
      pure (text ++ t)
    else pure text
  else pure text

/-- The title, the size and the accesses of type `type` (for instance source/relation_list.c:246-254). -/
def accessPrint [Allocator] (c : Cfg) (list names : Ptr) (fake : Bool) (title : Str) (type : Int) (s : Int × Int) : M Str := do
  let t ← walk listNext (accessPrintStep c names fake type) list []
  pure (title ++ (Rel.sizeLine s.1 (s.2 + if fake then 1 else 0) ++ t))

/-- The accesses which may be done (source/relation_list.c:264-274). -/
def accessMay [Allocator] (c : Cfg) (list names : Ptr) (fake : Bool) (s : Int × Int) : M Str :=
  if s.1 > 0 then accessPrint c list names fake "# May Write access informations\n".toList TYPE_MAY_WRITE s else pure []

/-- `osl_relation_list_pprint_access_array_scoplib` (source/relation_list.c:189-276): the text written. -/
def listPprintAccess [Allocator] (c : Cfg) (list names : Ptr) (fake : Bool) : M Str := do
  let i ← listCount list
  if i > 0 then do
    let s ← walk listNext accessSizeStep list ⟨(0, 0), (0, 0), (0, 0)⟩
    let a ← accessPrint c list names fake "# Read access informations\n".toList TYPE_READ s.read
    let b ← accessPrint c list names fake "# Write access informations\n".toList TYPE_WRITE s.write
    let d ← accessMay c list names fake s.may
    pure (a ++ (b ++ d))
  else pure "# NULL relation list\n".toList

/-! ## Bodies and options -/

/-- The iterators (source/body.c:164-171). -/
def bodyItersScoplib [Allocator] (iterators : Ptr) (n : Nat) : M Str :=
  if n > 0 then do
    let t ← strPrint iterators
    pure ("# List of original iterators\n".toList ++ t)
  else pure "fakeiter\n".toList

/-- `osl_body_print_scoplib` (source/body.c:160-178): the text written. -/
def bodyPrintScoplib [Allocator] (body : Ptr) : M Str :=
  if body ≠ 0 then do
    let iterators ← getField body 0
    let n ← strSize iterators
    let t ← bodyItersScoplib iterators n
    let expression ← getField body 1
    let u ← strPrint expression
    pure (t ++ ("# Statement body expression\n".toList ++ u))
  else pure "# NULL statement body\n".toList

/-- `fprintf(file, "<arrays>\n%s</arrays>\n", string); free(string)` (source/generic.c:212-216). -/
def optionsText (string : Ptr) : M Str :=
  if string ≠ 0 then do
    let s ← writeFree string
    pure ("<arrays>\n".toList ++ (s ++ "</arrays>\n".toList))
  else pure []

/-- `osl_generic_print_options_scoplib` (source/generic.c:206-217): the text written. -/
def genPrintOptions [Allocator] (extension : Ptr) : M Str := do
  let arrays ← genFind URI_ARRAYS extension
  let string ← arraysSprint arrays
  optionsText string

/-! ## Statements -/

/-- `add_fakeiter` (source/statement.c:309-310). -/
def stmtFake (d s : Ptr) : M Bool := do
  let r ← loadRel d
  if r.1.nb_rows = 0 then do
    let r ← loadRel s
    pure (decide (r.1.nb_rows = 1))
  else pure false

/-- What is written before the body of a statement (source/statement.c:312-335). -/
def stmtScoplibText (number : Nat) (d s a : Str) : Str :=
  "# =============================================== Statement ".toList ++ (showNat number ++ ("\n".toList ++
    (Stmts.partLine number ".1 Domain".toList ++ ("# Iteration domain\n".toList ++ (d ++ ("\n".toList ++
    (Stmts.partLine number ".2 Scattering".toList ++ ("# Scattering function is provided\n1\n".toList ++ (s ++ ("\n".toList ++
    (Stmts.partLine number ".3 Access".toList ++ ("# Access informations are provided\n1\n".toList ++ (a ++ ("\n".toList ++
    Stmts.partLine number ".4 Body".toList))))))))))))))

/-- The relations of a statement (source/statement.c:309-335): the text. -/
def stmtRelsScoplib [Allocator] (c : Cfg) (names p : Ptr) (number : Nat) : M Str := do
  let d ← getField p 0
  let s ← getField p 1
  let fake ← stmtFake d s
  let td ← relPprintScoplib c d names true fake
  let ts ← relPprintScoplib c s names false fake
  let a ← getField p 2
  let ta ← listPprintAccess c a names fake
  pure (stmtScoplibText number td ts ta)

/-- The body of a statement (source/statement.c:336-343). -/
def stmtBodyScoplib [Allocator] (body : Ptr) : M Str :=
  if body ≠ 0 then do
    let t ← bodyPrintScoplib body
    pure ("# Statement body is provided\n1\n".toList ++ t)
  else pure "# Statement body is not provided\n0\n".toList

/-- The body of the loop of `osl_statement_pprint_scoplib` (source/statement.c:298-354); the state is the number and the text. -/
def stmtOneScoplib [Allocator] (c : Cfg) (names p : Ptr) (s : Nat × Str) : M (Nat × Str) := do
  let extension ← getField p 3
  let body ← genFind URI_BODY extension
  let iterators ← bodyIterators body
  let backup ← stmtUseIterators names iterators
  let t ← stmtRelsScoplib c names p s.1
  let tb ← stmtBodyScoplib body
  stmtRestore names iterators backup
  pure (s.1 + 1, s.2 ++ (t ++ (tb ++ "\n".toList)))

/-- `osl_statement_pprint_scoplib` (source/statement.c:279-357): the text written. -/
def stmtPprintScoplib [Allocator] (c : Cfg) (p input_names : Ptr) : M Str := do
  let names ← stmtChooseNames c p input_names
  let s ← walk stmtNext (stmtOneScoplib c names) p (1, [])
  namesFree names
  pure s.2

/-! ## Scops -/

/-- The names of the parameters (source/scop.c:358-361). -/
def scopParamsScoplib [Allocator] (parameters : Ptr) : M Str :=
  if parameters ≠ 0 then do
    let d ← getField parameters 1
    let t ← strPrint d
    pure ("# Parameter names\n".toList ++ t)
  else pure []

/-- The options (source/scop.c:368-373). -/
def scopOptionsScoplib [Allocator] (extension : Ptr) : M Str :=
  if extension ≠ 0 then do
    let t ← genPrintOptions extension
    pure ("# =============================================== Options\n".toList ++ t)
  else pure []

/-- What is written for one scop (source/scop.c:342-373): the language, the context, whether the parameters are provided, the parameters, the number of statements,
the statements, the options. -/
def scopScoplibText (tl ctx : Str) (b : Bool) (par : Str) (n : Nat) (ts to : Str) : Str :=
  "\nSCoP\n\n# =============================================== Global\n# Language\n".toList ++ (tl ++ ("\n\n# Context\n".toList ++
    (ctx ++ ("\n".toList ++ (Scops.provided b "Parameters are".toList ++ (par ++ ("\n# Number of statements\n".toList ++
    (showNat n ++ ("\n\n".toList ++ (ts ++ to))))))))))

/-- What is written for one scop (source/scop.c:342-373), the names being known. -/
def scopTextScoplib [Allocator] (c : Cfg) (names p : Ptr) : M Str := do
  let l ← getPtr p 0
  let tl ← languageTextAt l
  let x ← getPtr p 1
  let ctx ← relPprintScoplib c x names false false
  let g ← getPtr p 2
  let b ← genListIs URI_STRINGS g
  let par ← scopParamsScoplib g
  let st ← getPtr p 3
  let n ← stmtNumber st
  let ts ← stmtPprintScoplib c st names
  let e ← getPtr p 5
  let to ← scopOptionsScoplib e
  pure (scopScoplibText tl ctx b par n ts to)

/-- The body of the loop of `osl_scop_print_scoplib` (source/scop.c:326-388). -/
def scopOneScoplib [Allocator] (c : Cfg) (names p : Ptr) (text : Str) : M Str := do
  let g ← getPtr p 2
  let b ← genListIs URI_STRINGS g
  let params ← scopUseParams names g b
  let e ← getPtr p 5
  let arrays ← genFind URI_ARRAYS e
  let old ← scopUseArrays names arrays
  let t ← scopTextScoplib c names p
  scopRestoreParams names b params
  scopRestoreArrays names arrays old
  pure (text ++ t)

/-- What is written before the scops (source/scop.c:312-316). -/
def scopFileScoplib (release t : Str) : Str := "# [File generated by the OpenScop Library ".toList ++ (release ++ ("]\n# [SCoPLib format]\n".toList ++ t))

/-- `osl_scop_print_scoplib` (source/scop.c:300-392): the text written; `release` is OSL_RELEASE. -/
def scopPrintScoplib [Allocator] (c : Cfg) (release : Str) (p : Ptr) : M Str :=
  if p = 0 then pure "# NULL scop\n".toList
  else do
    let ok ← scopCheckScoplib c p
    if ok then do
      let names ← scopNames c p
      let t ← walk scopNext (scopOneScoplib c names) p []
      namesFree names
      pure (scopFileScoplib release t)
    else fail

end Osl.Mem
