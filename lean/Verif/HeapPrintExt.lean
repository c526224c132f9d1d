import Verif.HeapPrintList
import Verif.HeapReadLib
/-!
# Printing strings, bodies and extensions in memory (source/strings.c, source/body.c, source/extensions/*.c, source/generic.c)

The functions `sprint` of the interfaces: each allocates a string, reads the structure, frees the temporary strings and gives the string, or NULL.

Simplifications: as in `Verif/HeapPrint.lean`.  The texts made of integers and constants are not checked against the size of the local buffer (they are shorter than it);
the integers of a dependence are read at once.
-/

set_option linter.unusedSectionVars false

namespace Osl.Mem

open Osl.Ext

/-- `sprintf(buffer, ..); osl_util_safe_strcat(&string, buffer, &high_water_mark)` (for instance source/strings.c:137-138), the buffer having OSL_MAX_STRING
characters. -/
def bufPrint [Allocator] (b : StrBuf) (s : Str) : M StrBuf := do
  let s ← lift (buf s)
  bufCat b s

/-- `OSL_realloc(string, char*, (strlen(string) + 1) * sizeof(char))` (for instance source/extensions/arrays.c:167). -/
def bufDone [Allocator] (b : StrBuf) : M Ptr := do
  let s ← loadChars b.ptr
  free b.ptr
  alloc (.chars s)

/-- The string number `i` of an array of strings. -/
def loadWord (a : Ptr) (i : Nat) : M Str := do
  let s ← getField a i
  loadChars s

/-! ## Strings and bodies -/

/-- One turn of the loop of `osl_strings_sprint` (source/strings.c:136-141); `n` is the number of strings. -/
def strSprintStep [Allocator] (strings : Ptr) (n : Nat) (i : Int) (b : StrBuf) : M StrBuf := do
  let a ← getField strings 0
  let w ← loadWord a i.toNat
  let b ← bufPrint b w
  if i < (n : Int) - 1 then bufCat b [' '] else pure b

/-- `osl_strings_sprint` (source/strings.c:126-150). -/
def strSprint [Allocator] (strings : Ptr) : M Ptr := do
  let b ← bufNew
  if strings ≠ 0 then do
    let n ← strSize strings
    let b ← forS 0 n (strSprintStep strings n) b
    let b ← bufCat b ['\n']
    pure b.ptr
  else do
    let b ← bufCat b "# NULL strings\n".toList
    pure b.ptr

/-- `osl_strings_print` (source/strings.c:159-167): the text written. -/
def strPrint [Allocator] (strings : Ptr) : M Str := do
  let string ← strSprint strings
  writeFree string

/-- The iterators of `osl_body_sprint` (source/body.c:202-208). -/
def bodySprintIters [Allocator] (iterators : Ptr) (n : Nat) (b : StrBuf) : M StrBuf :=
  if n > 0 then do
    let b ← bufCat b "# List of original iterators\n".toList
    let t ← strSprint iterators
    bufTake b t
  else pure b

/-- `osl_body_sprint` (source/body.c:187-221). -/
def bodySprint [Allocator] (body : Ptr) : M Ptr := do
  let b ← bufNew
  if body ≠ 0 then do
    let iterators ← getField body 0
    let n ← strSize iterators
    let b ← bufCat b ("# Number of original iterators\n".toList ++ showNat n ++ "\n".toList)
    let b ← bodySprintIters iterators n b
    let b ← bufCat b "# Statement body expression\n".toList
    let expression ← getField body 1
    let t ← strSprint expression
    let b ← bufTake b t
    pure b.ptr
  else do
    let b ← bufCat b "# NULL body\n".toList
    pure b.ptr

/-- The iterators of `osl_body_print` (source/body.c:141-144). -/
def bodyPrintIters [Allocator] (iterators : Ptr) (n : Nat) : M Str :=
  if n > 0 then do
    let t ← strPrint iterators
    pure ("\n# List of original iterators\n".toList ++ t)
  else pure []

/-- `osl_body_print` (source/body.c:133-151): the text written. -/
def bodyPrint [Allocator] (body : Ptr) : M Str :=
  if body ≠ 0 then do
    let iterators ← getField body 0
    let n ← strSize iterators
    let t ← bodyPrintIters iterators n
    let expression ← getField body 1
    let u ← strPrint expression
    pure ("# Number of original iterators\n".toList ++ showNat n ++ "\n".toList ++ t ++ "\n# Statement body expression\n".toList ++ u)
  else pure "# NULL statement body\n".toList

/-! ## Simple extensions -/

/-- `osl_textual_sprint` (source/extensions/textual.c:168-171). -/
def textualSprint (_ : Ptr) : M Ptr := pure 0

/-- `osl_comment_sprint` (source/extensions/comment.c:138-156), `osl_clay_sprint` (source/extensions/clay.c:137-155). -/
def stringSprint [Allocator] (p : Ptr) : M Ptr :=
  if p ≠ 0 then do
    let b ← bufNew
    let s ← getField p 0
    let w ← loadChars s
    let b ← bufPrint b w
    bufDone b
  else pure 0

/-- `osl_null_sprint` (source/extensions/null.c:121-131). -/
def nullSprint [Allocator] (p : Ptr) : M Ptr := if p ≠ 0 then alloc (.chars []) else pure 0

/-- `osl_coordinates_sprint` (source/extensions/coordinates.c:152-181). -/
def coordSprint [Allocator] (p : Ptr) : M Ptr :=
  if p ≠ 0 then do
    let b ← bufNew
    let s ← getPtr p 0
    let name ← loadChars s
    let b ← bufPrint b ("# File name\n".toList ++ name ++ "\n".toList)
    let ls ← getInt p 0
    let cs ← getInt p 2
    let b ← bufPrint b ("# Starting line and column\n".toList ++ showInt ls ++ " ".toList ++ showInt cs ++ "\n".toList)
    let le ← getInt p 1
    let ce ← getInt p 3
    let b ← bufPrint b ("# Ending line and column\n".toList ++ showInt le ++ " ".toList ++ showInt ce ++ "\n".toList)
    let indent ← getInt p 4
    let b ← bufPrint b ("# Indentation\n".toList ++ showInt indent ++ "\n".toList)
    bufDone b
  else pure 0

/-- `osl_scatnames_sprint` (source/extensions/scatnames.c:134-136): NULL is dereferenced. -/
def scatnamesSprint [Allocator] (p : Ptr) : M Ptr := do
  let names ← getField p 0
  strSprint names

/-- `for (i = 0; i < n; i++) { sprintf(buffer, "%d<suffix>", a[i]); osl_util_safe_strcat(..) }` (source/extensions/scatinfos.c:188-191, 197-200, 206-209,
source/extensions/loop.c:218-221). -/
def printInts [Allocator] (a : Ptr) (n : Int) (suffix : Str) (b : StrBuf) : M StrBuf :=
  forS 0 n (fun i b => do
    let v ← getInt a i.toNat
    bufCat b (showInt v ++ suffix)) b

/-- One of the arrays of `osl_scatinfos_sprint` (source/extensions/scatinfos.c:184-191, 193-200, 202-209): its title, its elements. -/
def scatinfosRow [Allocator] (p : Ptr) (k : Nat) (title : Str) (b : StrBuf) : M StrBuf := do
  let n ← getInt p 0
  let b ← bufCats b (if n > 0 then [title] else [])
  let a ← getPtr p k
  printInts a n " ".toList b

/-- `osl_scatinfos_sprint` (source/extensions/scatinfos.c:170-220). -/
def scatinfosSprint [Allocator] (p : Ptr) : M Ptr :=
  if p ≠ 0 then do
    let b ← bufNew
    let n ← getInt p 0
    let b ← bufCats b ["# Number of scattering dimensions\n".toList, showInt n ++ "\n".toList]
    let b ← scatinfosRow p 0 "# Parallel info\n".toList b
    let b ← scatinfosRow p 1 "\n# Permutable info\n".toList b
    let b ← scatinfosRow p 2 "\n# Type info\n".toList b
    let b ← bufCats b (if n > 0 then ["\n".toList] else [])
    bufDone b
  else pure 0

/-- One turn of the loop of `osl_extbody_sprint` (source/extensions/extbody.c:166-169). -/
def extbodyStep [Allocator] (start length : Ptr) (i : Int) (b : StrBuf) : M StrBuf := do
  let v ← getInt start i.toNat
  let w ← getInt length i.toNat
  bufPrint b (showInt v ++ " ".toList ++ showInt w ++ "\n".toList)

/-- `osl_extbody_sprint` (source/extensions/extbody.c:146-177). -/
def extbodySprint [Allocator] (p : Ptr) : M Ptr :=
  if p ≠ 0 then do
    let b ← bufNew
    let n ← getInt p 0
    let b ← bufCats b ["# Number of accesses\n".toList, showInt n ++ "\n".toList]
    let b ← bufCats b (if n ≠ 0 then ["# Access coordinates (start/length)\n".toList] else [])
    let start ← getPtr p 0
    let length ← getPtr p 1
    let b ← forS 0 n (extbodyStep start length) b
    let body ← getPtr p 2
    let t ← bodySprint body
    let b ← bufTake b t
    pure b.ptr
  else pure 0

/-- One turn of the loop of `osl_arrays_sprint` (source/extensions/arrays.c:162-165). -/
def arraysStep [Allocator] (id names : Ptr) (i : Int) (b : StrBuf) : M StrBuf := do
  let v ← getInt id i.toNat
  let w ← loadWord names i.toNat
  bufPrint b (showInt v ++ " ".toList ++ w ++ "\n".toList)

/-- `osl_arrays_sprint` (source/extensions/arrays.c:142-171). -/
def arraysSprint [Allocator] (p : Ptr) : M Ptr :=
  if p ≠ 0 then do
    let b ← bufNew
    let n ← getInt p 0
    let b ← bufCats b ["# Number of arrays\n".toList, showInt n ++ "\n".toList]
    let b ← bufCats b (if n ≠ 0 then ["# Mapping array-identifiers/array-names\n".toList] else [])
    let id ← getPtr p 0
    let names ← getPtr p 1
    let b ← forS 0 n (arraysStep id names) b
    bufDone b
  else pure 0

/-! ## Texts -/

/-- One turn of the loop of the macros `..._sprint_text` (source/extensions/annotation.c:231-236, region.c:273-278). -/
def textStep [Allocator] (t : TextRec) (i : Int) (b : StrBuf) : M StrBuf := do
  let v ← getInt t.types i.toNat
  let b ← bufPrint b (showInt v ++ " ".toList)
  let w ← loadWord t.lines i.toNat
  bufPrint b (w ++ "\n".toList)

/-- The macros `_osl_annotation_sprint_text` (source/extensions/annotation.c:223-237), `_osl_region_sprint_text` (source/extensions/region.c:265-279), on the text number `k`
of the structure at `p`. -/
def textSprint [Allocator] (p : Ptr) (k : Nat) (name : Str) (b : StrBuf) : M StrBuf := do
  let t ← getText p k
  let b ← bufPrint b ("# ".toList ++ name ++ " count \n".toList)
  let b ← bufPrint b (showInt (wrap 32 t.count) ++ "\n".toList)
  let b ← bufPrint b ("# ".toList ++ name ++ " lines (if any)\n".toList)
  forS 0 t.count (textStep t) b

/-- `osl_annotation_sprint` (source/extensions/annotation.c:212-246): NULL is dereferenced. -/
def annSprint [Allocator] (p : Ptr) : M Ptr := do
  let b ← bufNew
  let b ← bufCat b Annotation.rule
  let b ← textSprint p 0 "Prefix".toList b
  let b ← textSprint p 1 "Suffix".toList b
  bufDone b

/-- One turn of the loop of `osl_region_sprint` (source/extensions/region.c:253-289); the state is the number of the previous turns and the string. -/
def regionStep [Allocator] (count : Nat) (p : Ptr) (s : Nat × StrBuf) : M (Nat × StrBuf) := do
  let b ← bufCat s.2 Annotation.rule
  let b ← bufPrint b ("# Region number ".toList ++ showInt (wrap 32 (s.1 + 1 : Nat)) ++ " / ".toList ++ showInt (wrap 32 count) ++ " \n".toList)
  let b ← bufCat b "# Location \n".toList
  let v ← getInt p 4
  let b ← bufPrint b (showInt v ++ "\n".toList)
  let b ← textSprint p 0 "Prefix".toList b
  let b ← textSprint p 1 "Suffix".toList b
  let b ← textSprint p 2 "Prelude".toList b
  let b ← textSprint p 3 "Postlude".toList b
  pure (s.1 + 1, b)

/-- `osl_region_sprint` (source/extensions/region.c:239-293). -/
def regionSprint [Allocator] (p : Ptr) : M Ptr := do
  let count ← countAll regionNext p
  let b ← bufNew
  let b ← bufPrint b ("# Number of regions\n".toList ++ showInt (wrap 32 count) ++ "\n".toList)
  let s ← walk regionNext (regionStep count) p (0, b)
  bufDone s.2

/-! ## Lists -/

/-- The end of the text of the directive (source/extensions/loop.c:234-240). -/
def loopPrintUser [Allocator] (p : Ptr) (directive : Int) (b : StrBuf) : M StrBuf :=
  if Loop.isUser directive then do
    let s ← getPtr p 3
    let u ← loadOpt s
    bufPrint b (" ".toList ++ Loop.percentS u)
  else pure b

/-- One turn of the loop of `osl_loop_sprint` (source/extensions/loop.c:199-240); the state is `nloop` and the string. -/
def loopStep [Allocator] (p : Ptr) (s : Nat × StrBuf) : M (Nat × StrBuf) := do
  let b ← bufCats s.2 ["# ===========================================\n".toList, "# Loop number ".toList ++ showNat (s.1 + 1) ++ " \n".toList, "# Iterator name\n".toList]
  let i ← getPtr p 0
  let it ← loadOpt i
  let b ← bufPrint b (Loop.percentS it ++ "\n".toList)
  let n ← getInt p 0
  let b ← bufCats b ["# Number of stmts\n".toList, showInt n ++ "\n".toList]
  let b ← bufCats b (if n ≠ 0 then ["# Statement identifiers\n".toList] else [])
  let a ← getPtr p 1
  let b ← printInts a n "\n".toList b
  let b ← bufCat b "# Private variables\n".toList
  let v ← getPtr p 2
  let pv ← loadOpt v
  let b ← bufPrint b (Loop.percentS pv ++ "\n".toList)
  let d ← getInt p 1
  let b ← bufCats b ["# Directive\n".toList, showInt d]
  let b ← loopPrintUser p d b
  let b ← bufCat b "\n".toList
  pure (s.1 + 1, b)

/-- `osl_loop_sprint` (source/extensions/loop.c:185-247). -/
def loopSprint [Allocator] (p : Ptr) : M Ptr := do
  let b ← bufNew
  let n ← countAll loopNext p
  let b ← bufCat b ("# Number of loops\n".toList ++ showInt n ++ "\n".toList)
  let s ← walk loopNext loopStep p (0, b)
  bufDone s.2

/-- One turn of the loop of `osl_pluto_unroll_sprint` (source/extensions/pluto_unroll.c:177-195); the state is the text in the local buffer. -/
def unrollStep (p : Ptr) (t : Str) : M Str := do
  let s ← getPtr p 0
  let w ← loadChars s
  let j ← getInt p 0
  let f ← getInt p 1
  let n ← getPtr p 1
  pure (t ++ ("# Iterator name\n".toList ++ w ++ "\n".toList ++ "# Jam\n".toList ++ showInt j ++ "\n".toList ++ "# Factor\n".toList ++ showInt f ++ "\n".toList ++
    "# Next\n".toList ++ (if n ≠ 0 then "1\n".toList else "0\n".toList)))

/-- `osl_pluto_unroll_sprint` (source/extensions/pluto_unroll.c:166-201): the text must fit in the local buffer. -/
def unrollSprint [Allocator] (p : Ptr) : M Ptr := do
  let t ← walk unrollNext unrollStep p ("# Pluto unroll\n".toList ++ (if p ≠ 0 then "1\n".toList else "0\n".toList))
  let t ← lift (buf t)
  alloc (.chars t)

/-- The integers of a dependence (include/osl/extensions/dependence.h:125-173); they are not all there in another structure. -/
def depInts : List Int → Out Dep
  | [a, b, c, d, e, f, g, h, i, j, k, l, m, n] => .ok ⟨a, b, c, d, e, f, [], g, h, i, j, k, l, m, n⟩
  | _ => .ub

/-- One turn of the loop of `osl_dependence_sprint` (source/extensions/dependence.c:266-325); the state is `nb_deps` and the string. -/
def depStep [Allocator] (c : Cfg) (p : Ptr) (s : Nat × StrBuf) : M (Nat × StrBuf) := do
  let is ← loadNode p
  let d ← lift (depInts is.1)
  let ty ← lift (Dep.typeText d.type)
  let b ← bufCat s.2 (Dep.infoText s.1 ty d)
  let b ← bufCat b (Dep.dimsText d)
  let domain ← getPtr p 0
  let t ← relSprint c domain
  let b ← bufTake b t
  pure (s.1 + 1, b)

/-- `osl_dependence_sprint` (source/extensions/dependence.c:248-329). -/
def depSprint [Allocator] (c : Cfg) (p : Ptr) : M Ptr := do
  let b ← bufNew
  let n ← countAll depNext p
  let b ← bufCat b ("# Number of dependences\n".toList ++ showInt n ++ "\n".toList)
  let s ← walk depNext (depStep c) p (1, b)
  pure s.2.ptr

/-- `osl_dependence_print` (source/extensions/dependence.c:236-241): the text written. -/
def depPrint [Allocator] (c : Cfg) (p : Ptr) : M Str := do
  let string ← depSprint c p
  let s ← writeFree string
  pure (s ++ "\n".toList)

/-! ## Generics -/

/-- The tags and the content of a generic (source/generic.c:164-171). -/
def genTags [Allocator] (content uri : Ptr) (b : StrBuf) : M StrBuf :=
  if content ≠ 0 then do
    let u ← loadChars uri
    let b ← bufPrint b (Util.startTag u ++ ['\n'])
    let b ← bufTake b content
    bufPrint b (Util.endTag u ++ ['\n'])
  else pure b

/-- The text of the generic with this interface and this data (source/generic.c:161-172); `sp` gives the functions `sprint` of the interfaces. -/
def genContent [Allocator] (sp : Nat → Ptr → M Ptr) (interface data : Ptr) (b : StrBuf) : M StrBuf :=
  if interface ≠ 0 then do
    let i ← loadIface interface
    let content ← sp i.fns.sprint data
    genTags content i.uri b
  else pure b

/-- One turn of the loop of `osl_generic_sprint` (source/generic.c:161-177). -/
def genSprintStep [Allocator] (sp : Nat → Ptr → M Ptr) (p : Ptr) (b : StrBuf) : M StrBuf := do
  let i ← getField p 0
  let d ← getField p 1
  let b ← genContent sp i d b
  let n ← getField p 2
  bufCats b (if n ≠ 0 then [['\n']] else [])

/-- `osl_generic_sprint` (source/generic.c:152-180). -/
def genSprint [Allocator] (sp : Nat → Ptr → M Ptr) (p : Ptr) : M Ptr := do
  let b ← bufNew
  let b ← walk genNext (genSprintStep sp) p b
  pure b.ptr

/-- `osl_generic_print` (source/generic.c:189-197): the text written. -/
def genPrint [Allocator] (sp : Nat → Ptr → M Ptr) (p : Ptr) : M Str := do
  let string ← genSprint sp p
  writeFree string

/-! ## Symbols -/

/-- `osl_generic_sprint` of the field number `k` of a symbol, with its title (source/extensions/symbols.c:269-273, 276-280, 283-287, 290-294). -/
def symPrintField [Allocator] (sp : Nat → Ptr → M Ptr) (p : Ptr) (k : Nat) (title : Str) (b : StrBuf) : M StrBuf := do
  let b ← bufCat b title
  let g ← getPtr p k
  let t ← genSprint sp g
  bufTake b t

/-- One turn of the loop of `osl_symbols_sprint` (source/extensions/symbols.c:229-297). -/
def symStep [Allocator] (sp : Nat → Ptr → M Ptr) (p : Ptr) (b : StrBuf) : M StrBuf := do
  let ty ← getInt p 0
  let b ← bufCats b ["# ===========================================\n".toList, "# 1 Data for symbol number 1 \n".toList, "# 1.1 Symbol type\n".toList, Symbol.typeText ty ++ "\n".toList]
  let g ← getInt p 1
  let b ← bufCat b ("\n# 1.2 Generated Boolean\n".toList ++ (showInt g ++ "\n".toList))
  let n ← getInt p 2
  let b ← bufCat b ("\n# 1.3 Number of dimensions\n".toList ++ (showInt n ++ "\n".toList))
  let b ← symPrintField sp p 0 "\n# 1.4 Identifier\n".toList b
  let b ← symPrintField sp p 1 "\n# 1.5 Datatype\n".toList b
  let b ← symPrintField sp p 2 "\n# 1.6 Scope\n".toList b
  symPrintField sp p 3 "\n# 1.7 Extent\n".toList b

/-- `osl_symbols_sprint` (source/extensions/symbols.c:216-301). -/
def symSprint [Allocator] (sp : Nat → Ptr → M Ptr) (p : Ptr) : M Ptr := do
  let b ← bufNew
  let n ← countAll symNext p
  let b ← bufCat b ("# Number of symbols\n".toList ++ (showInt (wrap 32 n) ++ "\n".toList))
  let b ← walk symNext (symStep sp) p b
  bufDone b

/-! ## The functions of the default registry -/

/-- The functions `sprint` of the interfaces, in the order of `osl_interface_get_default_registry` (source/interface.c:366-393). -/
def extSprint [Allocator] (c : Cfg) (sym : Ptr → M Ptr) : List (Ptr → M Ptr) :=
  [strSprint, bodySprint, relSprint c, textualSprint, stringSprint, nullSprint, scatinfosSprint, scatnamesSprint, arraysSprint, coordSprint, stringSprint, depSprint c, sym,
    extbodySprint, loopSprint, unrollSprint, regionSprint, annSprint]

/-- A call of the function `sprint` of the `k`th interface (source/generic.c:162). -/
def extSprintFn [Allocator] (c : Cfg) (sym : Ptr → M Ptr) (k : Nat) (p : Ptr) : M Ptr :=
  match (extSprint c sym)[k]? with
  | some f => f p
  | none => undef

/-- No symbols: never called. -/
def noSymSprint (_ : Ptr) : M Ptr := undef

/-- The functions `sprint` (source/interface.c:366-393) on data with symbols nested at most `n` times. -/
def sprintAt [Allocator] (c : Cfg) : Nat → Nat → Ptr → M Ptr
  | 0 => extSprintFn c noSymSprint
  | n + 1 => extSprintFn c (symSprint (sprintAt c n))

end Osl.Mem
