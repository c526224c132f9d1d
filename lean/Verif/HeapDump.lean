import Verif.HeapPrintExt
import Verif.HeapIrr
import Verif.HeapScop
import Verif.Dump
/-!
# The display functions in memory: `osl_..._idump`, `osl_..._dump`

The functions give the text they write in the file.

Simplifications: as in `Verif/Dump.lean` (the text of a line is written at once; the level is a natural number, the overflow of `level + 1`, of the node numbers and of the
loop counters is not modelled).  `fprintf("%s")` of NULL is undefined.  The fields of a structure written in one line are read before the line is written.
-/

set_option linter.unusedSectionVars false

namespace Osl.Mem

open Osl.Ext
open Osl.Dump (bars blank line)

/-! ## Loops -/

/-- A `for` loop writing a text at each turn (for instance source/strings.c:96-97). -/
def texts (n : Int) (f : Int → M Str) : M Str :=
  forS 0 n (fun i t => do
    let u ← f i
    pure (t ++ u)) []

/-- The first line of a node but the first (for instance source/statement.c:111-117). -/
def nodeHead (head : Nat → Ptr → M Str) (k : Nat) (p : Ptr) : M Str := if k = 1 then pure [] else head k p

/-- A turn of the loop of the display functions of the linked structures (for instance source/statement.c:110-143); the state is the number of the node and the text
already written. -/
def nodeTurn (N : Next) (head : Nat → Ptr → M Str) (body : Ptr → M Str) (sep : Str) (p : Ptr) (s : Nat × Str) : M (Nat × Str) := do
  let h ← nodeHead head s.1 p
  let b ← body p
  let n ← N.get p
  pure (s.1 + 1, s.2 ++ (h ++ b ++ (if n ≠ 0 then sep else [])))

/-- A display function of a linked structure (for instance source/statement.c:95-149): its first line, its nodes, its last line. -/
def dumpList (N : Next) (title : M Str) (head : Nat → Ptr → M Str) (body : Ptr → M Str) (sep last : Str) (p : Ptr) : M Str := do
  let h ← title
  let s ← walk N (nodeTurn N head body sep) p (1, [])
  pure (h ++ s.2 ++ last)

/-- The first line of a display function (for instance source/statement.c:99-107). -/
def oneTitle (p : Ptr) (level : Nat) (name null : Str) : M Str := pure (line level (if p ≠ 0 then name else null))

/-- The first line of a node, which depends on its number only (for instance source/extensions/loop.c:102-106). -/
def numHead (level : Nat) (before after : Str) (k : Nat) (_ : Ptr) : M Str := pure (line level (before ++ showNat k ++ after))

/-- The first line of a node (for instance source/generic.c:100-103). -/
def oneHead (level : Nat) (t : Str) (_ : Nat) (_ : Ptr) : M Str := pure (line level t)

/-! ## Strings, vectors, relations -/

/-- A string (source/strings.c:97). -/
def strDumpWord (strings : Ptr) (i : Int) : M Str := do
  let a ← getField strings 0
  let w ← loadWord a i.toNat
  pure (' ' :: w)

/-- `osl_strings_idump` (source/strings.c:85-106). -/
def strDump (p : Ptr) (level : Nat) : M Str :=
  if p ≠ 0 then do
    let n ← strSize p
    let t ← texts n (strDumpWord p)
    pure (line level ("+-- osl_strings_t:".toList ++ t) ++ blank (level + 1))
  else pure (line level "+-- NULL strings".toList ++ blank (level + 1))

/-- An integer (source/int.c:600-606) and the space which follows it. -/
def intText (c : Cfg) (p v : Int) : M Str := do
  let t ← lift (Dump.int c p v)
  pure (t ++ [' '])

/-- A coefficient of a vector (source/vector.c:106-107). -/
def vecDumpCell (c : Cfg) (precision : Int) (v : Ptr) (j : Int) : M Str := do
  let x ← getLoc (kind c precision) (v, j)
  intText c precision x

/-- `osl_vector_idump` (source/vector.c:84-122). -/
def vecDump (c : Cfg) (p : Ptr) (level : Nat) : M Str :=
  if p ≠ 0 then do
    let r ← loadVec p
    let e ← texts r.2.1 (vecDumpCell c r.1 r.2.2)
    pure (line level ("+-- osl_vector_t (".toList ++ Dump.precision c r.1 ++ ")".toList) ++ line (level + 1) (showInt r.2.1) ++
      line (level + 1) ("[ ".toList ++ e ++ "]".toList) ++ blank (level + 1))
  else pure (line level "+-- NULL vector".toList ++ blank (level + 1))

/-- `(type, precision)` (source/relation.c:183-187, 197-201; `osl_relation_print_type`, source/relation.c:158-162). -/
def relTypeText (c : Cfg) (h : Hdr) : Str := "(".toList ++ Rel.sprint_type h.type ++ ", ".toList ++ Dump.precision c h.precision ++ ")".toList

/-- The first line (source/relation.c:178-190). -/
def relTitle (c : Cfg) (p : Ptr) (level : Nat) : M Str :=
  if p ≠ 0 then do
    let r ← loadRel p
    pure (line level ("+-- osl_relation_t ".toList ++ relTypeText c r.1))
  else pure (line level "+-- NULL relation".toList)

/-- The first line of a part but the first (source/relation.c:193-201). -/
def relHeadLine (c : Cfg) (level : Nat) (_ : Nat) (p : Ptr) : M Str := do
  let r ← loadRel p
  pure (line level ("|   osl_relation_t ".toList ++ relTypeText c r.1))

/-- The attributes (source/relation.c:208-211). -/
def relDimsText (h : Hdr) : Str :=
  showInt h.nb_rows ++ [' '] ++ showInt h.nb_columns ++ [' '] ++ showInt h.nb_output_dims ++ [' '] ++ showInt h.nb_input_dims ++ [' '] ++
    showInt h.nb_local_dims ++ [' '] ++ showInt h.nb_parameters

/-- A coefficient (source/relation.c:222-223). -/
def relDumpCell (c : Cfg) (h : Hdr) (m : Ptr) (i j : Int) : M Str := do
  let v ← mget (kind c h.precision) m i j
  intText c h.precision v

/-- A row (source/relation.c:214-227). -/
def relDumpRow (c : Cfg) (level : Nat) (h : Hdr) (m : Ptr) (i : Int) : M Str := do
  let e ← texts h.nb_columns (relDumpCell c h m i)
  pure (line (level + 1) ("[ ".toList ++ e ++ "]".toList))

/-- A part (source/relation.c:205-227). -/
def relDumpBody (c : Cfg) (level : Nat) (p : Ptr) : M Str := do
  let r ← loadRel p
  let rows ← texts r.1.nb_rows (relDumpRow c level r.1 r.2.1)
  pure (line (level + 1) (relDimsText r.1) ++ rows)

/-- `osl_relation_idump` (source/relation.c:174-245). -/
def relDump (c : Cfg) (p : Ptr) (level : Nat) : M Str :=
  dumpList relNext (relTitle c p level) (relHeadLine c level) (relDumpBody c level) (line (level + 1) ['|'] ++ line (level + 1) ['V']) (blank (level + 1)) p

/-- A node (source/relation_list.c:106-112). -/
def listDumpBody (c : Cfg) (level : Nat) (p : Ptr) : M Str := do
  let e ← getField p 0
  let t ← relDump c e (level + 1)
  pure (blank (level + 2) ++ t)

/-- `osl_relation_list_idump` (source/relation_list.c:84-128). -/
def listDump (c : Cfg) (p : Ptr) (level : Nat) : M Str :=
  dumpList listNext (oneTitle p level "+-- osl_relation_list_t".toList "+-- NULL relation list".toList) (oneHead level "|   osl_relation_list_t".toList)
    (listDumpBody c level) (line (level + 1) ['V']) (blank (level + 1)) p

/-! ## Interfaces and generics -/

/-- The first line (source/interface.c:104-111). -/
def ifaceTitle (p : Ptr) (level : Nat) : M Str :=
  if p ≠ 0 then do
    let i ← loadIface p
    let u ← loadChars i.uri
    pure (line level ("+-- osl_interface_t: URI = ".toList ++ u))
  else pure (line level "+-- NULL interface".toList)

/-- The first line of an interface but the first (source/interface.c:114-122). -/
def ifaceHead (level : Nat) (_ : Nat) (p : Ptr) : M Str := do
  let i ← loadIface p
  let u ← loadOpt i.uri
  pure (line level ("|   osl_interface_t: URI = ".toList ++ Dump.uriText u))

/-- No more text for an interface (source/interface.c:113-136). -/
def noBody (_ : Ptr) : M Str := pure []

/-- `osl_interface_idump` (source/interface.c:100-143). -/
def ifaceDump (p : Ptr) (level : Nat) : M Str :=
  dumpList ifaceNext (ifaceTitle p level) (ifaceHead level) noBody (blank (level + 2) ++ line (level + 1) ['V']) (blank (level + 1)) p

/-- The display of the data (source/generic.c:112-113); `D` gives the functions `idump` of the interfaces. -/
def genDumpData (D : Nat → Ptr → Nat → M Str) (level : Nat) (interface data : Ptr) : M Str :=
  if interface ≠ 0 then do
    let i ← loadIface interface
    D i.fns.idump data (level + 1)
  else pure []

/-- A node (source/generic.c:105-113). -/
def genDumpBody (D : Nat → Ptr → Nat → M Str) (level : Nat) (p : Ptr) : M Str := do
  let i ← getField p 0
  let t ← ifaceDump i (level + 1)
  let d ← getField p 1
  let u ← genDumpData D level i d
  pure (blank (level + 2) ++ t ++ u)

/-- `osl_generic_idump` (source/generic.c:85-132). -/
def genDump (D : Nat → Ptr → Nat → M Str) (p : Ptr) (level : Nat) : M Str :=
  dumpList genNext (oneTitle p level "+-- osl_generic_t".toList "+-- NULL generic".toList) (oneHead level "|   osl_generic_t".toList) (genDumpBody D level)
    (line (level + 1) ['V']) (blank (level + 1)) p

/-! ## Statements and scops -/

/-- A node (source/statement.c:119-133). -/
def stmtDumpBody (c : Cfg) (D : Nat → Ptr → Nat → M Str) (level : Nat) (p : Ptr) : M Str := do
  let d ← getField p 0
  let t ← relDump c d (level + 1)
  let s ← getField p 1
  let u ← relDump c s (level + 1)
  let a ← getField p 2
  let v ← listDump c a (level + 1)
  let e ← getField p 3
  let w ← genDump D e (level + 1)
  pure (blank (level + 2) ++ t ++ u ++ v ++ w)

/-- `osl_statement_idump` (source/statement.c:95-149). -/
def stmtDump (c : Cfg) (D : Nat → Ptr → Nat → M Str) (p : Ptr) (level : Nat) : M Str :=
  dumpList stmtNext (oneTitle p level "+-- osl_statement_t (S1)".toList "+-- NULL statement".toList) (numHead level "|   osl_statement_t (S".toList ")".toList)
    (stmtDumpBody c D level) (line (level + 1) ['V']) (blank (level + 1)) p

/-- A node (source/scop.c:112-151). -/
def scopDumpBody (c : Cfg) (D : Nat → Ptr → Nat → M Str) (level : Nat) (p : Ptr) : M Str := do
  let v ← getInt p 0
  let l ← getPtr p 0
  let lang ← loadChars l
  let x ← getPtr p 1
  let ctx ← relDump c x (level + 1)
  let g ← getPtr p 2
  let par ← genDump D g (level + 1)
  let s ← getPtr p 3
  let st ← stmtDump c D s (level + 1)
  let r ← getPtr p 4
  let reg ← ifaceDump r (level + 1)
  let e ← getPtr p 5
  let ext ← genDump D e (level + 1)
  pure (blank (level + 2) ++ line level ("|\tVersion: ".toList ++ showInt v) ++ blank (level + 2) ++ line level ("|\tLanguage: ".toList ++ lang) ++
    blank (level + 2) ++ ctx ++ par ++ st ++ reg ++ ext)

/-- `osl_scop_idump` (source/scop.c:91-166). -/
def scopDump (c : Cfg) (D : Nat → Ptr → Nat → M Str) (p : Ptr) (level : Nat) : M Str :=
  dumpList scopNext (oneTitle p level "+-- osl_scop_t".toList "+-- NULL scop".toList) (oneHead level "|   osl_scop_t".toList) (scopDumpBody c D level)
    (line (level + 1) ['V']) (blank (level + 1)) p

/-! ## Names, bodies, simple extensions -/

/-- `osl_names_idump` (source/names.c:83-113). -/
def namesDump (p : Ptr) (level : Nat) : M Str :=
  if p ≠ 0 then do
    let a ← getField p 0
    let t ← strDump a (level + 1)
    let b ← getField p 1
    let u ← strDump b (level + 1)
    let s ← getField p 2
    let v ← strDump s (level + 1)
    let d ← getField p 3
    let w ← strDump d (level + 1)
    let e ← getField p 4
    let x ← strDump e (level + 1)
    pure (line level "+-- osl_names_t".toList ++ blank (level + 2) ++ t ++ u ++ v ++ w ++ x ++ blank (level + 1))
  else pure (line level "+-- NULL names".toList ++ blank (level + 1))

/-- `osl_body_idump` (source/body.c:85-113). -/
def bodyDump (p : Ptr) (level : Nat) : M Str :=
  if p ≠ 0 then do
    let a ← getField p 0
    let t ← strDump a (level + 1)
    let b ← getField p 1
    let u ← strDump b (level + 1)
    pure (line level "+-- osl_body_t".toList ++ blank (level + 2) ++ t ++ u ++ blank (level + 1))
  else pure (line level "+-- NULL body".toList ++ blank (level + 1))

/-- The copy of the string without its ends of lines (source/extensions/textual.c:100-103, comment.c:106-109, clay.c:105-108): the copy is modified in place. -/
def lineCopy [Allocator] (s : Ptr) : M Ptr := do
  let w ← loadChars s
  let t ← alloc (.chars w)
  store t (.chars (Dump.oneLine w))
  pure t

/-- The display of the copy and its release (source/extensions/comment.c:110-111, clay.c:109-110, textual.c:105-115). -/
def lineFree [Allocator] (s : Ptr) : M Str := do
  let t ← lineCopy s
  let w ← loadChars t
  free t
  pure w

/-- The middle of a long text is not displayed (source/extensions/textual.c:105-114). -/
def shortText (t : Str) : Str := if t.length > 40 then t.take 20 ++ "   ...   ".toList ++ t.drop (t.length - 20) else t

/-- `osl_textual_idump` (source/extensions/textual.c:87-124). -/
def textualDump [Allocator] (p : Ptr) (level : Nat) : M Str :=
  if p ≠ 0 then do
    let s ← getField p 0
    let t ← lineFree s
    pure (line level ("+-- osl_textual_t: ".toList ++ shortText t) ++ blank (level + 1))
  else pure (line level "+-- NULL textual".toList ++ blank (level + 1))

/-- `osl_comment_idump` (source/extensions/comment.c:85-118). -/
def commentDump [Allocator] (p : Ptr) (level : Nat) : M Str :=
  if p ≠ 0 then do
    let s ← getField p 0
    let t ← lineFree s
    pure (line level "+-- osl_comment_t".toList ++ line (level + 1) ("comment: ".toList ++ t) ++ blank (level + 1))
  else pure (line level "+-- NULL comment".toList ++ blank (level + 1))

/-- `osl_clay_idump` (source/extensions/clay.c:85-117). -/
def clayDump [Allocator] (p : Ptr) (level : Nat) : M Str :=
  if p ≠ 0 then do
    let s ← getField p 0
    let t ← lineFree s
    pure (line level "+-- osl_clay_t".toList ++ line (level + 1) ("script: ".toList ++ t) ++ blank (level + 1))
  else pure (line level "+-- NULL clay".toList ++ blank (level + 1))

/-- `osl_null_idump` (source/extensions/null.c:85-101). -/
def nullDump (p : Ptr) (level : Nat) : M Str := pure (line level (if p ≠ 0 then "+-- osl_null_t".toList else "+-- NULL null".toList) ++ blank (level + 1))

/-- `fprintf(file, "%d, ", array[i])` (source/extensions/scatinfos.c:109-111). -/
def intItem (a : Ptr) (i : Int) : M Str := do
  let v ← getInt a i.toNat
  pure (showInt v ++ ", ".toList)

/-- `osl_scatinfos_idump` (source/extensions/scatinfos.c:85-149). -/
def scatinfosDump (p : Ptr) (level : Nat) : M Str :=
  if p ≠ 0 then do
    let n ← getInt p 0
    let a ← getPtr p 0
    let t ← texts n (intItem a)
    let b ← getPtr p 1
    let u ← texts n (intItem b)
    let d ← getPtr p 2
    let v ← texts n (intItem d)
    pure (line level "+-- osl_scatinfos_t".toList ++ line (level + 1) ("+--nb_scatdims: ".toList ++ showInt n) ++
      blank (level + 2) ++ line (level + 1) ("+--parallel--: ".toList ++ t) ++
      blank (level + 2) ++ line (level + 1) ("+--permutable: ".toList ++ u) ++
      blank (level + 2) ++ line (level + 1) ("+--type------: ".toList ++ v) ++ blank (level + 1))
  else pure (line level "+-- NULL scatinfos".toList ++ blank (level + 1))

/-- `osl_scatnames_idump` (source/extensions/scatnames.c:86-113). -/
def scatnamesDump (p : Ptr) (level : Nat) : M Str :=
  if p ≠ 0 then do
    let a ← getField p 0
    let t ← strDump a (level + 1)
    pure (line level "+-- osl_scatnames_t".toList ++ blank (level + 2) ++ t ++ blank (level + 1))
  else pure (line level "+-- NULL scatnames".toList ++ blank (level + 1))

/-- An array (source/extensions/arrays.c:110-114). -/
def arraysDumpItem (level : Nat) (id names : Ptr) (i : Int) : M Str := do
  let v ← getInt id i.toNat
  let w ← loadWord names i.toNat
  pure (line (level + 1) ("id: ".toList ++ padLeft 2 (showInt v) ++ ", name: ".toList ++ w))

/-- `osl_arrays_idump` (source/extensions/arrays.c:87-122). -/
def arraysDump (p : Ptr) (level : Nat) : M Str :=
  if p ≠ 0 then do
    let n ← getInt p 0
    let id ← getPtr p 0
    let names ← getPtr p 1
    let t ← texts n (arraysDumpItem level id names)
    pure (line level "+-- osl_arrays_t".toList ++ line (level + 1) ("nb_names: ".toList ++ showInt n) ++ t ++ blank (level + 1))
  else pure (line level "+-- NULL arrays".toList ++ blank (level + 1))

/-- `osl_coordinates_idump` (source/extensions/coordinates.c:85-131). -/
def coordDump (p : Ptr) (level : Nat) : M Str :=
  if p ≠ 0 then do
    let s ← getPtr p 0
    let name ← loadOpt s
    let ls ← getInt p 0
    let cs ← getInt p 2
    let le ← getInt p 1
    let ce ← getInt p 3
    let indent ← getInt p 4
    pure (line level "+-- osl_coordinates_t".toList ++ line (level + 1) (Dump.coordName name) ++
      line (level + 1) ("Coordinates: [".toList ++ showInt ls ++ ",".toList ++ showInt cs ++ " -> ".toList ++ showInt le ++ ",".toList ++ showInt ce ++ "]".toList) ++
      line (level + 1) ("Indentation: ".toList ++ showInt indent) ++ blank (level + 1))
  else pure (line level "+-- NULL coordinates".toList ++ blank (level + 1))

/-- An access (source/extensions/extbody.c:109-116). -/
def extbodyDumpItem (level : Nat) (start length : Ptr) (i : Int) : M Str := do
  let v ← getInt start i.toNat
  let w ← getInt length i.toNat
  pure (line (level + 1) ("start: ".toList ++ showInt v ++ ", length: ".toList ++ showInt w))

/-- `osl_extbody_idump` (source/extensions/extbody.c:86-126). -/
def extbodyDump (p : Ptr) (level : Nat) : M Str :=
  if p ≠ 0 then do
    let n ← getInt p 0
    let start ← getPtr p 0
    let length ← getPtr p 1
    let t ← texts n (extbodyDumpItem level start length)
    let body ← getPtr p 2
    let u ← bodyDump body level
    pure (line level "+-- osl_extbody_t".toList ++ line (level + 1) ("nb_access: ".toList ++ showInt n) ++ t ++ u ++ blank (level + 1))
  else pure (line level "+-- NULL extbody".toList ++ blank (level + 1))

/-! ## Lists of extensions -/

/-- A statement number (source/extensions/loop.c:133). -/
def loopDumpId (a : Ptr) (i : Int) : M Str := do
  let v ← getInt a i.toNat
  pure (padLeft 2 (showInt v) ++ ", ".toList)

/-- A node (source/extensions/loop.c:113-147). -/
def loopDumpBody (level : Nat) (p : Ptr) : M Str := do
  let s ← getPtr p 0
  let it ← loadChars s
  let n ← getInt p 0
  let a ← getPtr p 1
  let ids ← texts n (loopDumpId a)
  let v ← getPtr p 2
  let pv ← loadChars v
  let d ← getInt p 1
  let u ← getPtr p 3
  let us ← loadChars u
  pure (blank (level + 2) ++ line (level + 1) ("+--iterator: ".toList ++ it) ++ line (level + 1) ("+--nb_stmts: ".toList ++ showInt n) ++
    line (level + 1) ("+--stmt_ids:".toList ++ ids) ++ line (level + 1) ("+--private_vars: ".toList ++ pv) ++ line (level + 1) ("+--directive: ".toList ++ showInt d) ++
    line (level + 1) ("+--user: ".toList ++ us))

/-- `osl_loop_idump` (source/extensions/loop.c:88-164). -/
def loopDump (p : Ptr) (level : Nat) : M Str :=
  dumpList loopNext (oneTitle p level "+-- osl_loop_t".toList "+-- NULL loop".toList) (numHead level "|   osl_loop_t (node ".toList ")".toList) (loopDumpBody level)
    (line (level + 1) ['V']) (blank (level + 1)) p

/-- A node (source/extensions/pluto_unroll.c:108-126). -/
def unrollDumpBody (level : Nat) (p : Ptr) : M Str := do
  let s ← getPtr p 0
  let it ← loadChars s
  let j ← getInt p 0
  let f ← getInt p 1
  pure (blank (level + 2) ++ line (level + 1) ("+--iterator: ".toList ++ it) ++ line (level + 1) ("+--jam: ".toList ++ showInt j) ++
    line (level + 1) ("+--factor: ".toList ++ showInt f))

/-- `osl_pluto_unroll_idump` (source/extensions/pluto_unroll.c:83-142). -/
def unrollDump (p : Ptr) (level : Nat) : M Str :=
  dumpList unrollNext (oneTitle p level "+-- osl_pluto_unroll_t".toList "+-- NULL pluto_unroll".toList) (numHead level "|   osl_pluto_unroll_t (node ".toList ")".toList)
    (unrollDumpBody level) (line (level + 1) ['V']) (blank (level + 1)) p

/-- A line of a text (source/extensions/annotation.c:109-111, region.c:107-109). -/
def textItem (level : Nat) (t : TextRec) (i : Int) : M Str := do
  let v ← getInt t.types i.toNat
  let w ← loadWord t.lines i.toNat
  pure (line level ("+--type ".toList ++ showInt i ++ ": ".toList ++ showInt v) ++ line 0 ("+--line ".toList ++ showInt i ++ ": ".toList ++ w))

/-- `osl_annotation_text_idump` (source/extensions/annotation.c:106-113), `osl_region_text_idump` (source/extensions/region.c:104-111), on the text number `k` of the
structure at `p`. -/
def textDump (p : Ptr) (k level : Nat) : M Str := do
  let t ← getText p k
  texts t.count (textItem level t)

/-- `osl_annotation_idump` (source/extensions/annotation.c:187-207): NULL is dereferenced. -/
def annDump (p : Ptr) (level : Nat) : M Str := do
  let t ← textDump p 0 (level + 2)
  let u ← textDump p 1 (level + 2)
  pure (line level "+-- osl_annotation_t".toList ++ blank level ++ t ++ u ++ blank level)

/-- A node (source/extensions/region.c:213-225). -/
def regionDumpBody (level : Nat) (p : Ptr) : M Str := do
  let l ← getInt p 4
  let t ← textDump p 0 (level + 2)
  let u ← textDump p 1 (level + 2)
  let v ← textDump p 2 (level + 2)
  let w ← textDump p 3 (level + 2)
  pure (blank level ++ line level ("+--location: ".toList ++ showInt l) ++ t ++ u ++ v ++ w)

/-- `osl_region_idump` (source/extensions/region.c:195-234). -/
def regionDump (p : Ptr) (level : Nat) : M Str :=
  dumpList regionNext (oneTitle p level "+-- osl_region_t".toList "+-- NULL region".toList) (numHead level "|   osl_region_t (node ".toList ")".toList)
    (regionDumpBody level) [] (blank level) p

/-! ## The irregular extension -/

/-- `fprintf(file, "%d ", irregular->predicates[i][j])` (source/extensions/irregular.c:109). -/
def irrDumpNum (pr : Ptr) (i j : Int) : M Str := do
  let a ← slotPtr pr i
  let v ← slotInt a j
  pure (showInt v ++ [' '])

/-- The predicates of a statement (source/extensions/irregular.c:106-110). -/
def irrDumpStmt (np pr : Ptr) (i : Int) : M Str := do
  let n ← slotInt np i
  let t ← texts n (irrDumpNum pr i)
  pure ("statement".toList ++ showInt i ++ "'s predicats : ".toList ++ t ++ "\n".toList)

/-- An iterator (source/extensions/irregular.c:118, 126). -/
def irrDumpIter (it : Ptr) (i j : Int) : M Str := do
  let a ← slotPtr it i
  let s ← slotPtr a j
  let w ← loadChars s
  pure (w ++ [' '])

/-- A predicate (source/extensions/irregular.c:116-119, 124-127). -/
def irrDumpPred (what : Str) (o : Ptr × Ptr × Ptr) (i : Int) : M Str := do
  let n ← slotInt o.1 i
  let its ← texts n (irrDumpIter o.2.1 i)
  let s ← slotPtr o.2.2 i
  let b ← loadChars s
  pure ("predicat".toList ++ showInt i ++ "'s\niterators : ".toList ++ its ++ "\n".toList ++ what ++ " body: ".toList ++ b ++ "\n".toList)

/-- `osl_irregular_idump` (source/extensions/irregular.c:87-136); the overflow of `nb_control + nb_exit` is not modelled. -/
def irrDump (p : Ptr) (level : Nat) : M Str :=
  if p ≠ 0 then do
    let n ← getInt p 2
    let np ← getPtr p 3
    let pr ← getPtr p 4
    let t ← texts n (irrDumpStmt np pr)
    let c ← getInt p 0
    let e ← getInt p 1
    let o ← irrPreds p
    let u ← texts c (irrDumpPred "control".toList o)
    let v ← texts e (fun i => irrDumpPred "exit".toList o (c + i))
    pure (line level "+-- osl_irregular_t".toList ++ bars (level + 1) ++ t ++ u ++ v ++ blank (level + 1))
  else pure (line level "+-- NULL irregular".toList ++ blank (level + 1))

/-! ## Dependences and symbols -/

/-- A statement displayed alone (source/extensions/dependence.c:178-181, 187-190): its `next` pointer is NULL for a while; `stmt` is `osl_statement_idump`. -/
def depDumpStmt (stmt : Ptr → Nat → M Str) (q : Ptr) (level : Nat) : M Str := do
  let tmp ← stmtNext.get q
  stmtNext.set q 0
  let t ← stmt q level
  stmtNext.set q tmp
  pure t

/-- A node (source/extensions/dependence.c:114-205). -/
def depDumpBody (c : Cfg) (stmt : Ptr → Nat → M Str) (level : Nat) (p : Ptr) : M Str := do
  let is ← loadNode p
  let d ← lift (depInts is.1)
  let q ← getPtr p 1
  let s ← depDumpStmt stmt q (level + 1)
  let q ← getPtr p 2
  let t ← depDumpStmt stmt q (level + 1)
  let domain ← getPtr p 0
  let u ← relDump c domain (level + 1)
  pure (blank (level + 2) ++ line (level + 1) ("Type: ".toList ++ Dump.depType d.type) ++
    blank (level + 2) ++ line (level + 1) ("Depth: ".toList ++ showInt d.depth) ++
    blank (level + 2) ++ line (level + 1) ("Ref source: ".toList ++ showInt d.ref_source ++ ", Ref target: ".toList ++ showInt d.ref_target) ++
    blank (level + 2) ++ line (level + 1) ("Statement label: ".toList ++ showInt d.label_source) ++ s ++
    line (level + 1) ("Target label: ".toList ++ showInt d.label_target) ++ t ++ line (level + 1) (Dep.dimsLine d) ++ u)

/-- `osl_dependence_idump` (source/extensions/dependence.c:91-220). -/
def depDump (c : Cfg) (stmt : Ptr → Nat → M Str) (p : Ptr) (level : Nat) : M Str :=
  dumpList depNext (oneTitle p level "+-- osl_dependence_p".toList "+-- NULL dependence".toList) (oneHead level "|   osl_dependence_p".toList) (depDumpBody c stmt level)
    (line (level + 1) ['V']) (blank (level + 1)) p

/-- The origin of a symbol (source/extensions/symbols.c:145-151). -/
def symOrigin (v : Int) : Str := if v ≠ UNDEFINED then "+-- Origin: ".toList ++ showInt v else "+-- Undefined origin".toList

/-- The number of dimensions of a symbol (source/extensions/symbols.c:159-166). -/
def symDims (v : Int) : Str := if v ≠ UNDEFINED then "+-- Number of Dimensions: ".toList ++ showInt v else "+-- Undefined number of dimensions".toList

/-- A node (source/extensions/symbols.c:110-180). -/
def symDumpBody (D : Nat → Ptr → Nat → M Str) (level : Nat) (p : Ptr) : M Str := do
  let ty ← getInt p 0
  let g ← getInt p 1
  let n ← getInt p 2
  let a ← getPtr p 0
  let i ← genDump D a (level + 1)
  let b ← getPtr p 1
  let d ← genDump D b (level + 1)
  let s ← getPtr p 2
  let u ← genDump D s (level + 1)
  let e ← getPtr p 3
  let v ← genDump D e (level + 1)
  pure (blank (level + 2) ++ line (level + 1) (Dump.symType ty) ++ blank (level + 2) ++ line (level + 1) (symOrigin g) ++
    blank (level + 2) ++ line (level + 1) (symDims n) ++ blank (level + 2) ++ i ++ d ++ u ++ v)

/-- `osl_symbols_idump` (source/extensions/symbols.c:86-196). -/
def symDump (D : Nat → Ptr → Nat → M Str) (p : Ptr) (level : Nat) : M Str :=
  dumpList symNext (oneTitle p level "+-- osl_symbols_t".toList "+-- NULL symbols".toList) (numHead level "|   osl_symbol_t (node ".toList ")".toList) (symDumpBody D level)
    (line (level + 1) ['V']) (blank (level + 1)) p

/-! ## The functions of the default registry -/

/-- The functions `idump` of the interfaces, in the order of `osl_interface_get_default_registry` (source/interface.c:366-393); `stmt` displays the statements of the
dependences, `sym` the symbols. -/
def extDump [Allocator] (c : Cfg) (stmt sym : Ptr → Nat → M Str) : List (Ptr → Nat → M Str) :=
  [strDump, bodyDump, relDump c, textualDump, commentDump, nullDump, scatinfosDump, scatnamesDump, arraysDump, coordDump, clayDump, depDump c stmt, sym, extbodyDump,
    loopDump, unrollDump, regionDump, annDump]

/-- A call of the function `idump` of the `k`th interface (source/generic.c:113). -/
def extDumpFn [Allocator] (c : Cfg) (stmt sym : Ptr → Nat → M Str) (k : Nat) (p : Ptr) (level : Nat) : M Str :=
  match (extDump c stmt sym)[k]? with
  | some f => f p level
  | none => undef

/-- No statements, no symbols: never called. -/
def noDump (_ : Ptr) (_ : Nat) : M Str := undef

/-- The functions `idump` (source/interface.c:366-393) on data with symbols and statements of dependences nested at most `n` times. -/
def dumpAt [Allocator] (c : Cfg) : Nat → Nat → Ptr → Nat → M Str
  | 0 => extDumpFn c noDump noDump
  | n + 1 => extDumpFn c (stmtDump c (dumpAt c n)) (symDump (dumpAt c n))

/-- `osl_scop_dump` (source/scop.c:175-177); the other functions `osl_..._dump` are alike (source/strings.c:115-117, source/body.c:122-124, source/generic.c:141-143,
source/interface.c:152-155, source/names.c:122-124, source/relation.c:254-256, source/relation_list.c:137-140, source/statement.c:158-160, source/vector.c:131-133). -/
def dump0 (f : Ptr → Nat → M Str) (p : Ptr) : M Str := f p 0

end Osl.Mem
