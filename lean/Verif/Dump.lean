import Verif.Library
import Verif.ExtIrregular
import Verif.Vector
/-!
# Model of the display functions `osl_..._idump` and `osl_..._dump`

The text written in the file is the value of the function.  `%s` with a NULL pointer is undefined (C11 7.21.6.1p9; the GNU C library
writes `(null)`).  The level is a natural number: the overflow of `level + 1` and of the node numbers is not modelled.
-/

namespace Osl
namespace Dump

/-- The loop `for (j = 0; j < n; j++) fprintf(file, "|\t");` of all the display functions, e.g. source/strings.c:90-91. -/
def bars : Nat → Str
  | 0 => []
  | n + 1 => '|' :: '\t' :: bars n

/-- The last line, or a blank line, of all the display functions, e.g. source/strings.c:103-105: `n` is the number of bars. -/
def blank (n : Nat) : Str := bars n ++ ['\n']

/-- A line at a level: bars, text, end of line. -/
def line (n : Nat) (s : Str) : Str := bars n ++ s ++ ['\n']

/-- A `for` loop writing a text at each turn. -/
def cat {α : Type} (f : α → Out Str) : List α → Out Str
  | [] => .ok []
  | a :: l => do
    let s ← f a
    let t ← cat f l
    return s ++ t

/-- The loop `while (x != NULL)` of the display functions of the linked structures, e.g. source/statement.c:110-143: from the second
node on (`k` is the number of the node, `first` is `k = 1`) the line `head`, then the node, then `sep` when there is another node. -/
def nodes {α : Type} (head : Nat → α → Str) (body : α → Out Str) (sep : Str) : Nat → List α → Out Str
  | _, [] => .ok []
  | k, a :: l => do
    let s ← body a
    let t ← nodes head body sep (k + 1) l
    return (if k = 1 then [] else head k a) ++ s ++ (if l.isEmpty then [] else sep) ++ t

/-- `osl_int_dump_precision` (source/int.c:112-128). -/
def precision (c : Cfg) (p : Int) : Str :=
  if p = PREC_SP then "32 bits".toList
  else if p = PREC_DP then "64 bits".toList
  else if p = PREC_MP ∧ c.gmp then "GMP".toList
  else "unknown precision ".toList ++ showInt p

/-- `osl_int_print` (source/int.c:600-606): `sprintf` in a buffer of OSL_MAX_STRING bytes. -/
def int (c : Cfg) (p v : Int) : Out Str := do
  let t ← OInt.sprint c p v
  Ext.buf t

/-- `osl_strings_idump` (source/strings.c:85-106). -/
def strings (s : Option Strings) (level : Nat) : Str :=
  bars level ++
    (match s with
      | some s => "+-- osl_strings_t:".toList ++ (s.words.map fun w => ' ' :: w).flatten ++ ['\n']
      | none => "+-- NULL strings\n".toList) ++
    blank (level + 1)

/-- `osl_vector_idump` (source/vector.c:84-122). -/
def vector (c : Cfg) (v : Option Vec) (level : Nat) : Out Str :=
  match v with
  | some v => do
    let e ← cat (fun x => int c v.precision x >>= fun t => .ok (t ++ [' '])) v.v
    return line level ("+-- osl_vector_t (".toList ++ precision c v.precision ++ ")".toList) ++
      line (level + 1) (showInt v.size) ++ line (level + 1) ("[ ".toList ++ e ++ "]".toList) ++ blank (level + 1)
  | none => .ok (line level "+-- NULL vector".toList ++ blank (level + 1))

/-- `(type, precision)` (source/relation.c:183-187, 197-201; `osl_relation_print_type`, source/relation.c:158-162). -/
def relType (c : Cfg) (r : Part) : Str :=
  "(".toList ++ Rel.sprint_type r.type ++ ", ".toList ++ precision c r.precision ++ ")".toList

/-- A row (source/relation.c:215-227). -/
def relRow (c : Cfg) (level : Nat) (r : Part) (i : Nat) : Out Str := do
  let e ← cat (fun (j : Nat) => do
    let v ← get2 r.m i j
    let t ← int c r.precision v
    return t ++ [' ']) (List.range r.nb_columns.toNat)
  return line (level + 1) ("[ ".toList ++ e ++ "]".toList)

/-- The attributes of a part. -/
def relDims (r : Part) : Str :=
  showInt r.nb_rows ++ [' '] ++ showInt r.nb_columns ++ [' '] ++ showInt r.nb_output_dims ++ [' '] ++ showInt r.nb_input_dims ++ [' '] ++
    showInt r.nb_local_dims ++ [' '] ++ showInt r.nb_parameters

/-- The attributes and the rows of a part (source/relation.c:205-227). -/
def relBody (c : Cfg) (level : Nat) (r : Part) : Out Str := do
  let rows ← cat (relRow c level r) (List.range r.nb_rows.toNat)
  return line (level + 1) (relDims r) ++ rows

/-- `osl_relation_idump` (source/relation.c:174-245). -/
def relation (c : Cfg) (r : Rel) (level : Nat) : Out Str := do
  let t ← nodes (fun _ p => line level ("|   osl_relation_t ".toList ++ relType c p)) (relBody c level)
    (line (level + 1) ['|'] ++ line (level + 1) ['V']) 1 r
  return (match r with
    | p :: _ => line level ("+-- osl_relation_t ".toList ++ relType c p)
    | [] => line level "+-- NULL relation".toList) ++ t ++ blank (level + 1)

/-- `osl_relation_list_idump` (source/relation_list.c:84-128). -/
def relation_list (c : Cfg) (l : RList) (level : Nat) : Out Str := do
  let t ← nodes (fun _ _ => line level "|   osl_relation_list_t".toList)
    (fun e => relation c e (level + 1) >>= fun t => .ok (blank (level + 2) ++ t)) (line (level + 1) ['V']) 1 l
  return (match l with
    | _ :: _ => line level "+-- osl_relation_list_t".toList
    | [] => line level "+-- NULL relation list".toList) ++ t ++ blank (level + 1)

/-- The line of an interface but the first of a list (source/interface.c:119-122). -/
def uriText : Option Str → Str
  | some u => u
  | none => "(NULL)".toList

/-- `osl_interface_idump` (source/interface.c:100-143). -/
def interface (l : Ifaces) (level : Nat) : Out Str := do
  let h ← match l with
    | i :: _ => Ext.str i.URI >>= fun u => .ok (line level ("+-- osl_interface_t: URI = ".toList ++ u))
    | [] => .ok (line level "+-- NULL interface".toList)
  let t ← nodes (fun _ i => line level ("|   osl_interface_t: URI = ".toList ++ uriText i.URI)) (fun _ => .ok [])
    (blank (level + 2) ++ line (level + 1) ['V']) 1 l
  return h ++ t ++ blank (level + 1)

/-- The display functions of the interfaces: the function pointers `idump` (include/osl/interface.h:74). -/
abbrev Fn (D : Type) := Nat → Option D → Nat → Out Str

section
variable {D : Type}

/-- A node of `osl_generic_idump` (source/generic.c:106-113). -/
def genericBody (F : Fn D) (level : Nat) (g : Generic D) : Out Str := do
  let i ← interface (match g.interface with | some i => [i] | none => []) (level + 1)
  let d ← match g.interface with | some i => F i.fns.idump g.data (level + 1) | none => .ok []
  return blank (level + 2) ++ i ++ d

/-- `osl_generic_idump` (source/generic.c:85-132). -/
def generic (F : Fn D) (l : GList D) (level : Nat) : Out Str := do
  let t ← nodes (fun _ _ => line level "|   osl_generic_t".toList) (genericBody F level) (line (level + 1) ['V']) 1 l
  return (match l with
    | _ :: _ => line level "+-- osl_generic_t".toList
    | [] => line level "+-- NULL generic".toList) ++ t ++ blank (level + 1)

/-- A node of `osl_statement_idump` (source/statement.c:119-133). -/
def stmtBody (c : Cfg) (F : Fn D) (level : Nat) (s : Stmt D) : Out Str := do
  let d ← relation c s.domain (level + 1)
  let sc ← relation c s.scattering (level + 1)
  let a ← relation_list c s.access (level + 1)
  let e ← generic F s.extension (level + 1)
  return blank (level + 2) ++ d ++ sc ++ a ++ e

/-- `osl_statement_idump` (source/statement.c:95-149). -/
def statement (c : Cfg) (F : Fn D) (l : Stmts D) (level : Nat) : Out Str := do
  let t ← nodes (fun k _ => line level ("|   osl_statement_t (S".toList ++ showNat k ++ ")".toList)) (stmtBody c F level)
    (line (level + 1) ['V']) 1 l
  return (match l with
    | _ :: _ => line level "+-- osl_statement_t (S1)".toList
    | [] => line level "+-- NULL statement".toList) ++ t ++ blank (level + 1)

/-- A node of `osl_scop_idump` (source/scop.c:112-151). -/
def scopBody (c : Cfg) (F : Fn D) (level : Nat) (s : Scop D) : Out Str := do
  let lang ← Ext.str s.language
  let ctx ← relation c s.context (level + 1)
  let par ← generic F s.parameters (level + 1)
  let st ← statement c F s.statement (level + 1)
  let reg ← interface s.registry (level + 1)
  let ext ← generic F s.extension (level + 1)
  return blank (level + 2) ++ line level ("|\tVersion: ".toList ++ showInt s.version) ++ blank (level + 2) ++
    line level ("|\tLanguage: ".toList ++ lang) ++ blank (level + 2) ++ ctx ++ par ++ st ++ reg ++ ext

/-- `osl_scop_idump` (source/scop.c:91-166). -/
def scop (c : Cfg) (F : Fn D) (l : Scops D) (level : Nat) : Out Str := do
  let t ← nodes (fun _ _ => line level "|   osl_scop_t".toList) (scopBody c F level) (line (level + 1) ['V']) 1 l
  return (match l with
    | _ :: _ => line level "+-- osl_scop_t".toList
    | [] => line level "+-- NULL scop".toList) ++ t ++ blank (level + 1)

end

/-- `osl_names_idump` (source/names.c:83-113). -/
def names (n : Option Names) (level : Nat) : Str :=
  match n with
  | some n => line level "+-- osl_names_t".toList ++ blank (level + 2) ++ strings n.parameters (level + 1) ++
      strings n.iterators (level + 1) ++ strings n.scatt_dims (level + 1) ++ strings n.local_dims (level + 1) ++
      strings n.arrays (level + 1) ++ blank (level + 1)
  | none => line level "+-- NULL names".toList ++ blank (level + 1)

/-- `osl_body_idump` (source/body.c:85-113). -/
def body (b : Option Body) (level : Nat) : Str :=
  match b with
  | some b => line level "+-- osl_body_t".toList ++ blank (level + 2) ++ strings b.iterators (level + 1) ++
      strings b.expression (level + 1) ++ blank (level + 1)
  | none => line level "+-- NULL body".toList ++ blank (level + 1)

/-- The ends of lines become spaces (source/extensions/textual.c:101-103, comment.c:107-109, clay.c:106-108). -/
def oneLine (s : Str) : Str := s.map fun ch => if ch = '\n' then ' ' else ch

/-- `osl_textual_idump` (source/extensions/textual.c:87-124): the middle of a long text is not displayed. -/
def textual (x : Option Ext.Textual) (level : Nat) : Out Str :=
  match x with
  | some x => do
    let s ← Ext.str x.textual
    let t := oneLine s
    return line level ("+-- osl_textual_t: ".toList ++
      (if t.length > 40 then t.take 20 ++ "   ...   ".toList ++ t.drop (t.length - 20) else t)) ++ blank (level + 1)
  | none => .ok (line level "+-- NULL textual".toList ++ blank (level + 1))

/-- `osl_comment_idump` (source/extensions/comment.c:85-118). -/
def comment (x : Option Ext.Comment) (level : Nat) : Out Str :=
  match x with
  | some x => do
    let s ← Ext.str x.comment
    return line level "+-- osl_comment_t".toList ++ line (level + 1) ("comment: ".toList ++ oneLine s) ++ blank (level + 1)
  | none => .ok (line level "+-- NULL comment".toList ++ blank (level + 1))

/-- `osl_clay_idump` (source/extensions/clay.c:85-117). -/
def clay (x : Option Ext.Clay) (level : Nat) : Out Str :=
  match x with
  | some x => do
    let s ← Ext.str x.script
    return line level "+-- osl_clay_t".toList ++ line (level + 1) ("script: ".toList ++ oneLine s) ++ blank (level + 1)
  | none => .ok (line level "+-- NULL clay".toList ++ blank (level + 1))

/-- `osl_null_idump` (source/extensions/null.c:85-101). -/
def null (x : Option Ext.Null) (level : Nat) : Str :=
  line level (match x with | some _ => "+-- osl_null_t".toList | none => "+-- NULL null".toList) ++ blank (level + 1)

/-- `for (..) fprintf(file, "%d, ", array[i])` (source/extensions/scatinfos.c:108-111). -/
def intList (l : List Int) : Str := (l.map fun i => showInt i ++ ", ".toList).flatten

/-- `osl_scatinfos_idump` (source/extensions/scatinfos.c:85-149), the three arrays having `nb_scatdims` elements. -/
def scatinfos (x : Option Ext.Scatinfos) (level : Nat) : Str :=
  match x with
  | some x => line level "+-- osl_scatinfos_t".toList ++ line (level + 1) ("+--nb_scatdims: ".toList ++ showNat x.parallel.length) ++
      blank (level + 2) ++ line (level + 1) ("+--parallel--: ".toList ++ intList x.parallel) ++
      blank (level + 2) ++ line (level + 1) ("+--permutable: ".toList ++ intList x.permutable) ++
      blank (level + 2) ++ line (level + 1) ("+--type------: ".toList ++ intList x.type) ++ blank (level + 1)
  | none => line level "+-- NULL scatinfos".toList ++ blank (level + 1)

/-- `osl_scatnames_idump` (source/extensions/scatnames.c:86-113). -/
def scatnames (x : Option Ext.Scatnames) (level : Nat) : Str :=
  match x with
  | some x => line level "+-- osl_scatnames_t".toList ++ blank (level + 2) ++ strings x.names (level + 1) ++ blank (level + 1)
  | none => line level "+-- NULL scatnames".toList ++ blank (level + 1)

/-- `osl_arrays_idump` (source/extensions/arrays.c:87-122). -/
def arrays (x : Option Ext.Arrays) (level : Nat) : Str :=
  match x with
  | some x => line level "+-- osl_arrays_t".toList ++ line (level + 1) ("nb_names: ".toList ++ showNat x.pairs.length) ++
      (x.pairs.map fun p => line (level + 1) ("id: ".toList ++ padLeft 2 (showInt p.1) ++ ", name: ".toList ++ p.2)).flatten ++
      blank (level + 1)
  | none => line level "+-- NULL arrays".toList ++ blank (level + 1)

/-- The name of the file (source/extensions/coordinates.c:105-108). -/
def coordName : Option Str → Str
  | some n => "File name__: ".toList ++ n
  | none => "NULL file name".toList

/-- `osl_coordinates_idump` (source/extensions/coordinates.c:85-131). -/
def coordinates (x : Option Ext.Coordinates) (level : Nat) : Str :=
  match x with
  | some x => line level "+-- osl_coordinates_t".toList ++
      line (level + 1) (coordName x.name) ++
      line (level + 1) ("Coordinates: [".toList ++ showInt x.line_start ++ ",".toList ++ showInt x.column_start ++ " -> ".toList ++
        showInt x.line_end ++ ",".toList ++ showInt x.column_end ++ "]".toList) ++
      line (level + 1) ("Indentation: ".toList ++ showInt x.indent) ++ blank (level + 1)
  | none => line level "+-- NULL coordinates".toList ++ blank (level + 1)

/-- `osl_extbody_idump` (source/extensions/extbody.c:86-126): the body is at the level of the extension. -/
def extbody (x : Option Ext.Extbody) (level : Nat) : Str :=
  match x with
  | some x => line level "+-- osl_extbody_t".toList ++ line (level + 1) ("nb_access: ".toList ++ showNat x.access.length) ++
      (x.access.map fun p => line (level + 1) ("start: ".toList ++ showInt p.1 ++ ", length: ".toList ++ showInt p.2)).flatten ++
      body x.body level ++ blank (level + 1)
  | none => line level "+-- NULL extbody".toList ++ blank (level + 1)

/-- A node of `osl_loop_idump` (source/extensions/loop.c:113-147). -/
def loopBody (level : Nat) (x : Ext.Loop) : Out Str := do
  let it ← Ext.str x.iter
  let pv ← Ext.str x.private_vars
  let us ← Ext.str x.user
  return blank (level + 2) ++ line (level + 1) ("+--iterator: ".toList ++ it) ++
    line (level + 1) ("+--nb_stmts: ".toList ++ showNat x.stmt_ids.length) ++
    line (level + 1) ("+--stmt_ids:".toList ++ (x.stmt_ids.map fun i => padLeft 2 (showInt i) ++ ", ".toList).flatten) ++
    line (level + 1) ("+--private_vars: ".toList ++ pv) ++ line (level + 1) ("+--directive: ".toList ++ showInt x.directive) ++
    line (level + 1) ("+--user: ".toList ++ us)

/-- `osl_loop_idump` (source/extensions/loop.c:88-164). -/
def loop (l : List Ext.Loop) (level : Nat) : Out Str := do
  let t ← nodes (fun k _ => line level ("|   osl_loop_t (node ".toList ++ showNat k ++ ")".toList)) (loopBody level)
    (line (level + 1) ['V']) 1 l
  return (match l with
    | _ :: _ => line level "+-- osl_loop_t".toList
    | [] => line level "+-- NULL loop".toList) ++ t ++ blank (level + 1)

/-- A node of `osl_pluto_unroll_idump` (source/extensions/pluto_unroll.c:108-126). -/
def unrollBody (level : Nat) (x : Ext.Unroll) : Out Str := do
  let it ← Ext.str x.iter
  return blank (level + 2) ++ line (level + 1) ("+--iterator: ".toList ++ it) ++
    line (level + 1) ("+--jam: ".toList ++ showInt (Ext.Unroll.ofBool x.jam)) ++
    line (level + 1) ("+--factor: ".toList ++ showNat x.factor)

/-- `osl_pluto_unroll_idump` (source/extensions/pluto_unroll.c:83-142). -/
def unroll (l : List Ext.Unroll) (level : Nat) : Out Str := do
  let t ← nodes (fun k _ => line level ("|   osl_pluto_unroll_t (node ".toList ++ showNat k ++ ")".toList)) (unrollBody level)
    (line (level + 1) ['V']) 1 l
  return (match l with
    | _ :: _ => line level "+-- osl_pluto_unroll_t".toList
    | [] => line level "+-- NULL pluto_unroll".toList) ++ t ++ blank (level + 1)

/-- `osl_annotation_text_idump` (source/extensions/annotation.c:106-113) and `osl_region_text_idump`
(source/extensions/region.c:104-111), from the line of rank `k`: the line of the text is not indented. -/
def textLines (level : Nat) : Nat → Ext.Lines → Str
  | _, [] => []
  | k, (ty, l) :: ls => line level ("+--type ".toList ++ showNat k ++ ": ".toList ++ showInt ty) ++
      line 0 ("+--line ".toList ++ showNat k ++ ": ".toList ++ l) ++ textLines level (k + 1) ls

/-- `osl_annotation_idump` (source/extensions/annotation.c:187-207): the fields of a NULL annotation are read. -/
def annotation (x : Option Ext.Annotation) (level : Nat) : Out Str :=
  match x with
  | some x => .ok (line level "+-- osl_annotation_t".toList ++ blank level ++ textLines (level + 2) 0 x.pre ++
      textLines (level + 2) 0 x.suf ++ blank level)
  | none => .ub

/-- A node of `osl_region_idump` (source/extensions/region.c:213-225). -/
def regionBody (level : Nat) (x : Ext.Region) : Str :=
  blank level ++ line level ("+--location: ".toList ++ showInt x.location) ++ textLines (level + 2) 0 x.pre ++
    textLines (level + 2) 0 x.suf ++ textLines (level + 2) 0 x.prelude ++ textLines (level + 2) 0 x.postlude

/-- `osl_region_idump` (source/extensions/region.c:195-234). -/
def region (l : List Ext.Region) (level : Nat) : Out Str := do
  let t ← nodes (fun k _ => line level ("|   osl_region_t (node ".toList ++ showNat k ++ ")".toList))
    (fun x => .ok (regionBody level x)) [] 1 l
  return (match l with
    | _ :: _ => line level "+-- osl_region_t".toList
    | [] => line level "+-- NULL region".toList) ++ t ++ blank level

/-- The iterators of a predicate (source/extensions/irregular.c:117-118). -/
def irrIters (l : List (Option Str)) : Out Str := cat (fun s => Ext.str s >>= fun s => .ok (s ++ [' '])) l

/-- A predicate (source/extensions/irregular.c:116-119, 124-127); `what` is `control` or `exit`. -/
def irrPred (what : Str) (x : Ext.Irregular) (i : Int) : Out Str := do
  let p ← Ext.Irregular.atI x.preds i
  let its ← irrIters p.iters
  let b ← Ext.str p.body
  return "predicat".toList ++ showInt i ++ "'s\niterators : ".toList ++ its ++ "\n".toList ++ what ++ " body: ".toList ++ b ++ "\n".toList

/-- The predicates of a statement (source/extensions/irregular.c:107-110). -/
def irrStmts : Nat → List (List Int) → Str
  | _, [] => []
  | k, l :: ls => "statement".toList ++ showNat k ++ "'s predicats : ".toList ++ (l.map fun i => showInt i ++ [' ']).flatten ++ "\n".toList ++
      irrStmts (k + 1) ls

/-- `osl_irregular_idump` (source/extensions/irregular.c:87-136). -/
def irregular (x : Option Ext.Irregular) (level : Nat) : Out Str :=
  match x with
  | some x => do
    let c ← cat (fun (i : Nat) => irrPred "control".toList x i) (List.range x.nbControl.toNat)
    let e ← cat (fun (i : Nat) => irrPred "exit".toList x (x.nbControl + i)) (List.range x.nbExit.toNat)
    return line level "+-- osl_irregular_t".toList ++ bars (level + 1) ++ irrStmts 0 x.stmts ++ c ++ e ++ blank (level + 1)
  | none => .ok (line level "+-- NULL irregular".toList ++ blank (level + 1))

/-- The type of a dependence (source/extensions/dependence.c:125-147). -/
def depType (t : Int) : Str :=
  if t = UNDEFINED then "UNSET".toList
  else if t = 1 then "RAW (flow)".toList
  else if t = 2 then "WAR (anti)".toList
  else if t = 3 then "WAW (output)".toList
  else if t = 4 then "RAR (input)".toList
  else if t = 5 then "RAW_SCALPRIV (scalar priv)".toList
  else "unknown".toList

section
variable {D : Type}

/-- A dependence with the statements it points to (`stmt_source_ptr`, `stmt_target_ptr`,
include/osl/extensions/dependence.h:125-173), `none` for NULL. -/
structure DepPtrs (D : Type) where
  dep : Ext.Dep
  source : Option (Stmt D)
  target : Option (Stmt D)

/-- A statement displayed alone (source/extensions/dependence.c:178-181): NULL is dereferenced. -/
def depStmt (c : Cfg) (F : Fn D) (s : Option (Stmt D)) (level : Nat) : Out Str :=
  match s with
  | some s => statement c F [s] level
  | none => .ub

/-- A node of `osl_dependence_idump` (source/extensions/dependence.c:114-205). -/
def depBody (c : Cfg) (F : Fn D) (level : Nat) (x : DepPtrs D) : Out Str := do
  let s ← depStmt c F x.source (level + 1)
  let t ← depStmt c F x.target (level + 1)
  let d ← relation c x.dep.domain (level + 1)
  return blank (level + 2) ++ line (level + 1) ("Type: ".toList ++ depType x.dep.type) ++
    blank (level + 2) ++ line (level + 1) ("Depth: ".toList ++ showInt x.dep.depth) ++
    blank (level + 2) ++ line (level + 1) ("Ref source: ".toList ++ showInt x.dep.ref_source ++ ", Ref target: ".toList ++
      showInt x.dep.ref_target) ++
    blank (level + 2) ++ line (level + 1) ("Statement label: ".toList ++ showInt x.dep.label_source) ++ s ++
    line (level + 1) ("Target label: ".toList ++ showInt x.dep.label_target) ++ t ++
    line (level + 1) (Ext.Dep.dimsLine x.dep) ++ d

/-- `osl_dependence_idump` (source/extensions/dependence.c:91-220). -/
def dependence (c : Cfg) (F : Fn D) (l : List (DepPtrs D)) (level : Nat) : Out Str := do
  let t ← nodes (fun _ _ => line level "|   osl_dependence_p".toList) (depBody c F level) (line (level + 1) ['V']) 1 l
  return (match l with
    | _ :: _ => line level "+-- osl_dependence_p".toList
    | [] => line level "+-- NULL dependence".toList) ++ t ++ blank (level + 1)

/-- The kind of a symbol (source/extensions/symbols.c:117-137). -/
def symType (t : Int) : Str :=
  if t ≠ UNDEFINED then "+-- Type: ".toList ++
    (if t = 1 then "Iterator".toList else if t = 2 then "Parameter".toList else if t = 3 then "Array".toList
      else if t = 4 then "Function".toList else "Unknown".toList)
  else "+-- NULL type".toList

/-- A node of `osl_symbols_idump` (source/extensions/symbols.c:110-180). -/
def symBody (F : Fn D) (level : Nat) (x : Ext.Symbol D) : Out Str := do
  let i ← generic F x.identifier (level + 1)
  let d ← generic F x.datatype (level + 1)
  let s ← generic F x.scope (level + 1)
  let e ← generic F x.extent (level + 1)
  return blank (level + 2) ++ line (level + 1) (symType x.type) ++
    blank (level + 2) ++ line (level + 1) (if x.generated ≠ UNDEFINED then "+-- Origin: ".toList ++ showInt x.generated
      else "+-- Undefined origin".toList) ++
    blank (level + 2) ++ line (level + 1) (if x.nb_dims ≠ UNDEFINED then "+-- Number of Dimensions: ".toList ++ showInt x.nb_dims
      else "+-- Undefined number of dimensions".toList) ++
    blank (level + 2) ++ i ++ d ++ s ++ e

/-- `osl_symbols_idump` (source/extensions/symbols.c:86-196). -/
def symbols (F : Fn D) (l : List (Ext.Symbol D)) (level : Nat) : Out Str := do
  let t ← nodes (fun k _ => line level ("|   osl_symbol_t (node ".toList ++ showNat k ++ ")".toList)) (symBody F level)
    (line (level + 1) ['V']) 1 l
  return (match l with
    | _ :: _ => line level "+-- osl_symbols_t".toList
    | [] => line level "+-- NULL symbols".toList) ++ t ++ blank (level + 1)

end

/-- The display function of an extension seen from `void*`. -/
def lift {S X : Type} (k : Data.Kind S X) (f : Option X → Nat → Out Str) (d : Option (Data S)) (level : Nat) : Out Str :=
  match d with
  | none => f none level
  | some d => match k.proj d with | some x => f (some x) level | none => .ub

/-- The display functions of the interfaces, in the order of `osl_interface_get_default_registry` (source/interface.c:366-393).  The
pointers of the dependences to statements are those left by the reader (`osl_dependence_malloc`, source/extensions/dependence.c:480-481):
NULL. -/
def table {S : Type} (c : Cfg) (sym : Option S → Nat → Out Str) : List (Option (Data S) → Nat → Out Str) :=
  [lift Data.kStrings (fun x n => .ok (strings x n)), lift Data.kBody (fun x n => .ok (body x n)),
    lift Data.kRelation (fun x n => relation c (Ext.NE.elems x) n), lift Data.kTextual textual, lift Data.kComment comment,
    lift Data.kNull (fun x n => .ok (null x n)), lift Data.kScatinfos (fun x n => .ok (scatinfos x n)),
    lift Data.kScatnames (fun x n => .ok (scatnames x n)), lift Data.kArrays (fun x n => .ok (arrays x n)),
    lift Data.kCoordinates (fun x n => .ok (coordinates x n)), lift Data.kClay clay,
    lift Data.kDependence (fun x n => dependence (D := Empty) c (fun _ _ _ => .ub) ((Ext.NE.elems x).map fun d => ⟨d, none, none⟩) n),
    lift Data.kSymbols sym, lift Data.kExtbody (fun x n => .ok (extbody x n)), lift Data.kLoop (fun x n => loop (Ext.NE.elems x) n),
    lift Data.kUnroll (fun x n => unroll (Ext.NE.elems x) n), lift Data.kRegion (fun x n => region (Ext.NE.elems x) n),
    lift Data.kAnnotation annotation]

/-- The display functions as an environment (source/interface.c:366-393). -/
def fns {S : Type} (c : Cfg) (sym : Option S → Nat → Out Str) : Fn (Data S) :=
  fun k d level => match (table c sym)[k]? with | some f => f d level | none => .ub

/-- The display functions on data with symbols nested at most `n` times (source/interface.c:366-393). -/
def fnsAt (c : Cfg) : (n : Nat) → Fn (DataAt n)
  | 0 => fns c (fun _ _ => .ub)
  | n + 1 => fns c (fun x level => symbols (fnsAt c n) (Ext.NE.elems x) level)

end Dump
end Osl
