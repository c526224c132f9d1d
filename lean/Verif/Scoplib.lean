import Verif.ScopText
/-!
# Model of the SCoPLib printers

`osl_relation_spprint_scoplib`, `osl_relation_list_pprint_access_array_scoplib`, `osl_body_print_scoplib`,
`osl_generic_print_options_scoplib`, `osl_statement_pprint_scoplib` and `osl_scop_print_scoplib`: the text written to the file.

Simplifications: those of `RelationText` for the buffers and the names of the columns; the sizes of the matrices, printed with `%d`, are
computed without overflow (it would need a matrix of 2^31 - 2 rows or columns).
-/

namespace Osl
namespace Rel

/-- The columns the names of which are printed (source/relation.c:696-699).  `index_output_dims` is 1. -/
def columnShown (r : Part) (i : Int) : Bool :=
  decide (i = 0) || (decide (r.type ≠ TYPE_DOMAIN) && decide (i ≥ 1 + r.nb_output_dims)) || (decide (r.type = TYPE_DOMAIN) && decide (i ≤ 1)) ||
    decide (i ≥ 1 + r.nb_output_dims + r.nb_input_dims + r.nb_local_dims)

/-- The `while` loop of `osl_relation_column_string_scoplib` (source/relation.c:695-732). -/
def columnsScoplib (r : Part) : List Str → Int → Str
  | [], _ => []
  | s :: ss, i => (if columnShown r i then columnName s ++ [columnSep r (i + 1)] else []) ++ columnsScoplib r ss (i + 1)

/-- `osl_relation_column_string_scoplib` (source/relation.c:667-736).  OSL_FMT_LENGTH is 4: no space after the `#`. -/
def column_string_scoplib (r : Part) (strings : List Str) : Out Str := buffered ('#' :: columnsScoplib r strings 0 ++ ['\n'])

/-- `is_access_array` (source/relation.c:930-932): the type of the first part; OSL_TYPE_MAY_WRITE is not among them. -/
def isAccessArray (type : Int) : Bool := decide (type = TYPE_READ) || decide (type = TYPE_WRITE)

/-- An entry of the matrix and the space after it (for instance source/relation.c:1025-1028). -/
def cellPieces (c : Cfg) (r : Part) (i j : Int) : Out (List Str) := do
  let v ← get2 r.m i j
  let t ← OInt.sprint c r.precision v
  let t ← buffered t
  return [t, [' ']]

/-- The first column (source/relation.c:1007-1029): the sign of the constraint, or the identifier of the array for the first row of an
access which is printed. -/
def firstPieces (c : Cfg) (r : Part) (access : Bool) (start i : Int) : Out (List Str) :=
  if !access then cellPieces c r i 0
  else if i = start then cellPieces c r 0 (r.nb_columns - 1)
  else .ok ["   0 ".toList, [' ']]

/-- An entry of a row which is not that of a domain (source/relation.c:1050-1060, 1068-1078): the constant of the only row of an access is
replaced by `zero`. -/
def accessPieces (c : Cfg) (r : Part) (access : Bool) (zero : Str) (i j : Int) : Out (List Str) :=
  if access && decide (r.nb_rows = 1) && decide (j = r.nb_columns - 1) then .ok [zero] else cellPieces c r i j

/-- The indices `a ≤ j < b`. -/
def between (a b : Int) : List Int := (upto (b - a)).map (a + ·)

/-- The columns after the first one (source/relation.c:1031-1080). -/
def restPieces (c : Cfg) (r : Part) (access fake : Bool) (i : Int) : Out (List Str) :=
  if r.type = TYPE_DOMAIN then do
    let a ← Out.mapOut (cellPieces c r i) (between 1 (1 + r.nb_output_dims))
    let b ← Out.mapOut (cellPieces c r i) (between (1 + r.nb_output_dims + r.nb_input_dims) r.nb_columns)
    return a.flatten ++ b.flatten
  else do
    let a ← Out.mapOut (accessPieces c r access "   0 ".toList i) (between (1 + r.nb_output_dims) (1 + r.nb_output_dims + r.nb_input_dims))
    let b ← Out.mapOut (accessPieces c r access "  0 ".toList i) (between (1 + r.nb_output_dims + r.nb_input_dims) r.nb_columns)
    return a.flatten ++ (if fake then ["   0 ".toList] else []) ++ b.flatten

/-- A row and its comment (source/relation.c:1005-1090). -/
def rowPiecesScoplib (c : Cfg) (r : Part) (rest : Rel) (strings : List Str) (names : Names) (access fake : Bool) (start i : Int) : Out (List Str) := do
  let a ← firstPieces c r access start i
  let b ← restPieces c r access fake i
  let comment ← rowComment c r rest i strings names
  return a ++ b ++ [comment, ['\n']]

/-- One of the two rows added after a row of a scattering (source/relation.c:1096-1104). -/
def fakeRow (r : Part) (i : Nat) : List Str :=
  (upto r.nb_columns).map (fun j => if j = 1 ∧ i = 0 then "   1 ".toList else "   0 ".toList) ++ [['\n']]

/-- The rows of a scattering with a fake iterator (source/relation.c:1004-1107): the loop adding the two rows uses the same counter as the
loop on the rows, so that row 3 comes after any row; with more than three rows the loop never ends, which is `ub` here. -/
def fakeRows (c : Cfg) (r : Part) (rest : Rel) (strings : List Str) (names : Names) (access : Bool) : Out (List Str) :=
  if r.nb_rows ≤ 0 then .ok []
  else if r.nb_rows > 3 then .ub
  else do
    let a ← rowPiecesScoplib c r rest strings names access true 0 0
    return a ++ fakeRow r 0 ++ fakeRow r 1

/-- The first row to print (source/relation.c:994-1001): the first row of an access gives the array, unless it is the only one. -/
def startRow (r : Part) (access : Bool) : Int := if !access then 0 else if r.nb_rows = 1 then 0 else 1

/-- The rows (source/relation.c:1003-1108).  An access is never a scattering when the parts of a union have the same type; when they have not,
`start_row` is 1 and the first row printed by the faulty loop is row 1: not modelled, `ub`. -/
def rowsPieces (c : Cfg) (r : Part) (rest : Rel) (strings : List Str) (names : Names) (access fake : Bool) : Out (List Str) :=
  if fake && decide (r.type = TYPE_SCATTERING) then
    if access then .ub else fakeRows c r rest strings names access
  else do
    let l ← Out.mapOut (rowPiecesScoplib c r rest strings names access fake (startRow r access)) (between (startRow r access) r.nb_rows)
    return l.flatten

/-- `"%d %d\n"` (for instance source/relation.c:982-983). -/
def sizeLine (rows columns : Int) : Str := showInt rows ++ ' ' :: showInt columns ++ ['\n']

/-- The size of the matrix, the row of the fake iterator of a domain, and the names of the columns (source/relation.c:952-992). -/
def sizePieces (r : Part) (strings : List Str) (fake : Bool) : Out (List Str) := do
  let col ← (if r.nb_rows > 0 then do
      let s ← column_string_scoplib r strings
      return [s]
    else .ok [])
  return (if r.type = TYPE_DOMAIN then
      if fake then
        [sizeLine (r.nb_rows + 1) (r.nb_columns - r.nb_input_dims + 1), "   0 ".toList, "   1 ".toList] ++
          List.replicate r.nb_parameters.toNat "   0 ".toList ++ ["    0  ## fakeiter == 0\n".toList]
      else [sizeLine r.nb_rows (r.nb_columns - r.nb_input_dims)]
    else if fake then [sizeLine (r.nb_rows + 2) (r.nb_columns - r.nb_output_dims + 1)]
    else [sizeLine r.nb_rows (r.nb_columns - r.nb_output_dims)]) ++ col

/-- The text of one union part (source/relation.c:936-1117). -/
def partPiecesScoplib (c : Cfg) (nb_parts part : Nat) (r : Part) (rest : Rel) (names : Names) (access nth fake : Bool) : Out (List Str) := do
  let strings ← relation_strings r names
  let size ← (if access then .ok [] else sizePieces r strings fake)
  let rows ← rowsPieces c r rest strings names access fake
  return (if nb_parts > 1 then ["# Union part No.".toList ++ showNat part ++ ['\n']] else []) ++
    (if nth then [showNat part ++ ['\n']] else []) ++ size ++ rows

/-- The loop on the union parts (source/relation.c:936-1120). -/
def partsPiecesScoplib (c : Cfg) (nb_parts : Nat) (names : Names) (access nth fake : Bool) : Nat → Rel → Out (List Str)
  | _, [] => .ok []
  | part, r :: rest => do
    let a ← partPiecesScoplib c nb_parts part r rest names access nth fake
    let b ← partsPiecesScoplib c nb_parts names access nth fake (part + 1) rest
    return a ++ b

/-- `osl_relation_spprint_polylib_scoplib` (source/relation.c:888-1128). -/
def spprint_polylib_scoplib (c : Cfg) (r : Rel) (names : Option Names) (nth fake : Bool) : Out Str :=
  match r with
  | [] => .ok "# NULL relation\n".toList
  | p :: _ => do
    let names ← chooseNames c r names
    let parts ← partsPiecesScoplib c r.length names (isAccessArray p.type) nth fake 1 r
    Util.emit ((if r.length > 1 then
      ["# Union with ".toList ++ showNat r.length ++ " parts\n".toList ++ showNat r.length ++ ['\n']] else []) ++ parts)

/-- `osl_relation_spprint_scoplib` (source/relation.c:1173-1190), and `osl_relation_pprint_scoplib` (source/relation.c:1217-1225) which writes
its result in a file. -/
def spprint_scoplib (c : Cfg) (r : Rel) (names : Option Names) (nth fake : Bool) : Out Str :=
  match r with
  | [] => Util.emit []
  | _ => do
    let t ← spprint_polylib_scoplib c r names nth fake
    Util.emit [t]

end Rel

namespace RList

/-- The size of the accesses of type `type` (source/relation_list.c:207-236): rows and columns, from those counted so far.  The first part of an
access is looked at only. -/
def accessSize (type : Int) : RList → Int × Int → Int × Int
  | [], s => s
  | [] :: l, s => accessSize type l s
  | (p :: _) :: l, s =>
    accessSize type l (if p.type = type then ((if p.nb_rows = 1 then s.1 + 1 else s.1 + (p.nb_rows - 1)), p.nb_columns - p.nb_output_dims) else s)

/-- The loop printing the accesses of type `type` (for instance source/relation_list.c:246-252). -/
def accessLoop (c : Cfg) (names : Option Names) (fake : Bool) (type : Int) : RList → Out Str
  | [] => .ok []
  | [] :: l => accessLoop c names fake type l
  | (p :: r) :: l =>
    if p.type = type then do
      let t ← Rel.spprint_scoplib c (p :: r) names false fake
      let ts ← accessLoop c names fake type l
      return t ++ ts
    else accessLoop c names fake type l

/-- The title and the size of the accesses of a type, and these accesses (for instance source/relation_list.c:244-252). -/
def accessBlock (c : Cfg) (names : Option Names) (fake : Bool) (title : Str) (type : Int) (l : RList) : Out Str := do
  let t ← accessLoop c names fake type l
  return title ++ (Rel.sizeLine (accessSize type l (0, 0)).1 ((accessSize type l (0, 0)).2 + if fake then 1 else 0) ++ t)

/-- The accesses of type OSL_TYPE_MAY_WRITE, if there are rows (source/relation_list.c:264-274). -/
def mayBlock (c : Cfg) (names : Option Names) (fake : Bool) (l : RList) : Out Str :=
  if (accessSize TYPE_MAY_WRITE l (0, 0)).1 > 0 then accessBlock c names fake "# May Write access informations\n".toList TYPE_MAY_WRITE l
  else .ok []

/-- `osl_relation_list_pprint_access_array_scoplib` (source/relation_list.c:189-276). -/
def pprint_access_array_scoplib (c : Cfg) (l : RList) (names : Option Names) (fake : Bool) : Out Str :=
  if count l > 0 then do
    let a ← accessBlock c names fake "# Read access informations\n".toList TYPE_READ l
    let b ← accessBlock c names fake "# Write access informations\n".toList TYPE_WRITE l
    let d ← mayBlock c names fake l
    return a ++ (b ++ d)
  else .ok "# NULL relation list\n".toList

end RList

namespace Body

/-- The iterators (source/body.c:164-171). -/
def iteratorsScoplib (b : Body) : Out Str :=
  if Strings.size b.iterators > 0 then do
    let t ← Strings.sprint b.iterators
    return "# List of original iterators\n".toList ++ t
  else .ok "fakeiter\n".toList

/-- `osl_body_print_scoplib` (source/body.c:160-178). -/
def print_scoplib : Option Body → Out Str
  | none => .ok "# NULL statement body\n".toList
  | some b => do
    let i ← iteratorsScoplib b
    let e ← Strings.sprint b.expression
    return i ++ ("# Statement body expression\n".toList ++ e)

end Body

/-- The library seen from the SCoPLib printer: the text of the data found under the URI `arrays` (`osl_arrays_sprint`). -/
structure ScoplibLib (D : Type) extends TextLib D where
  arraysText : D → Out (Option Str)

namespace GList

variable {D : Type}

/-- `osl_arrays_sprint` (source/extensions/arrays.c:142-171) on the result of the lookup of the arrays (source/generic.c:209-211). -/
def arraysTextOf (L : ScoplibLib D) : Option D → Out (Option Str)
  | none => .ok none
  | some d => L.arraysText d

/-- `osl_generic_print_options_scoplib` (source/generic.c:206-217). -/
def print_options_scoplib (L : ScoplibLib D) (e : GList D) : Out Str := do
  let t ← arraysTextOf L (lookup e URI_ARRAYS)
  match t with
  | none => .ok []
  | some t => .ok ("<arrays>\n".toList ++ (t ++ "</arrays>\n".toList))

end GList

namespace Stmts

variable {D : Type}

/-- `add_fakeiter` (source/statement.c:309-310): a NULL domain is dereferenced, and a NULL scattering when the domain has no row. -/
def addFakeiter (s : Stmt D) : Out Bool :=
  match s.domain with
  | [] => .ub
  | d :: _ =>
    if d.nb_rows = 0 then
      match s.scattering with
      | [] => .ub
      | p :: _ => .ok (decide (p.nb_rows = 1))
    else .ok false

/-- The body (source/statement.c:336-343). -/
def bodyScoplib (body : Option Body) : Out Str :=
  match body with
  | some b => do
    let t ← Body.print_scoplib (some b)
    return "# Statement body is provided\n1\n".toList ++ t
  | none => .ok "# Statement body is not provided\n0\n".toList

/-- The body of the loop of `osl_statement_pprint_scoplib` (source/statement.c:298-354). -/
def printOneScoplib (c : Cfg) (L : Lib D) (names : Names) (number : Nat) (s : Stmt D) : Out Str := do
  let body ← lookupBody L s.extension
  let names := withBody names body
  let fake ← addFakeiter s
  let d ← Rel.spprint_scoplib c s.domain (some names) true fake
  let sc ← Rel.spprint_scoplib c s.scattering (some names) false fake
  let a ← RList.pprint_access_array_scoplib c s.access (some names) fake
  let b ← bodyScoplib body
  return "# =============================================== Statement ".toList ++ (showNat number ++ ("\n".toList ++
    (partLine number ".1 Domain".toList ++ ("# Iteration domain\n".toList ++ (d ++ ("\n".toList ++
    (partLine number ".2 Scattering".toList ++ ("# Scattering function is provided\n1\n".toList ++ (sc ++ ("\n".toList ++
    (partLine number ".3 Access".toList ++ ("# Access informations are provided\n1\n".toList ++ (a ++ ("\n".toList ++
    (partLine number ".4 Body".toList ++ (b ++ "\n".toList))))))))))))))))

/-- The loop of `osl_statement_pprint_scoplib` (source/statement.c:298-354). -/
def printLoopScoplib (c : Cfg) (L : Lib D) (names : Names) : Nat → Stmts D → Out Str
  | _, [] => .ok []
  | number, s :: ss => do
    let t ← printOneScoplib c L names number s
    let r ← printLoopScoplib c L names (number + 1) ss
    return t ++ r

/-- `osl_statement_pprint_scoplib` (source/statement.c:279-357). -/
def pprint_scoplib (c : Cfg) (L : Lib D) (s : Stmts D) (input_names : Option Names) : Out Str := do
  let names ← chooseNames c s input_names
  printLoopScoplib c L names 1 s

end Stmts

namespace Scops

variable {D : Type}

/-- The names of the parameters (source/scop.c:358-361): the data are printed as strings whatever their interface. -/
def printParamsScoplib (L : TextLib D) (s : Scop D) : Out Str :=
  match s.parameters with
  | [] => .ok []
  | _ => do
    let p ← paramNames L s.parameters
    let t ← Strings.sprint p
    return "# Parameter names\n".toList ++ t

/-- The options (source/scop.c:368-373). -/
def printOptionsScoplib (L : ScoplibLib D) (e : GList D) : Out Str :=
  match e with
  | [] => .ok []
  | _ => do
    let t ← GList.print_options_scoplib L e
    return "# =============================================== Options\n".toList ++ t

/-- The body of the loop of `osl_scop_print_scoplib` (source/scop.c:326-388). -/
def printOneScoplib (c : Cfg) (L : ScoplibLib D) (n : Names) (s : Scop D) : Out Str := do
  let n ← withParams L.toTextLib s n
  let n ← withArrays L.toTextLib s n
  let ctx ← Rel.spprint_scoplib c s.context (some n) false false
  let par ← printParamsScoplib L.toTextLib s
  let st ← Stmts.pprint_scoplib c L.toLib s.statement (some n)
  let opt ← printOptionsScoplib L s.extension
  return "\nSCoP\n\n# =============================================== Global\n# Language\n".toList ++ (languageText s ++ ("\n\n# Context\n".toList ++
    (ctx ++ ("\n".toList ++ (provided (hasURI s.parameters URI_STRINGS) "Parameters are".toList ++ (par ++ ("\n# Number of statements\n".toList ++
    (showInt (Stmts.number s.statement) ++ ("\n\n".toList ++ (st ++ opt))))))))))

/-- The loop of `osl_scop_print_scoplib` (source/scop.c:326-388). -/
def printLoopScoplib (c : Cfg) (L : ScoplibLib D) (n : Names) : Scops D → Out Str
  | [] => .ok []
  | s :: ss => do
    let t ← printOneScoplib c L n s
    let r ← printLoopScoplib c L n ss
    return t ++ r

/-- `osl_scop_print_scoplib` (source/scop.c:300-392): an incompatible scop is an error, the program exits. -/
def print_scoplib (c : Cfg) (L : ScoplibLib D) (release : Str) (s : Scops D) : Out Str :=
  match s with
  | [] => .ok "# NULL scop\n".toList
  | _ => do
    let ok ← check_compatible_scoplib c L.toLib s
    if ok then do
      let n ← names c s
      let t ← printLoopScoplib c L n s
      return "# [File generated by the OpenScop Library ".toList ++ (release ++ ("]\n# [SCoPLib format]\n".toList ++ t))
    else .err

end Scops
end Osl
