import Verif.RelationList
import Verif.RelSpec
import Verif.IntText
import Verif.Strings
/-!
# Model of the textual format functions of source/relation.c

`osl_relation_spprint`, `osl_relation_sprint` (printing, with the comments), `osl_relation_psread`,
`osl_relation_psread_polylib` (reading from a string) and `osl_relation_pread` (reading from a file).

Simplifications: the buffers of OSL_MAX_STRING bytes which the code fills with `sprintf`/`strcat`
are lists of characters, whose overflow is `ub`; when the dimensions of a part are negative or do
not account for its columns, or a name is missing, `osl_relation_strings` is `ub` (in the code
uninitialised, overwritten or NULL entries of the array of names are then used).
-/

namespace Osl
namespace Rel

/-- `for (j = 0; j < n; j++)`: the indices. -/
def upto (n : Int) : List Int := (List.range n.toNat).map Int.ofNat

/-- A string which a `sprintf` or `strcat` builds in a buffer of OSL_MAX_STRING bytes. -/
def buffered (s : Str) : Out Str := if s.length < MAX_STRING then .ok s else .ub

/-- `snprintf(buffer, OSL_MAX_STRING, ..)`. -/
def truncated (s : Str) : Str := s.take (MAX_STRING - 1)

/-- `osl_relation_sprint_type` (source/relation.c:103-149), on a non NULL relation. -/
def sprint_type (type : Int) : Str :=
  if type = UNDEFINED then "UNDEFINED".toList
  else if type = TYPE_CONTEXT then "CONTEXT".toList
  else if type = TYPE_DOMAIN then "DOMAIN".toList
  else if type = TYPE_SCATTERING then "SCATTERING".toList
  else if type = TYPE_READ then "READ".toList
  else if type = TYPE_WRITE then "WRITE".toList
  else if type = TYPE_MAY_WRITE then "MAY_WRITE".toList
  else "UNDEFINED".toList

/-- `osl_relation_expression_element` (source/relation.c:272-330): the text and the new value of `*first`. -/
def expression_element (c : Cfg) (p v : Int) (first cst : Bool) (name : Str) : Out (Str × Bool) := do
  let z ← OInt.zero c p v
  let n ← OInt.neg c p v
  let o ← OInt.one c p v
  let m ← OInt.mone c p v
  let t ← OInt.sprint_txt c p v
  let pos ← OInt.pos c p v
  if !z && !cst then
    if first || n then
      if o then do
        let s ← buffered name
        return (s, false)
      else if m then do
        let s ← buffered ('-' :: name)
        return (s, false)
      else do
        let s ← buffered (t ++ '*' :: name)
        return (s, false)
    else
      if o then do
        let s ← buffered ('+' :: name)
        return (s, first)
      else do
        let s ← buffered ('+' :: t ++ '*' :: name)
        return (s, first)
  else if cst then
    if (z && first) || n then do
      let s ← buffered t
      return (s, first)
    else if pos then
      if !first then do
        let s ← buffered ('+' :: t)
        return (s, first)
      else do
        let s ← buffered t
        return (s, first)
    else return ([], first)
  else return ([], first)

/-- `names->x->string[i]`. -/
def nameAt (s : Option Strings) (i : Int) : Out Str :=
  match s with
  | some { string := some l } =>
    match l[i.toNat]? with
    | some w => .ok w
    | none => .ub
  | _ => .ub

/-- The names of the output dimensions (source/relation.c:361-378). -/
def outputNames (p : Part) (names : Names) : Out (List Str) :=
  if isAccessPart p then
    .ok (((upto p.nb_output_dims).map fun i => if i = 0 then "Arr".toList else '[' :: showInt i ++ [']']))
  else if p.type = TYPE_DOMAIN ∨ p.type = TYPE_CONTEXT then Out.mapOut (nameAt names.iterators) (upto p.nb_output_dims)
  else Out.mapOut (nameAt names.scatt_dims) (upto p.nb_output_dims)

/-- `osl_relation_strings` (source/relation.c:341-400). -/
def relation_strings (p : Part) (names : Names) : Out (List Str) :=
  if p.Dims then do
    let outs ← outputNames p names
    let ins ← Out.mapOut (nameAt names.iterators) (upto p.nb_input_dims)
    let locs ← Out.mapOut (nameAt names.local_dims) (upto p.nb_local_dims)
    let pars ← Out.mapOut (nameAt names.parameters) (upto p.nb_parameters)
    return "e/i".toList :: outs ++ ins ++ locs ++ pars ++ [['1']]
  else .ub

/-- `strings[i]`. -/
def strAt (strings : List Str) (i : Int) : Out Str :=
  match strings[i.toNat]? with
  | some w => .ok w
  | none => .ub

/-- `osl_relation_subexpression` (source/relation.c:415-449), columns `start` to `stop` inclusive.  Opposing
a coefficient twice leaves the matrix unchanged. -/
def subexpression (c : Cfg) (r : Part) (row start stop : Int) (oppose : Bool) (strings : List Str) : Out Str := do
  let s ← loop start (stop + 1) (fun i (s : Str × Bool) => do
    let v ← get2 r.m row i
    let v ← if oppose then OInt.oppose c r.precision v else .ok v
    let name ← strAt strings i
    let (t, first) ← expression_element c r.precision v s.2 (decide (i = r.nb_columns - 1)) name
    let line ← buffered (s.1 ++ t)
    return (line, first)) ([], true)
  return s.1

/-- `osl_relation_expression` (source/relation.c:460-464). -/
def expression (c : Cfg) (r : Part) (row : Int) (strings : List Str) : Out Str :=
  subexpression c r row 1 (r.nb_columns - 1) false strings

/-- The loop of `osl_relation_is_simple_output` (source/relation.c:495-509): `none` when it returns 0 inside the
loop, otherwise `first` and `sign`. -/
def simpleLoop (c : Cfg) (r : Part) (row : Int) : Nat → Int → Bool → Int → Out Int
  | 0, _, _, sign => .ok sign
  | n + 1, i, first, sign =>
    match get2 r.m row i with
    | .ok v =>
      match OInt.zero c r.precision v, OInt.one c r.precision v, OInt.mone c r.precision v with
      | .ok z, .ok o, .ok m =>
        if !z then
          if !first then .ok 0
          else if o then simpleLoop c r row n (i + 1) false 1
          else if m then simpleLoop c r row n (i + 1) false (-1)
          else .ok 0
        else simpleLoop c r row n (i + 1) first sign
      | _, _, _ => .err
    | .err => .err
    | .ub => .ub

/-- `osl_relation_is_simple_output` (source/relation.c:477-512), on a non NULL relation with a matrix. -/
def is_simple_output (c : Cfg) (r : Part) (row : Int) : Out Int :=
  if r.nb_output_dims = 0 then .ok 0
  else if row < 0 ∨ row > r.nb_rows then .err
  else do
    let v ← get2 r.m row 0
    let z ← OInt.zero c r.precision v
    if !z then return 0
    else simpleLoop c r row r.nb_output_dims.toNat 1 true 0

/-- `osl_relation_sprint_comment` (source/relation.c:527-582): the text of the comment of a row of the first
part of `r` (the rest of the union is used by `osl_relation_get_array_id` only). -/
def sprint_comment (c : Cfg) (r : Part) (rest : Rel) (row : Int) (strings : List Str) (arrays : Option Strings) : Out Str := do
  let sign ← is_simple_output c r row
  if sign ≠ 0 then
    let e1 ← subexpression c r row 1 r.nb_output_dims (decide (sign < 0)) strings
    let v ← get2 r.m row 1
    let z ← OInt.zero c r.precision v
    if !isAccessPart r || z then
      let e2 ← subexpression c r row (r.nb_output_dims + 1) (r.nb_columns - 1) (decide (sign > 0)) strings
      Util.emit [truncated ("   ## ".toList ++ e1), truncated (" == ".toList ++ e2)]
    else
      let id ← get_array_id c (r :: rest)
      if id < 1 then .ub
      else
        let a ← nameAt arrays (id - 1)
        Util.emit [truncated ("   ## ".toList ++ e1), truncated (" == ".toList ++ a)]
  else
    let e ← expression c r row strings
    let v ← get2 r.m row 0
    let z ← OInt.zero c r.precision v
    Util.emit [truncated ("   ## ".toList ++ e), if z then " == 0".toList else " >= 0".toList]

/-- One column of `osl_relation_column_string` (source/relation.c:620-645): the name on four characters. -/
def columnName (s : Str) : Str :=
  let length := min 4 s.length
  let right := (4 - length) / 2
  let left := 4 - length - right
  List.replicate left ' ' ++ s.take (length - 1) ++
    (if length ≥ s.length then (s.drop (length - 1)).take 1 else ['.']) ++ List.replicate right ' '

/-- The separator after column `i - 1` (source/relation.c:647-653). -/
def columnSep (r : Part) (i : Int) : Char :=
  if i = 1 ∨ i = 1 + r.nb_output_dims ∨ i = 1 + r.nb_output_dims + r.nb_input_dims ∨
    i = 1 + r.nb_output_dims + r.nb_input_dims + r.nb_local_dims ∨
    i = 1 + r.nb_output_dims + r.nb_input_dims + r.nb_local_dims + r.nb_parameters then '|' else ' '

/-- The `while` loop of `osl_relation_column_string` (source/relation.c:619-654). -/
def columns (r : Part) : List Str → Int → Str
  | [], _ => []
  | s :: ss, i => columnName s ++ columnSep r (i + 1) :: columns r ss (i + 1)

/-- `osl_relation_column_string` (source/relation.c:593-656). -/
def column_string (r : Part) (strings : List Str) : Out Str := buffered ('#' :: columns r strings 0 ++ ['\n'])

/-- `osl_relation_names` (source/relation.c:745-757). -/
def relation_names (c : Cfg) (r : Rel) : Out Names := do
  let a ← get_attributes c r ⟨UNDEFINED, UNDEFINED, UNDEFINED, UNDEFINED, UNDEFINED⟩
  Names.generate ['P'] a.nb_parameters ['i'] a.nb_iterators ['c'] a.nb_scattdims ['l'] a.nb_localdims ['A'] a.array_id

/-- The call of `osl_relation_sprint_comment` with `names->arrays->string` (source/relation.c:852-853). -/
def rowComment (c : Cfg) (r : Part) (rest : Rel) (i : Int) (strings : List Str) (names : Names) : Out Str :=
  match names.arrays with
  | some a => sprint_comment c r rest i strings (some a)
  | none => .ub

/-- The texts of one row of the matrix and of its comment (source/relation.c:843-859). -/
def rowPieces (c : Cfg) (r : Part) (rest : Rel) (strings : List Str) (names : Names) (i : Int) : Out (List Str) := do
  let cells ← Out.mapOut (fun j => do
    let v ← get2 r.m i j
    let t ← OInt.sprint c r.precision v
    let t ← buffered t
    return [t, [' ']]) (upto r.nb_columns)
  let comment ← rowComment c r rest i strings names
  return cells.flatten ++ [comment, ['\n']]

/-- The line of the six attributes (source/relation.c:830-834). -/
def headerLine (r : Part) : Str :=
  showInt r.nb_rows ++ ' ' :: showInt r.nb_columns ++ ' ' :: showInt r.nb_output_dims ++ ' ' :: showInt r.nb_input_dims ++
    ' ' :: showInt r.nb_local_dims ++ ' ' :: showInt r.nb_parameters ++ ['\n']

/-- The comment line with the names of the columns, if there are rows (source/relation.c:837-841). -/
def columnPieces (r : Part) (strings : List Str) : Out (List Str) :=
  if r.nb_rows > 0 then do
    let s ← column_string r strings
    return [s]
  else .ok []

/-- The text of one union part (source/relation.c:821-869), `part` being its rank. -/
def partPieces (c : Cfg) (nb_parts : Nat) (part : Nat) (r : Part) (rest : Rel) (names : Names) : Out (List Str) := do
  let strings ← relation_strings r names
  let scolumn ← columnPieces r strings
  let rows ← Out.mapOut (rowPieces c r rest strings names) (upto r.nb_rows)
  return (if nb_parts > 1 then ["# Union part No.".toList ++ showNat part ++ ['\n']] else []) ++
    headerLine r :: scolumn ++ rows.flatten

/-- The loop on the union parts (source/relation.c:821-869). -/
def partsPieces (c : Cfg) (nb_parts : Nat) (names : Names) : Nat → Rel → Out (List Str)
  | _, [] => .ok []
  | part, r :: rest => do
    let a ← partPieces c nb_parts part r rest names
    let b ← partsPieces c nb_parts names (part + 1) rest
    return a ++ b

/-- The names used for the comments (source/relation.c:805-810). -/
def chooseNames (c : Cfg) (r : Rel) : Option Names → Out Names
  | some n => .ok n
  | none => relation_names c r

/-- `osl_relation_spprint_polylib` (source/relation.c:786-875). -/
def spprint_polylib (c : Cfg) (r : Rel) (names : Option Names) : Out Str :=
  match r with
  | [] => .ok "# NULL relation\n".toList
  | _ => do
    let names ← chooseNames c r names
    let parts ← partsPieces c r.length names 1 r
    Util.emit ((if r.length > 1 then
      ["# Union with ".toList ++ showNat r.length ++ " parts\n".toList ++ showNat r.length ++ ['\n']] else []) ++ parts)

/-- `osl_relation_spprint` (source/relation.c:1138-1161). -/
def spprint (c : Cfg) (r : Rel) (names : Option Names) : Out Str :=
  match r with
  | [] => Util.emit []
  | p :: _ => do
    let t ← spprint_polylib c r names
    Util.emit [sprint_type p.type, ['\n'], t]

/-- `osl_relation_sprint` (source/relation.c:1234-1236). -/
def sprint (c : Cfg) (r : Rel) : Out Str := spprint c r none

/-! ## Reading -/

/-- The comparisons of `osl_relation_read_type` (source/relation.c:1283-1319). -/
def typeOfWord (w : Str) : Out Int :=
  if w = "UNDEFINED".toList then .ok UNDEFINED
  else if w = "CONTEXT".toList then .ok TYPE_CONTEXT
  else if w = "DOMAIN".toList then .ok TYPE_DOMAIN
  else if w = "SCATTERING".toList then .ok TYPE_SCATTERING
  else if w = "READ".toList then .ok TYPE_READ
  else if w = "WRITE".toList then .ok TYPE_WRITE
  else if w = "MAY_WRITE".toList then .ok TYPE_MAY_WRITE
  else .err

/-- `osl_relation_read_type` (source/relation.c:1264-1323) once the strings are read. -/
def typeOfStrings : Option Strings → Out Int
  | some { string := some (w :: _) } => typeOfWord w
  | _ => .err

/-- `osl_relation_read_type` (source/relation.c:1264-1323) on a string: the type and the position, `none` when
it is after the end of the string. -/
def read_type (input : Str) : Out (Int × Option Str) := do
  let (s, pos) ← Strings.sread input
  let t ← typeOfStrings s
  return (t, pos)

/-- `osl_relation_read_type` (source/relation.c:1264-1323) on a file. -/
def fread_type (file : Str) : Out (Int × Str) := do
  let (s, rest) ← Strings.read file
  let t ← typeOfStrings s
  return (t, rest)

/-- The attributes of a union part as read on its first line. -/
structure Header where
  nb_rows : Int
  nb_columns : Int
  nb_output_dims : Int
  nb_input_dims : Int
  nb_local_dims : Int
  nb_parameters : Int
deriving Repr, DecidableEq

/-- The part read with a header, a type and a matrix (source/relation.c:1377-1382, 1498-1502). -/
def Header.part (h : Header) (precision type : Int) (m : Matrix) : Part :=
  { type := type, precision := precision, nb_rows := h.nb_rows, nb_columns := h.nb_columns, nb_output_dims := h.nb_output_dims, nb_input_dims := h.nb_input_dims, nb_local_dims := h.nb_local_dims, nb_parameters := h.nb_parameters, m := m }

/-- The result of `sscanf(.., " %d %d %d %d %d %d")` (source/relation.c:1355-1361, 1475-1482): a union count, a
header, or an error. -/
inductive FirstLine where
  | count (n : Int)
  | header (h : Header)
deriving Repr, DecidableEq

/-- Interpretation of the integers read on a line. -/
def firstLine (line : Str) : Out FirstLine := do
  let l ← scanInts 6 line
  match l with
  | [n] => .ok (.count n)
  | [a, b, d, e, f, g] => .ok (.header ⟨a, b, d, e, f, g⟩)
  | _ => .err

/-- One attribute line read from a string (source/relation.c:1464-1478): what it holds, its text and the new
position.  The copy in `str` overflows for a line of OSL_MAX_STRING characters or more. -/
def sLine (input : Str) : Out (FirstLine × Str × Str) :=
  let input := Util.sskip input
  let line := input.takeWhile (fun ch => ch != '\n')
  if line.length ≥ MAX_STRING then .ub
  else do
    let l ← firstLine line
    return (l, line, input.drop line.length)

/-- The state of the matrix reading: the position (`none` when it is out of the string) and the last
token read, with the value of `n` (`none` before any token is read). -/
structure RState where
  pos : Option Str
  last : Option (Str × Nat)
deriving Repr, DecidableEq

/-- Reading one entry of the matrix (source/relation.c:1391-1399, 1511-1519).  At the end of the input `sscanf`
returns `EOF`, which is not tested: the previous token is used again. -/
def readVal (c : Cfg) (p : Int) (s : RState) : Out (Int × RState) :=
  match s.pos with
  | none => .ub
  | some input =>
    match input with
    | '#' :: _ => .err
    | '\n' :: _ => .err
    | _ =>
      match scanToken input with
      | some (tok, rest) =>
        if tok.length ≥ MAX_STRING then .ub
        else do
          let (v, _) ← OInt.sread c p tok 0
          return (v, { pos := some rest, last := some (tok, input.length - rest.length) })
      | none =>
        match s.last with
        | none => .ub
        | some (tok, n) => do
          let (v, _) ← OInt.sread c p tok 0
          return (v, { pos := if n ≤ input.length then some (input.drop n) else none, last := s.last })

/-- The loop on the columns. -/
def readVals (c : Cfg) (p : Int) : Nat → RState → Out (List Int × RState)
  | 0, s => .ok ([], s)
  | n + 1, s => do
    let (v, s) ← readVal c p s
    let (vs, s) ← readVals c p n s
    return (v :: vs, s)

/-- The loop on the rows, from a string (source/relation.c:1505-1521). -/
def sRows (c : Cfg) (p : Int) (ncols : Nat) : Nat → RState → Out (Matrix × RState)
  | 0, s => .ok ([], s)
  | n + 1, s =>
    match s.pos with
    | none => .ub
    | some input => do
      let (row, s) ← readVals c p ncols { s with pos := some (Util.sskip input) }
      let (rows, s) ← sRows c p ncols n s
      return (row :: rows, s)

/-- The allocation of a part and the reading of its matrix from a string (source/relation.c:1498-1521). -/
def sBody (c : Cfg) (p : Int) (h : Header) (s : RState) : Out (Part × RState) := do
  let _ ← pmalloc c p h.nb_rows h.nb_columns
  let (m, s) ← sRows c p h.nb_columns.toNat h.nb_rows.toNat s
  return (h.part p UNDEFINED m, s)

/-- One attribute line at a position which may be out of the string; the line takes the place of the last
token in `str`. -/
def sLineAt (s : RState) : Out (FirstLine × RState) :=
  match s.pos with
  | none => .ub
  | some input => do
    let (l, line, rest) ← sLine input
    return (l, { pos := some rest, last := s.last.map fun t => (line, t.2) })

/-- The union parts after the first one: `n` parts to read (source/relation.c:1459-1533). -/
def sParts (c : Cfg) (p : Int) : Nat → RState → Out (Rel × RState)
  | 0, s => .ok ([], s)
  | n + 1, s => do
    let (l, s) ← sLineAt s
    match l with
    | .count _ => .err
    | .header h => do
      let (part, s) ← sBody c p h s
      let (rest, s) ← sParts c p n s
      return (part :: rest, s)

/-- `osl_relation_psread_polylib` (source/relation.c:1447-1536): the relation and the new position. -/
def psread_polylib (c : Cfg) (p : Int) (input : Option Str) : Out (Rel × Option Str) := do
  let (l, s) ← sLineAt { pos := input, last := none }
  match l with
  | .count n =>
    if n < 1 then .err
    else do
      let (r, s) ← sParts c p n.toNat s
      return (r, s.pos)
  | .header h => do
    let (part, s) ← sBody c p h s
    return ([part], s.pos)

/-- `osl_relation_psread` (source/relation.c:1425-1434): the type is given to the first part only. -/
def psread (c : Cfg) (p : Int) (input : Str) : Out (Rel × Option Str) := do
  let (type, pos) ← read_type input
  let (r, pos) ← psread_polylib c p pos
  match r with
  | [] => .ub
  | q :: rest => return ({ q with type := type } :: rest, pos)

/-- One line of a file: at the end of the file `sscanf` receives NULL. -/
def fLine (file : Str) : Out (FirstLine × Str) :=
  match Util.fskip file with
  | (none, _) => .ub
  | (some line, rest) => do
    let l ← firstLine line
    return (l, rest)

/-- The loop on the rows, from a file (source/relation.c:1385-1401): the last token survives from row to row. -/
def fRows (c : Cfg) (p : Int) (ncols : Nat) : Nat → Option (Str × Nat) → Str → Out (Matrix × Option (Str × Nat) × Str)
  | 0, last, file => .ok ([], last, file)
  | n + 1, last, file =>
    match Util.fskip file with
    | (none, _) => .err
    | (some line, file) => do
      let (row, s) ← readVals c p ncols { pos := some line, last := last }
      let (rows, last, file) ← fRows c p ncols n s.last file
      return (row :: rows, last, file)

/-- One part read from a file (source/relation.c:1377-1401). -/
def fBody (c : Cfg) (p type : Int) (h : Header) (last : Option (Str × Nat)) (file : Str) : Out (Part × Option (Str × Nat) × Str) := do
  let _ ← pmalloc c p h.nb_rows h.nb_columns
  let (m, last, file) ← fRows c p h.nb_columns.toNat h.nb_rows.toNat last file
  return (h.part p type m, last, file)

/-- The union parts after the number of parts (source/relation.c:1348-1413). -/
def fParts (c : Cfg) (p type : Int) : Nat → Option (Str × Nat) → Str → Out (Rel × Str)
  | 0, _, file => .ok ([], file)
  | n + 1, last, file => do
    let (l, file) ← fLine file
    match l with
    | .count _ => .err
    | .header h => do
      let (part, last, file) ← fBody c p type h last file
      let (rest, file) ← fParts c p type n last file
      return (part :: rest, file)

/-- `osl_relation_pread` (source/relation.c:1333-1416): the relation and what remains of the file. -/
def pread (c : Cfg) (p : Int) (file : Str) : Out (Rel × Str) := do
  let (type, file) ← fread_type file
  let (l, file) ← fLine file
  match l with
  | .count n =>
    if n < 1 then .err
    else fParts c p type n.toNat none file
  | .header h => do
    let (part, _, file) ← fBody c p type h none file
    return ([part], file)

end Rel
end Osl
