import Verif.Text
/-!
# Model of source/util.c

The functions with a `FILE*` and a `char**` parameter are modelled by two functions (`f...` for the
file version).  A `FILE*` is the list of characters which remain to be read.
-/

namespace Osl
namespace Util

/-- `osl_util_sskip_blank_and_comments` (source/util.c:107-120): the new position.  The flag tells that we
are inside a comment; the loops of the code are merged in one recursion. -/
def skip : Bool → Str → Str
  | _, [] => []
  | false, c :: s => if isSpace c then skip false s else if c = '#' then skip true s else c :: s
  | true, c :: s => if c = '\n' then skip false s else skip true s

/-- `osl_util_sskip_blank_and_comments` (source/util.c:107-120). -/
def sskip (s : Str) : Str := skip false s

/-- `fgets(str, n + 1, file)`: at most `n` characters, up to and including the end of line; `none` at
the end of the file. -/
def fgets (n : Nat) (s : Str) : Option (Str × Str) :=
  match s with
  | [] => none
  | _ =>
    let line := (s.takeWhile (fun c => c != '\n'))
    if line.length < n then
      -- the end of line is stored too
      some (line ++ (s.drop line.length).take 1, s.drop (line.length + 1))
    else some (s.take n, s.drop n)

/-- The loop of lines 92-93 of source/util.c: skip the blanks which are not an end of line. -/
def skipBlank (s : Str) : Str := s.dropWhile (fun c => isSpace c && c != '\n')

/-- `osl_util_skip_blank_and_comments` (source/util.c:87-97): the pointer to the useful part of the
line read (`none` for NULL) and the new state of the file.  Fuel: each turn reads a character. -/
def fskipLoop : Nat → Str → Option Str × Str
  | 0, s => (none, s)
  | n + 1, s =>
    match fgets (MAX_STRING - 1) s with
    | none => (none, s)
    | some (line, rest) =>
      match skipBlank line with
      | c :: t => if c = '#' ∨ c = '\n' then fskipLoop n rest else (some (c :: t), rest)
      | [] => (some [], rest)

/-- `osl_util_skip_blank_and_comments` (source/util.c:87-97). -/
def fskip (s : Str) : Option Str × Str := fskipLoop (s.length + 1) s

/-- The characters of a word (lines 151, 191 of source/util.c). -/
def wordChar (c : Char) : Bool := !isSpace c && c != '\n' && c != '#'

/-- `osl_util_read_int` (source/util.c:132-159) on a string: the value and the new position.  A word of
OSL_MAX_STRING characters or more overflows the buffer `s`. -/
def read_int (s : Str) : Out (Int × Str) :=
  let s := sskip s
  let w := s.takeWhile wordChar
  if w.length ≥ MAX_STRING then .ub
  else
    match scanInt w with
    | .val v _ => if fits 32 v then .ok (v, s.dropWhile wordChar) else .ub
    | _ => .err

/-- `osl_util_read_int` (source/util.c:132-159) on a file: the value and the new state of the file. At the
end of the file `sscanf` receives a NULL pointer. -/
def fread_int (s : Str) : Out (Int × Str) :=
  match fskip s with
  | (none, _) => .ub
  | (some line, rest) =>
    match scanInt line with
    | .val v _ => if fits 32 v then .ok (v, rest) else .ub
    | _ => .err

/-- `osl_util_read_string` (source/util.c:171-200) on a string. -/
def read_string (s : Str) : Out (Str × Str) :=
  let s := sskip s
  let w := s.takeWhile wordChar
  if w.length ≥ MAX_STRING then .ub
  else
    match scanToken w with
    | some (t, _) => .ok (t, s.dropWhile wordChar)
    | none => .err

/-- `osl_util_read_string` (source/util.c:171-200) on a file. -/
def fread_string (s : Str) : Out (Str × Str) :=
  match fskip s with
  | (none, _) => .ub
  | (some line, rest) =>
    match scanToken line with
    | some (t, _) => .ok (t, rest)
    | none => .err

/-- The characters of a line (lines 226, 231 of source/util.c). -/
def lineChar (c : Char) : Bool := c != '\n' && c != '#'

/-- `osl_util_read_line` (source/util.c:214-238) on a string: with OSL_MAX_STRING characters or more the
terminator is written out of the buffer (line 235). -/
def read_line (s : Str) : Out (Str × Str) :=
  let s := sskip s
  let l := s.takeWhile lineChar
  if l.length ≥ MAX_STRING then .ub else .ok (l, s.dropWhile lineChar)

/-- `osl_util_read_line` (source/util.c:214-238) on a file. -/
def fread_line (s : Str) : Out (Str × Str) :=
  match fskip s with
  | (none, _) => .ub
  | (some line, rest) => .ok (line.takeWhile lineChar, rest)

/-- The characters of a tag name (lines 284-286 of source/util.c); `first` is `i == 0`. -/
def tagChar (first : Bool) (c : Char) : Bool :=
  (decide ('A' ≤ c) && decide (c ≤ 'Z')) || (decide ('a' ≤ c) && decide (c ≤ 'z')) || (c == '/' && first) || c == '_'

/-- The loop of lines 283-292 of source/util.c, then the check of `>` (lines 295-297). -/
def tagLoop : Str → Str → Out (Str × Str)
  | _, [] => .err
  | res, c :: s =>
    if c = '>' then .ok (res, s)
    else if tagChar res.isEmpty c then
      if res.length + 1 > MAX_STRING then .ub else tagLoop (res ++ [c]) s
    else .err

/-- `osl_util_read_tag` (source/util.c:254-300) on a string: the tag name (`none` for NULL at the end of
the input) and the new position. -/
def read_tag (s : Str) : Out (Option Str × Str) :=
  match sskip s with
  | [] => .ok (none, [])
  | c :: s =>
    if c = '<' then
      match tagLoop [] s with
      | .ok (name, rest) => .ok (some name, rest)
      | .err => .err
      | .ub => .ub
    else .err

/-- `osl_util_read_tag` (source/util.c:254-300) on a file: the tag is read in a line of the file, and what
follows it on this line is lost.  When the end of the file is met while reading the line, `feof` makes the
function return NULL (simplification: also when the last line has no end and exactly OSL_MAX_STRING - 1
characters, in which case the code reads the tag). -/
def fread_tag (s : Str) : Out (Option Str × Str) :=
  match fskip s with
  | (none, rest) => .ok (none, rest)
  | (some line, rest) =>
    if rest = [] ∧ line.getLast? ≠ some '\n' then .ok (none, rest)
    else
      match line with
      | [] => .ok (none, rest)
      | c :: t =>
        if c = '<' then
          match tagLoop [] t with
          | .ok (name, _) => .ok (some name, rest)
          | .err => .err
          | .ub => .ub
        else .err

/-- The loop of `osl_util_read_uptoflag` (source/util.c:329-343): `res` is the buffer content, `hwm` its
capacity; the result is the content before the flag, if found, and the new position. -/
def uptoLoop (flag : Str) : Str → Nat → Str → Out (Option Str × Str)
  | _, _, [] => .ok (none, [])
  | res, hwm, c :: s =>
    if res.length ≥ hwm then .ub
    else
      let res' := res ++ [c]
      if flag.length ≤ res'.length ∧ res'.drop (res'.length - flag.length) = flag then
        .ok (some (res'.take (res'.length - flag.length)), s)
      else uptoLoop flag res' (if res'.length ≥ hwm then hwm + hwm else hwm) s

/-- `osl_util_read_uptoflag` (source/util.c:315-356) on a string; the file version only differs by the
character `EOF` appended before the end of a file is noticed, which does not change the result
unless it belongs to the flag. -/
def read_uptoflag (s flag : Str) : Out (Option Str × Str) := uptoLoop flag [] MAX_STRING s

/-- `<name>` -/
def startTag (name : Str) : Str := '<' :: name ++ ['>']

/-- `</name>` -/
def endTag (name : Str) : Str := '<' :: '/' :: name ++ ['>']

/-- `osl_util_read_uptotag` (source/util.c:371-376). -/
def read_uptotag (s name : Str) : Out (Option Str × Str) := read_uptoflag s (startTag name)

/-- `osl_util_read_uptoendtag` (source/util.c:391-396). -/
def read_uptoendtag (s name : Str) : Out (Option Str × Str) := read_uptoflag s (endTag name)

/-- The search loops of `osl_util_tag_content` (source/util.c:423-424, 432-433): number of characters
before the first position where `tag` is found, `none` if there is none. -/
def findTag (tag : Str) : Str → Option Nat
  | [] => none
  | c :: s => if tag.isPrefixOf (c :: s) then some 0 else (findTag tag s).map (· + 1)

/-- `osl_util_tag_content` (source/util.c:407-447) on a non NULL string: `none` for NULL. When the content
is empty the copy loop starts after its end and runs out of the string. -/
def tag_content (s name : Str) : Out (Option Str) :=
  match findTag (startTag name) s with
  | none => .ok none
  | some i =>
    let start := s.drop (i + (startTag name).length)
    match findTag (endTag name) start with
    | none => .ok none
    | some size =>
      if size = 0 then .ub else .ok (some ((start.take size).drop 1))

/-- A growing buffer: content and capacity. -/
structure Buf where
  str : Str
  hwm : Nat
deriving Repr, DecidableEq

/-- The loop of lines 460-463 of source/util.c. -/
def growLoop : Nat → Nat → Nat → Nat
  | 0, _, hwm => hwm
  | n + 1, len, hwm => if len ≥ hwm then growLoop n len (hwm + MAX_STRING) else hwm

/-- `osl_util_safe_strcat` (source/util.c:459-466); `strcat` writes the characters and a terminator, it
is undefined when they do not fit in the buffer. -/
def safe_strcat (dst : Buf) (src : Str) : Out Buf :=
  let len := dst.str.length + src.length
  let hwm := growLoop (len + 1) len dst.hwm
  if len + 1 > hwm then .ub else .ok { str := dst.str ++ src, hwm := hwm }

/-- A sequence of appends to one buffer. -/
def appends : Buf → List Str → Out Buf
  | b, [] => .ok b
  | b, s :: ss => safe_strcat b s >>= fun b => appends b ss

/-- The pattern of all the `sprint` functions of the library (for instance source/strings.c:121-128): a
buffer of OSL_MAX_STRING bytes is allocated and the pieces of text are appended in order with
`osl_util_safe_strcat`; the result is the string. -/
def emit (ss : List Str) : Out Str := do
  let b ← appends { str := [], hwm := MAX_STRING } ss
  return b.str

/-- `osl_util_strdup` (source/util.c:478-485). -/
def strdup (s : Str) : Str := s

/-- `osl_util_get_precision` (source/util.c:493-521); `env` is the variable OSL_PRECISION. -/
def get_precision (c : Cfg) (env : Option Str) : Int :=
  let default := if c.gmp then PREC_MP else PREC_DP
  match env with
  | none => default
  | some e =>
    if e = "32".toList then PREC_SP
    else if e = "64".toList then PREC_DP
    else if e = "0".toList then (if c.gmp then PREC_MP else PREC_DP)
    else default

/-! ## Identifier substitution -/

/-- The characters [A-Za-z0-9_] (lines 561-564 of source/util.c). -/
def identChar (c : Char) : Bool :=
  (decide ('A' ≤ c) && decide (c ≤ 'Z')) || (decide ('a' ≤ c) && decide (c ≤ 'z')) ||
  (decide ('0' ≤ c) && decide (c ≤ '9')) || c == '_'

/-- `osl_util_identifier_is_here` (source/util.c:550-583). -/
def identifier_is_here (expr ident : Str) (index : Nat) : Bool :=
  if ident.length + index > expr.length then false
  else if index > 0 ∧ (expr[index - 1]?.map identChar).getD false then false
  else if ident.length + index < expr.length ∧ (expr[ident.length + index]?.map identChar).getD false then false
  else (expr.drop index).take ident.length == ident

/-- The loop of lines 608-613 of source/util.c, from position `look - 1` down: the first character
before the identifier which is not a space, `none` when there is none. -/
def lookBack (expr : Str) : Nat → Option Char
  | 0 => none
  | look + 1 =>
    match expr[look]? with
    | some c => if isSpace c then lookBack expr look else some c
    | none => none

/-- The loop of lines 622-627 of source/util.c: the first character after the identifier which is not a
space. -/
def lookAhead (s : Str) : Option Char := (s.dropWhile isSpace).head?

/-- Characters after which an identifier is considered isolated (lines 615-617). -/
def openChar (c : Char) : Bool := c == '[' || c == '(' || c == '+' || c == '=' || c == ','

/-- Characters before which an identifier is considered isolated (lines 629-631). -/
def closeChar (c : Char) : Bool := c == ']' || c == ')' || c == '+' || c == ',' || c == ';'

/-- `osl_util_lazy_isolated_identifier` (source/util.c:599-635). -/
def lazy_isolated (expr ident : Str) (index : Nat) : Bool :=
  ((lookBack expr index).map openChar).getD true &&
  ((lookAhead (expr.drop (index + ident.length))).map closeChar).getD true

/-- The inner loop of `osl_util_identifier_substitution` (source/util.c:667-680): rank and text of the first
identifier found at the index. -/
def findIdent (expr : Str) (index : Nat) : Nat → List Str → Option (Nat × Str)
  | _, [] => none
  | j, id :: ids => if identifier_is_here expr id index then some (j, id) else findIdent expr index (j + 1) ids

/-- `@j@` or `(@j@)` (lines 669-673 of source/util.c). -/
def placeholder (par : Bool) (j : Nat) : Str :=
  if par then "(@".toList ++ showNat j ++ "@)".toList else "@".toList ++ showNat j ++ "@".toList

/-- The outer loop (source/util.c:664-686); `out` is the buffer `string` with its capacity.  An empty
identifier does not advance: the loop then does not terminate, `ub` here. -/
def substLoop (expr : Str) (ids : List Str) : Nat → Nat → Buf → Out Buf
  | 0, _, _ => .ub
  | fuel + 1, index, out =>
    if index < expr.length then
      match findIdent expr index 0 ids with
      | some (j, id) => do
        let out ← safe_strcat out (placeholder (!lazy_isolated expr id index) j)
        substLoop expr ids fuel (index + id.length) out
      | none => do
        let out ← safe_strcat out (expr[index]?).toList
        substLoop expr ids fuel (index + 1) out
    else .ok out

/-- `osl_util_identifier_substitution` (source/util.c:652-689): the resulting string. -/
def identifier_substitution (expr : Str) (ids : List Str) : Out Str := do
  let out ← substLoop expr ids (expr.length + 1) 0 { str := [], hwm := MAX_STRING }
  return out.str

end Util
end Osl
