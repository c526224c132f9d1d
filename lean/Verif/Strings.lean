import Verif.UtilProps
/-!
# Model of source/strings.c and source/names.c

A `char**` NULL-terminated array is the list of its strings (what precedes the NULL); the field
`string` of an `osl_strings_t` may be NULL (`none`), as `osl_strings_generate` leaves it.  A pointer
to a structure is an `Option`, `none` for NULL.  Memory is not shared in the model: a clone is a copy.
-/

namespace Osl

/-- `osl_strings_t` (include/osl/strings.h:79-81). -/
structure Strings where
  string : Option (List Str)
deriving Repr, DecidableEq

namespace Strings

/-- `osl_strings_malloc` (source/strings.c:271-279). -/
def malloc : Strings := { string := some [] }

/-- `osl_strings_size` (source/strings.c:398-408). -/
def size : Option Strings → Nat
  | some { string := some l } => l.length
  | _ => 0

/-- The words of a strings structure, in order. -/
def words (s : Strings) : List Str := s.string.getD []

/-- `strings->string[i]` for `i` below the size. -/
def get (s : Option Strings) (i : Nat) : Option Str := s.bind fun s => s.words[i]?

/-- The pieces appended by the loop of `osl_strings_sprint` (source/strings.c:136-141). -/
def pieces : List Str → List Str
  | [] => []
  | [w] => [w]
  | w :: ws => w :: [' '] :: pieces ws

/-- `osl_strings_sprint` (source/strings.c:126-150).  Each string is copied by `sprintf` in a buffer of
OSL_MAX_STRING bytes. -/
def sprint : Option Strings → Out Str
  | none => Util.emit ["# NULL strings\n".toList]
  | some s =>
    if s.words.all (fun w => decide (w.length < MAX_STRING)) then Util.emit (pieces s.words ++ [['\n']]) else .ub

/-- The characters of a word (source/strings.c:200, 220). -/
def tokChar (c : Char) : Bool := !isSpace c && c != '#'

/-- The counting loop of `osl_strings_sread` (source/strings.c:199-210).  Fuel: a character is passed at each
turn. -/
def countLoop : Nat → Str → Nat → Nat
  | 0, _, nb => nb
  | fuel + 1, s, nb =>
    let nb' := if (s.takeWhile tokChar).length ≠ 0 then nb + 1 else nb
    match s.dropWhile tokChar with
    | [] => nb'
    | c :: t => if c = '#' ∨ c = '\n' then nb' else countLoop fuel t nb'

/-- The reading loop of `osl_strings_sread` (source/strings.c:219-226): the strings and the final position,
`none` when it is after the terminator of the input. -/
def readLoop : Nat → Str → Out (List Str × Option Str)
  | 0, s => .ok ([], some s)
  | n + 1, s =>
    let w := s.takeWhile tokChar
    if w.length ≥ MAX_STRING then .ub
    else
      match s.dropWhile tokChar with
      | [] => if n = 0 then .ok ([w], none) else .ub
      | c :: t =>
        match readLoop n (if c = '#' then c :: t else t) with
        | .ok (ws, pos) => .ok (w :: ws, pos)
        | .err => .err
        | .ub => .ub

/-- `osl_strings_sread` (source/strings.c:185-238): the structure (`none` for NULL) and the new position. -/
def sread (input : Str) : Out (Option Strings × Option Str) :=
  let input := Util.sskip input
  let nb := countLoop (input.length + 1) input 0
  if nb > 0 then
    match readLoop nb input with
    | .ok (ws, pos) => .ok (some { string := some ws }, pos)
    | .err => .err
    | .ub => .ub
  else .ok (none, some input)

/-- `osl_strings_read` (source/strings.c:249-257): a NULL line is dereferenced by `osl_strings_sread`. -/
def read (file : Str) : Out (Option Strings × Str) :=
  match Util.fskip file with
  | (none, _) => .ub
  | (some line, rest) =>
    match sread line with
    | .ok (s, _) => .ok (s, rest)
    | .err => .err
    | .ub => .ub

/-- `osl_strings_clone` (source/strings.c:313-331). -/
def clone : Option Strings → Option Strings
  | none => none
  | some s => if size (some s) = 0 then some malloc else some { string := some (s.words.map Util.strdup) }

/-- The loop of `osl_strings_find` (source/strings.c:343-347). -/
def findLoop (str : Str) : Nat → List Str → Nat
  | i, [] => i
  | i, w :: ws => if w = str then i else findLoop str (i + 1) ws

/-- `osl_strings_find` (source/strings.c:340-349). -/
def find (s : Option Strings) (str : Str) : Nat :=
  match s with
  | some s => findLoop str 0 s.words
  | none => 0

/-- `osl_strings_add` (source/strings.c:357-363), on a non NULL structure. -/
def add (s : Strings) (str : Str) : Strings := { string := some (s.words ++ [str]) }

/-- The comparison loop of `osl_strings_equal` (source/strings.c:384-386), on arrays of the same size. -/
def equalLoop : List Str → List Str → Bool
  | a :: as, b :: bs => if a ≠ b then false else equalLoop as bs
  | _, _ => true

/-- `osl_strings_equal` (source/strings.c:373-389).  The shortcut on equal pointers returns true, as the
comparison of a structure with itself does. -/
def equal : Option Strings → Option Strings → Bool
  | none, none => true
  | some _, none => false
  | none, some _ => false
  | some s1, some s2 => if size (some s1) ≠ size (some s2) then false else equalLoop s1.words s2.words

/-- `osl_strings_encapsulate` (source/strings.c:417-425). -/
def encapsulate (str : Str) : Strings := { string := some [str] }

/-- The generation loop (source/strings.c:466-471) for the ranks `i+1, ..`. -/
def genLoop (pre : Str) : Nat → Nat → List Str
  | _, 0 => []
  | i, n + 1 => (pre ++ showNat (i + 1)) :: genLoop pre (i + 1) n

/-- `osl_strings_generate` (source/strings.c:457-478): `nb_strings + 1` is computed in `int`, and a negative
number writes at a negative index. -/
def generate (pre : Str) (n : Int) : Out Strings :=
  if n = 0 then .ok { string := none }
  else if n < 0 ∨ n = cMax 32 then .ub
  else .ok { string := some (genLoop pre 0 n.toNat) }

/-- The loop of `osl_strings_add_strings` (source/strings.c:495-498). -/
def addLoop : Option Strings → List Str → Out (Option Strings)
  | r, [] => .ok r
  | none, _ :: _ => .ub
  | some r, w :: ws => addLoop (some (add r w)) ws

/-- `osl_strings_add_strings` (source/strings.c:488-501): the new value of `*dest`. -/
def add_strings (s1 s2 : Option Strings) : Out (Option Strings) :=
  match s2 with
  | some { string := some l } => addLoop (clone s1) l
  | _ => .ub

end Strings

/-- `osl_names_t` (include/osl/names.h:78-84). -/
structure Names where
  parameters : Option Strings
  iterators : Option Strings
  scatt_dims : Option Strings
  local_dims : Option Strings
  arrays : Option Strings
deriving Repr, DecidableEq

namespace Names

/-- `osl_names_malloc` (source/names.c:142-153). -/
def malloc : Names := { parameters := none, iterators := none, scatt_dims := none, local_dims := none, arrays := none }

/-- `osl_names_generate` (source/names.c:195-209). -/
def generate (pp : Str) (np : Int) (ip : Str) (ni : Int) (sp : Str) (ns : Int) (lp : Str) (nl : Int)
    (ap : Str) (na : Int) : Out Names := do
  let p ← Strings.generate pp np
  let i ← Strings.generate ip ni
  let s ← Strings.generate sp ns
  let l ← Strings.generate lp nl
  let a ← Strings.generate ap na
  return { parameters := some p, iterators := some i, scatt_dims := some s, local_dims := some l, arrays := some a }

/-- `osl_names_clone` (source/names.c:218-230). -/
def clone : Option Names → Option Names
  | none => none
  | some n => some { parameters := Strings.clone n.parameters, iterators := Strings.clone n.iterators, scatt_dims := Strings.clone n.scatt_dims, local_dims := Strings.clone n.local_dims, arrays := Strings.clone n.arrays }

end Names
end Osl
