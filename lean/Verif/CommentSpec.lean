import Verif.RelSpec
import Verif.Strings
/-!
# Specification: the meaning of the comments of a relation

What a reader understands from a text like `2*i-N+3`: a sum of terms, each of them a number, a name, or a number times a name.
Independent of the functions of the library.
-/

namespace Osl
namespace Comment

/-- The value of a term without sign: a name, a number, or a number, a star and a name. -/
def term (ρ : Str → Int) : Str → Int
  | [] => 0
  | ch :: w =>
    if isDigit ch then
      let n : Int := digitsVal ((ch :: w).takeWhile isDigit)
      match (ch :: w).dropWhile isDigit with
      | '*' :: name => n * ρ name
      | _ => n
    else ρ (ch :: w)

/-- The value of a sum, from the sign of the current term, the characters of this term seen so far and what remains. -/
def sum (ρ : Str → Int) : Int → Str → Str → Int
  | sign, seen, [] => sign * term ρ seen
  | sign, seen, ch :: w =>
    if ch = '+' then sign * term ρ seen + sum ρ 1 [] w
    else if ch = '-' then sign * term ρ seen + sum ρ (-1) [] w
    else sum ρ sign (seen ++ [ch]) w

/-- The value of an expression, when the names have the values given by `ρ`. -/
def eval (ρ : Str → Int) (w : Str) : Int := sum ρ 1 [] w

example : eval (fun w => if w = "i".toList then 5 else if w = "N".toList then 100 else 0) "2*i-N+3".toList = -87 := by decide

/-- A name which can be used in an expression. -/
def IsName (w : Str) : Prop := w ≠ [] ∧ (∀ ch, w.head? = some ch → isDigit ch = false) ∧ '+' ∉ w ∧ '-' ∉ w

/-- The strings of a container, none for NULL. -/
def wordsOf (s : Option Strings) : List Str := ((s.map fun x => x.words).getD [])

/-- The names of the dimensions of a part: those of the output dimensions (the iterators for a domain or a context, `Arr`, `[1]`, `[2]` .. for
an access, the scattering dimensions otherwise), the iterators for the input dimensions, the local dimensions, the parameters. -/
def dimNames (p : Part) (names : Names) : List Str :=
  (if p.type = TYPE_ACCESS ∨ p.type = TYPE_READ ∨ p.type = TYPE_WRITE ∨ p.type = TYPE_MAY_WRITE then
      (List.range p.nb_output_dims.toNat).map fun i => if i = 0 then "Arr".toList else '[' :: showNat i ++ [']']
    else if p.type = TYPE_DOMAIN ∨ p.type = TYPE_CONTEXT then (wordsOf names.iterators).take p.nb_output_dims.toNat
    else (wordsOf names.scatt_dims).take p.nb_output_dims.toNat) ++
  (wordsOf names.iterators).take p.nb_input_dims.toNat ++ (wordsOf names.local_dims).take p.nb_local_dims.toNat ++
  (wordsOf names.parameters).take p.nb_parameters.toNat

/-- What the comment `t` of the constraint `row` says: an equality or an inequality which holds for the same values of the names of the
dimensions as the constraint; or, for the row which fixes the first dimension of an access, the name of the array number `k`, when the
constraint says that the first dimension is `k`. -/
inductive Says (row : List Int) (dims arrays : List Str) (t : Str) : Prop
  | equality (lhs rhs : Str) (text : t = "   ## ".toList ++ lhs ++ (" == ".toList ++ rhs))
      (holds : ∀ ρ, RowHolds row (dims.map ρ) ↔ eval ρ lhs = eval ρ rhs)
  | inequality (lhs rhs : Str) (text : t = "   ## ".toList ++ lhs ++ (" >= ".toList ++ rhs))
      (holds : ∀ ρ, RowHolds row (dims.map ρ) ↔ eval ρ lhs ≥ eval ρ rhs)
  | array (k : Nat) (lhs name : Str) (text : t = "   ## ".toList ++ lhs ++ (" == ".toList ++ name)) (known : 0 < k ∧ arrays[k - 1]? = some name)
      (first : ∀ ρ, eval ρ lhs = ρ "Arr".toList) (holds : ∀ ρ, RowHolds row (dims.map ρ) ↔ ρ "Arr".toList = k)

/-- The entries of a row as they are written: each on four characters at least, and a space. -/
def entries (row : List Int) : Str := (row.map fun v => padLeft 4 (showInt v) ++ [' ']).flatten

/-- In the text `t`, the entries of `row` are followed, on their line, by the comment `comment`. -/
def IsAfter (t : Str) (row : List Int) (comment : Str) : Prop :=
  ∃ before after, t = before ++ (entries row ++ (comment ++ '\n' :: after))

end Comment
end Osl
