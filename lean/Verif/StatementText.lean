import Verif.Statement
import Verif.RelationText
/-!
# Model of the text functions of source/relation_list.c and source/statement.c

Printing to a file gives the text written, reading from a file gives the result and what remains of the
file.  The ranks of the statements are natural numbers (the code counts them in an `int`); they
are only written in comments.  The scoplib printers are modelled in `Verif/Scoplib.lean`.
-/

namespace Osl

namespace RList

/-- The loop of `osl_relation_list_pprint_elts` (source/relation_list.c:163-170). -/
def eltsLoop (c : Cfg) (names : Option Names) : RList → Out Str
  | [] => .ok []
  | e :: l =>
    match e with
    | [] => eltsLoop c names l
    | _ => do
      let t ← Rel.spprint c e names
      let r ← eltsLoop c names l
      return t ++ (if l.isEmpty then [] else "\n".toList) ++ r

/-- `osl_relation_list_pprint_elts` (source/relation_list.c:152-176). -/
def pprint_elts (c : Cfg) (l : RList) (names : Option Names) : Out Str :=
  if count l > 0 then eltsLoop c names l else .ok "# NULL relation list\n".toList

/-- `osl_relation_list_pprint` (source/relation_list.c:287-303). -/
def pprint (c : Cfg) (l : RList) (names : Option Names) : Out Str := do
  let t ← pprint_elts c l names
  return (if count l > 1 then "# List of ".toList ++ showNat (count l) ++ " elements\n".toList
    else "# List of ".toList ++ showNat (count l) ++ " element \n".toList) ++ (showNat (count l) ++ ("\n".toList ++ t))

/-- `osl_relation_list_print` (source/relation_list.c:313-316). -/
def print (c : Cfg) (l : RList) : Out Str := pprint c l none

/-- The loop of `osl_relation_list_pread` (source/relation_list.c:343-348). -/
def readLoop (c : Cfg) (precision : Int) : Nat → Str → Out (RList × Str)
  | 0, file => .ok ([], file)
  | n + 1, file => do
    let (r, file) ← Rel.pread c precision file
    let (l, file) ← readLoop c precision n file
    return (r :: l, file)

/-- The allocation of the first node and the loop (source/relation_list.c:342-348): without relation to read, the list
has one node, the relation of which is NULL. -/
def readElts (c : Cfg) (precision n : Int) (file : Str) : Out (RList × Str) :=
  if n = 0 then .ok ([[]], file) else readLoop c precision n.toNat file

/-- `osl_relation_list_pread` (source/relation_list.c:330-352). -/
def pread (c : Cfg) (precision : Int) (file : Str) : Out (RList × Str) := do
  let (n, file) ← Util.fread_int file
  if n < 0 then .err else readElts c precision n file

end RList

namespace Stmts

variable {D : Type}

/-- `osl_statement_names` (source/statement.c:169-181). -/
def names (c : Cfg) (s : Stmts D) : Out Names := do
  let a ← get_attributes c s ⟨UNDEFINED, UNDEFINED, UNDEFINED, UNDEFINED, UNDEFINED⟩
  Names.generate ['P'] a.nb_parameters ['i'] a.nb_iterators ['c'] a.nb_scattdims ['l'] a.nb_localdims ['A'] a.array_id

/-- `%2d`. -/
def pad2 (n : Nat) : Str := List.replicate (2 - (showNat n).length) ' ' ++ showNat n

/-- The names used for a statement (source/statement.c:212-217): the iterators of the body if it has any. -/
def withBody (names : Names) (body : Option Body) : Names :=
  match body with
  | some { iterators := some i, expression := _ } => { names with iterators := some i }
  | _ => names

/-- The number of relations of a statement (source/statement.c:226-230). -/
def nbRelations (s : Stmt D) : Nat :=
  (if s.domain.isEmpty then 0 else 1) + (if s.scattering.isEmpty then 0 else 1) + RList.count s.access

/-- The extensions of a statement (source/statement.c:251-253): `osl_generic_print` (source/generic.c:189-197). -/
def printExts (L : Lib D) (e : GList D) : Out Str := if GList.number e > 0 then GList.sprint L.toEnv e else .ok []

/-- The line which begins a part of a statement (for instance source/statement.c:234-235). -/
def partLine (number : Nat) (title : Str) : Str :=
  "# ---------------------------------------------- ".toList ++ (pad2 number ++ (title ++ "\n".toList))

/-- The body of the loop of `osl_statement_pprint` (source/statement.c:210-265). -/
def printOne (c : Cfg) (L : Lib D) (names : Names) (number : Nat) (s : Stmt D) : Out Str := do
  let body ← lookupBody L s.extension
  let names := withBody names body
  let d ← Rel.spprint c s.domain (some names)
  let sc ← Rel.spprint c s.scattering (some names)
  let a ← RList.pprint_elts c s.access (some names)
  let e ← printExts L s.extension
  return "# =============================================== Statement ".toList ++ (showNat number ++ ("\n".toList ++
    ("# Number of relations describing the statement:\n".toList ++ (showNat (nbRelations s) ++ ("\n\n".toList ++
    (partLine number ".1 Domain".toList ++ (d ++ ("\n".toList ++
    (partLine number ".2 Scattering".toList ++ (sc ++ ("\n".toList ++
    (partLine number ".3 Access".toList ++ (a ++ ("\n".toList ++
    (partLine number ".4 Statement Extensions".toList ++ ("# Number of Statement Extensions\n".toList ++
    (showInt (GList.number s.extension) ++ ("\n".toList ++ (e ++ "\n".toList)))))))))))))))))))

/-- The loop of `osl_statement_pprint` (source/statement.c:210-265). -/
def printLoop (c : Cfg) (L : Lib D) (names : Names) : Nat → Stmts D → Out Str
  | _, [] => .ok []
  | number, s :: ss => do
    let t ← printOne c L names number s
    let r ← printLoop c L names (number + 1) ss
    return t ++ r

/-- The names chosen by `osl_statement_pprint` (source/statement.c:204-208). -/
def chooseNames (c : Cfg) (s : Stmts D) : Option Names → Out Names
  | some n => .ok ((Names.clone (some n)).getD n)
  | none => names c s

/-- `osl_statement_pprint` (source/statement.c:191-269). -/
def pprint (c : Cfg) (L : Lib D) (s : Stmts D) (input_names : Option Names) : Out Str := do
  let names ← chooseNames c s input_names
  printLoop c L names 1 s

/-- `osl_statement_print` (source/statement.c:366-368). -/
def print (c : Cfg) (L : Lib D) (s : Stmts D) : Out Str := pprint c L s none

/-- The loop reading the extensions (source/statement.c:451-454). -/
def readExts (E : Env D) (registry : Ifaces) : Nat → Str → GList D → Out (GList D × Str)
  | 0, file, acc => .ok (acc, file)
  | n + 1, file, acc => do
    let (new, file) ← GList.fread_one E registry file
    let acc ← GList.add acc new
    readExts E registry n file acc

/-- `osl_statement_pread` (source/statement.c:436-459). -/
def pread (c : Cfg) (L : Lib D) (registry : Ifaces) (precision : Int) (file : Str) : Out (Stmt D × Str) := do
  let (list, file) ← RList.pread c precision file
  let (d, sc, a) ← dispatch c list
  let (n, file) ← Util.fread_int file
  let (e, file) ← readExts L.toEnv registry n.toNat file []
  return ({ domain := d, scattering := sc, access := a, extension := e }, file)

end Stmts
end Osl
