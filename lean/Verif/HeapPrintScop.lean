import Verif.HeapPrintList
import Verif.HeapPrintExt
import Verif.HeapQuery
import Verif.ScopText
import Verif.ExtArrays
/-!
# Printing statements and scops in memory (source/statement.c, source/scop.c, source/extensions/arrays.c)

The names which are written in comments are an `osl_names_t` some fields of which are, during the printing, pointers into the statement or the scop: the iterators of
the body, the data of the parameters.  They are put back before the names are freed.

Simplifications: printing to a file gives the text which is written; warnings are not a part of the result; numbers of statements are natural numbers.
-/

namespace Osl.Mem

/-! ## Names -/

/-- `backup = names->x; names->x = value` (for instance source/statement.c:215-216), `x` being the field number `k`: the old value. -/
def namesSwap (names : Ptr) (k : Nat) (value : Ptr) : M Ptr := do
  let backup ← getField names k
  setField names k value
  pure backup

/-- `osl_statement_names` (source/statement.c:169-181). -/
def stmtNames [Allocator] (c : Cfg) (p : Ptr) : M Ptr := do
  let a ← stmtAttributes c p ⟨UNDEFINED, UNDEFINED, UNDEFINED, UNDEFINED, UNDEFINED⟩
  namesGenerate ['P'] a.nb_parameters ['i'] a.nb_iterators ['c'] a.nb_scattdims ['l'] a.nb_localdims ['A'] a.array_id

/-- `osl_scop_names` (source/scop.c:186-198). -/
def scopNames [Allocator] (c : Cfg) (p : Ptr) : M Ptr := do
  let a ← scopAttributes c p ⟨UNDEFINED, UNDEFINED, UNDEFINED, UNDEFINED, UNDEFINED⟩
  namesGenerate ['P'] a.nb_parameters ['i'] a.nb_iterators ['c'] a.nb_scattdims ['l'] a.nb_localdims ['A'] a.array_id

/-! ## Statements -/

/-- The iterators of a body, or NULL (source/statement.c:213). -/
def bodyIterators (body : Ptr) : M Ptr := if body ≠ 0 then getField body 0 else pure 0

/-- The iterators of the names are replaced (source/statement.c:212-217): the old ones. -/
def stmtUseIterators (names iterators : Ptr) : M Ptr := if iterators ≠ 0 then namesSwap names 1 iterators else pure 0

/-- The iterators of the names are put back (source/statement.c:258-261). -/
def stmtRestore (names iterators backup : Ptr) : M Unit := if iterators ≠ 0 then setField names 1 backup else pure ()

/-- What is written about the relations of a statement (source/statement.c:221-247). -/
def stmtRelsText (number n : Nat) (d s a : Str) : Str :=
  "# =============================================== Statement ".toList ++ (showNat number ++ ("\n".toList ++
    ("# Number of relations describing the statement:\n".toList ++ (showNat n ++ ("\n\n".toList ++
    (Stmts.partLine number ".1 Domain".toList ++ (d ++ ("\n".toList ++
    (Stmts.partLine number ".2 Scattering".toList ++ (s ++ ("\n".toList ++
    (Stmts.partLine number ".3 Access".toList ++ (a ++ "\n".toList)))))))))))))

/-- What is written about the extensions of a statement (source/statement.c:249-255). -/
def stmtExtsText (number n : Nat) (e : Str) : Str :=
  Stmts.partLine number ".4 Statement Extensions".toList ++ ("# Number of Statement Extensions\n".toList ++ (showNat n ++ ("\n".toList ++ (e ++ "\n".toList))))

/-- 1 for a relation, 0 for NULL (source/statement.c:226-229). -/
def oneRel (p : Ptr) : Nat := if p = 0 then 0 else 1

/-- The relations of a statement (source/statement.c:219-247): the text. -/
def stmtPrintRels [Allocator] (c : Cfg) (names p : Ptr) (number : Nat) : M Str := do
  let d ← getField p 0
  let s ← getField p 1
  let a ← getField p 2
  let n ← listCount a
  let td ← relPprint c d names
  let ts ← relPprint c s names
  let ta ← listPprintElts c a names
  pure (stmtRelsText number (oneRel d + oneRel s + n) td ts ta)

/-- `if (nb_ext > 0) osl_generic_print(file, statement->extension)` (source/statement.c:252-253). -/
def stmtGenPrint [Allocator] (sp : Nat → Ptr → M Ptr) (extension : Ptr) (n : Nat) : M Str := if n > 0 then genPrint sp extension else pure []

/-- The extensions of a statement (source/statement.c:249-255): the text; `sp` are the functions `sprint` of the interfaces. -/
def stmtPrintExts [Allocator] (sp : Nat → Ptr → M Ptr) (extension : Ptr) (number : Nat) : M Str := do
  let n ← genCount extension
  let t ← stmtGenPrint sp extension n
  pure (stmtExtsText number n t)

/-- The body of the loop of `osl_statement_pprint` (source/statement.c:210-265); the state is the number and the text. -/
def stmtPrintOne [Allocator] (c : Cfg) (sp : Nat → Ptr → M Ptr) (names p : Ptr) (s : Nat × Str) : M (Nat × Str) := do
  let extension ← getField p 3
  let body ← genFind URI_BODY extension
  let iterators ← bodyIterators body
  let backup ← stmtUseIterators names iterators
  let t ← stmtPrintRels c names p s.1
  let te ← stmtPrintExts sp extension s.1
  stmtRestore names iterators backup
  pure (s.1 + 1, s.2 ++ (t ++ te))

/-- The names chosen by `osl_statement_pprint` (source/statement.c:204-208). -/
def stmtChooseNames [Allocator] (c : Cfg) (p input_names : Ptr) : M Ptr := if input_names = 0 then stmtNames c p else namesClone input_names

/-- `osl_statement_pprint` (source/statement.c:191-269). -/
def stmtPprint [Allocator] (c : Cfg) (sp : Nat → Ptr → M Ptr) (p input_names : Ptr) : M Str := do
  let names ← stmtChooseNames c p input_names
  let s ← walk stmtNext (stmtPrintOne c sp names) p (1, [])
  namesFree names
  pure s.2

/-- `osl_statement_print` (source/statement.c:366-368). -/
def stmtPrint [Allocator] (c : Cfg) (sp : Nat → Ptr → M Ptr) (p : Ptr) : M Str := stmtPprint c sp p 0

/-! ## Array names -/

/-- The loop of `osl_arrays_to_strings` computing the maximum (source/extensions/arrays.c:358-360). -/
def arrMaxLoop (id : Ptr) : Nat → Nat → Int → M Int
  | 0, _, m => pure m
  | n + 1, i, m => do
    let v ← getInt id i
    arrMaxLoop id n (i + 1) (if v > m then v else m)

/-- The maximum array identifier (source/extensions/arrays.c:356-361). -/
def arrMaxId (id : Ptr) (n : Int) : M Int :=
  if n ≥ 1 then do
    let m ← getInt id 0
    arrMaxLoop id (n.toNat - 1) 1 m
  else pure 0

/-- `strdup(names[i])` (source/extensions/arrays.c:367). -/
def dupField [Allocator] (names : Ptr) (i : Nat) : M Ptr := do
  let w ← getField names i
  hStrdup w

/-- One turn of the loop storing the names (source/extensions/arrays.c:366-367): the index must not be negative. -/
def arrStore [Allocator] (strings id names : Ptr) (i : Nat) : M Unit := do
  let v ← getInt id i
  let _ ← lift (if v < 1 then .ub else .ok ())
  let a ← getField strings 0
  let old ← getField a (v - 1).toNat
  free old
  let s ← dupField names i
  setField a (v - 1).toNat s

/-- The loop storing the names (source/extensions/arrays.c:365-368). -/
def arrStoreLoop [Allocator] (strings id names : Ptr) : Nat → Nat → M Unit
  | 0, _ => pure ()
  | n + 1, i => do
    arrStore strings id names i
    arrStoreLoop strings id names n (i + 1)

/-- `osl_arrays_to_strings` (source/extensions/arrays.c:348-371). -/
def arrToStrings [Allocator] (p : Ptr) : M Ptr :=
  if p = 0 then pure 0
  else do
    let n ← getInt p 0
    let id ← getPtr p 0
    let max_id ← arrMaxId id n
    let strings ← strGenerate "Dummy".toList max_id
    let names ← getPtr p 1
    arrStoreLoop strings id names n.toNat 0
    pure strings

/-! ## Scops -/

/-- `osl_generic_has_URI` (source/generic.c:636-642) on a list, for a constant URI. -/
def genListIs (t : Str) (p : Ptr) : M Bool := if p = 0 then pure false else genIs t p

/-- The names of the parameters are replaced (source/scop.c:231-235): the old ones. -/
def scopUseParams (names parameters : Ptr) (b : Bool) : M Ptr :=
  if b then do
    let d ← getField parameters 1
    namesSwap names 0 d
  else pure 0

/-- The names of the arrays are replaced (source/scop.c:238-243): the old ones. -/
def scopUseArrays [Allocator] (names arrays : Ptr) : M Ptr :=
  if arrays ≠ 0 then do
    let s ← arrToStrings arrays
    namesSwap names 4 s
  else pure 0

/-- The names of the parameters are put back (source/scop.c:274-277). -/
def scopRestoreParams (names : Ptr) (b : Bool) (backup : Ptr) : M Unit := if b then setField names 0 backup else pure ()

/-- The names of the arrays are freed and put back (source/scop.c:280-284). -/
def scopRestoreArrays (names arrays backup : Ptr) : M Unit :=
  if arrays ≠ 0 then do
    let x ← getField names 4
    strFree x
    setField names 4 backup
  else pure ()

/-- `%s` of the language (source/scop.c:249); glibc writes `(null)` for a NULL string. -/
def languageTextAt (language : Ptr) : M Str := if language = 0 then pure "(null)".toList else loadChars language

/-- What is written about the extensions of a scop (source/scop.c:267-270). -/
def scopExtsText (t : Str) : Str := "# =============================================== Extensions\n".toList ++ t

/-- The extensions (source/scop.c:266-271). -/
def scopPrintExts [Allocator] (sp : Nat → Ptr → M Ptr) (extension : Ptr) : M Str :=
  if extension ≠ 0 then do
    let t ← genPrint sp extension
    pure (scopExtsText t)
  else pure []

/-- What is written for one scop (source/scop.c:245-272): the language, the context, whether the parameters are provided, the parameters, the number of statements,
the statements, the extensions. -/
def scopText (tl ctx : Str) (b : Bool) (par : Str) (n : Nat) (ts te : Str) : Str :=
  "\n<OpenScop>\n".toList ++ ("\n# =============================================== Global\n# Language\n".toList ++
    (tl ++ ("\n\n".toList ++ ("# Context\n".toList ++ (ctx ++ ("\n".toList ++
    (Scops.provided b "Parameters are".toList ++ (par ++
    ("\n# Number of statements\n".toList ++ (showNat n ++ ("\n\n".toList ++ (ts ++ (te ++
    "\n</OpenScop>\n\n".toList)))))))))))))

/-- What is written for one scop (source/scop.c:245-272), the names being known. -/
def scopPrintText [Allocator] (c : Cfg) (sp : Nat → Ptr → M Ptr) (names p : Ptr) : M Str := do
  let l ← getPtr p 0
  let tl ← languageTextAt l
  let x ← getPtr p 1
  let ctx ← relPprint c x names
  let g ← getPtr p 2
  let b ← genListIs URI_STRINGS g
  let par ← genPrint sp g
  let st ← getPtr p 3
  let n ← stmtNumber st
  let ts ← stmtPprint c sp st names
  let e ← getPtr p 5
  let te ← scopPrintExts sp e
  pure (scopText tl ctx b par n ts te)

/-- The body of the loop of `osl_scop_print` (source/scop.c:229-287). -/
def scopPrintOne [Allocator] (c : Cfg) (sp : Nat → Ptr → M Ptr) (names p : Ptr) (text : Str) : M Str := do
  let g ← getPtr p 2
  let b ← genListIs URI_STRINGS g
  let params ← scopUseParams names g b
  let e ← getPtr p 5
  let arrays ← genFind URI_ARRAYS e
  let old ← scopUseArrays names arrays
  let t ← scopPrintText c sp names p
  scopRestoreParams names b params
  scopRestoreArrays names arrays old
  pure (text ++ t)

/-- What is written before the scops (source/scop.c:219-220). -/
def scopFileText (release t : Str) : Str := "# [File generated by the OpenScop Library ".toList ++ (release ++ ("]\n".toList ++ t))

/-- `osl_scop_print` (source/scop.c:207-291): the text written; `release` is OSL_RELEASE. -/
def scopPrint [Allocator] (c : Cfg) (sp : Nat → Ptr → M Ptr) (release : Str) (p : Ptr) : M Str :=
  if p = 0 then pure "# NULL scop\n".toList
  else do
    let _ ← scopIntegrity c p
    let names ← scopNames c p
    let t ← walk scopNext (scopPrintOne c sp names) p []
    namesFree names
    pure (scopFileText release t)

end Osl.Mem
