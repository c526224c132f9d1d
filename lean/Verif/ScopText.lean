import Verif.Scop
import Verif.StatementText
/-!
# Model of the text functions of source/scop.c

`osl_scop_print`, `osl_scop_pread` and `osl_scop_read`.  Warnings are not part of the result.  The scoplib printer is
modelled in `Verif/Scoplib.lean`.
-/

namespace Osl

/-- The library seen from the scops: two more conversions of the data found under a URI, to the names of the parameters
and to the names of the arrays. -/
structure TextLib (D : Type) extends Lib D where
  strings : D → Option Strings
  arraysNames : D → Out (Option Strings)

/-- OSL_URI_STRINGS (include/osl/strings.h:73). -/
def URI_STRINGS : Str := "strings".toList

/-- OSL_URI_ARRAYS (include/osl/extensions/arrays.h:74). -/
def URI_ARRAYS : Str := "arrays".toList

/-- OSL_URI_SCOP (include/osl/scop.h.in:78). -/
def URI_SCOP : Str := "OpenScop".toList

namespace Scops

variable {D : Type}

/-- `osl_scop_names` (source/scop.c:186-198). -/
def names (c : Cfg) (s : Scops D) : Out Names := do
  let a ← get_attributes c s ⟨UNDEFINED, UNDEFINED, UNDEFINED, UNDEFINED, UNDEFINED⟩
  Names.generate ['P'] a.nb_parameters ['i'] a.nb_iterators ['c'] a.nb_scattdims ['l'] a.nb_localdims ['A'] a.array_id

/-- `osl_generic_has_URI` (source/generic.c:636-642) on a list, of which it looks at the head. -/
def hasURI (l : GList D) (URI : Str) : Bool :=
  match l with
  | [] => false
  | g :: _ => GList.has_URI g URI

/-- The conversion of the data of the parameters (source/scop.c:234). -/
def paramNames (L : TextLib D) : GList D → Out (Option Strings)
  | ⟨_, some d⟩ :: _ => match L.strings d with | some s => .ok (some s) | none => .ub
  | _ => .ok none

/-- The replacement of the names of the parameters (source/scop.c:231-235). -/
def withParams (L : TextLib D) (s : Scop D) (n : Names) : Out Names :=
  if hasURI s.parameters URI_STRINGS then do
    let p ← paramNames L s.parameters
    return { n with parameters := p }
  else .ok n

/-- The replacement of the names of the arrays (source/scop.c:238-243). -/
def withArrays (L : TextLib D) (s : Scop D) (n : Names) : Out Names :=
  match GList.lookup s.extension URI_ARRAYS with
  | none => .ok n
  | some d => do
    let a ← L.arraysNames d
    return { n with arrays := a }

/-- `osl_util_print_provided` (source/util.c:531-539). -/
def provided (b : Bool) (title : Str) : Str :=
  if b then "# ".toList ++ (title ++ " provided\n1\n".toList) else "# ".toList ++ (title ++ " not provided\n0\n\n".toList)

/-- `%s` of the language (source/scop.c:249); glibc writes `(null)` for a NULL string. -/
def languageText (s : Scop D) : Str := s.language.getD "(null)".toList

/-- The extensions (source/scop.c:266-271). -/
def printExtension (L : TextLib D) (e : GList D) : Out Str :=
  match e with
  | [] => .ok []
  | _ => do
    let t ← GList.sprint L.toEnv e
    return "# =============================================== Extensions\n".toList ++ t

/-- The body of the loop of `osl_scop_print` (source/scop.c:229-287). -/
def printOne (c : Cfg) (L : TextLib D) (n : Names) (s : Scop D) : Out Str := do
  let n ← withParams L s n
  let n ← withArrays L s n
  let ctx ← Rel.spprint c s.context (some n)
  let par ← GList.sprint L.toEnv s.parameters
  let st ← Stmts.pprint c L.toLib s.statement (some n)
  let ext ← printExtension L s.extension
  return "\n<OpenScop>\n".toList ++ ("\n# =============================================== Global\n# Language\n".toList ++
    (languageText s ++ ("\n\n".toList ++ ("# Context\n".toList ++ (ctx ++ ("\n".toList ++
    (provided (hasURI s.parameters URI_STRINGS) "Parameters are".toList ++ (par ++
    ("\n# Number of statements\n".toList ++ (showInt (Stmts.number s.statement) ++ ("\n\n".toList ++ (st ++ (ext ++
    "\n</OpenScop>\n\n".toList)))))))))))))

/-- The loop of `osl_scop_print` (source/scop.c:229-287). -/
def printLoop (c : Cfg) (L : TextLib D) (n : Names) : Scops D → Out Str
  | [] => .ok []
  | s :: ss => do
    let t ← printOne c L n s
    let r ← printLoop c L n ss
    return t ++ r

/-- `osl_scop_print` (source/scop.c:207-291): the text written; `release` is OSL_RELEASE. -/
def print (c : Cfg) (L : TextLib D) (release : Str) (s : Scops D) : Out Str :=
  match s with
  | [] => .ok "# NULL scop\n".toList
  | _ => do
    let _ ← integrity_check c L.toLib s
    let n ← names c s
    let t ← printLoop c L n s
    return "# [File generated by the OpenScop Library ".toList ++ (release ++ ("]\n".toList ++ t))

/-- The language (source/scop.c:442-453): the first word of the line. -/
def readLanguage (file : Str) : Out (Str × Str) := do
  let (l, file) ← Strings.read file
  match l with
  | none => .err
  | some l =>
    match l.words with
    | [] => .err
    | w :: _ => .ok (w, file)

/-- The parameters (source/scop.c:459-460). -/
def readParameters (E : Env D) (registry : Ifaces) (n : Int) (file : Str) : Out (GList D × Str) :=
  if n > 0 then GList.fread_one E registry file else .ok ([], file)

/-- The loop reading the statements (source/scop.c:469-477). -/
def readStmts (c : Cfg) (L : Lib D) (registry : Ifaces) (precision : Int) : Nat → Str → Out (Stmts D × Str)
  | 0, file => .ok ([], file)
  | n + 1, file => do
    let (s, file) ← Stmts.pread c L registry precision file
    let (ss, file) ← readStmts c L registry precision n file
    return (s :: ss, file)

/-- The reading of a scop after its start tag (source/scop.c:435-484). -/
def readOne (c : Cfg) (L : TextLib D) (registry : Ifaces) (precision : Int) (file : Str) : Out (Scop D × Str) := do
  let reg ← Ifaces.clone registry
  let (lang, file) ← readLanguage file
  let (ctx, file) ← Rel.pread c precision file
  let (np, file) ← Util.fread_int file
  let (par, file) ← readParameters L.toEnv reg np file
  let (ns, file) ← Util.fread_int file
  let (st, file) ← readStmts c L.toLib reg precision ns.toNat file
  let (ext, file) ← GList.read L.toEnv reg file
  return ({ (malloc : Scop D) with language := some lang, context := ctx, parameters := par, statement := st, registry := reg, extension := ext }, file)

/-- The loop of `osl_scop_pread` (source/scop.c:424-494).  Fuel: each turn reads at least the start tag. -/
def readLoop (c : Cfg) (L : TextLib D) (registry : Ifaces) (precision : Int) : Nat → Str → Out (Scops D)
  | 0, _ => .ub
  | n + 1, file => do
    let (tmp, file) ← Util.read_uptotag file URI_SCOP
    match tmp with
    | none => .ok []
    | some _ => do
      let (s, file) ← readOne c L registry precision file
      let ss ← readLoop c L registry precision n file
      return s :: ss

/-- `osl_scop_pread` (source/scop.c:410-501) on a non NULL file. -/
def pread (c : Cfg) (L : TextLib D) (registry : Ifaces) (precision : Int) (file : Str) : Out (Scops D) := do
  let l ← readLoop c L registry precision (file.length + 1) file
  let _ ← integrity_check c L.toLib l
  return l

/-- `osl_scop_read` (source/scop.c:511-518): `env` is the variable OSL_PRECISION, `registry` the default registry. -/
def read (c : Cfg) (L : TextLib D) (env : Option Str) (registry : Ifaces) (file : Str) : Out (Scops D) :=
  pread c L registry (Util.get_precision c env) file

end Scops
end Osl
