import Verif.HeapReadLib
import Verif.HeapScop
/-!
# The readers of relation lists, statements and scops in memory (source/relation_list.c, source/statement.c, source/scop.c)
-/

namespace Osl.Mem

variable [Allocator]

/-- One turn of the loop of `osl_relation_list_pread` (source/relation_list.c:344-347), with the number of the relations to be read; the next node is allocated by
`fillAll`. -/
def listReadFill (c : Cfg) (prec : Int) (p : Ptr) (s : Nat × Str) : M (Bool × Nat × Str) := do
  let r ← relPread c prec s.2
  setField p 0 r.1
  pure (decide (1 < s.1), s.1 - 1, r.2)

/-- The allocation of the first node and the loop of `osl_relation_list_pread` (source/relation_list.c:342-351). -/
def listReadElts (c : Cfg) (prec : Int) (n : Nat) (file : Str) : M (Ptr × Str) := do
  let p ← listMalloc
  if n = 0 then pure (p, file)
  else do
    let r ← fillAll listNext listMalloc (listReadFill c prec) n p (n, file)
    pure (p, r.2)

/-- `osl_relation_list_pread` (source/relation_list.c:330-352). -/
def listPread (c : Cfg) (prec : Int) (file : Str) : M (Ptr × Str) := do
  let n ← lift (Util.fread_int file)
  if n.1 < 0 then fail else listReadElts c prec n.1.toNat n.2

/-- The loop reading the extensions of a statement (source/statement.c:451-454). -/
def stmtReadExts (sread : Nat → Option Str → M Ptr) (registry stmt : Ptr) : Nat → Str → M Str
  | 0, file => pure file
  | n + 1, file => do
    let new ← genFreadOne sread registry file
    let e ← getField stmt 3
    let e' ← genAdd e new.1
    setField stmt 3 e'
    stmtReadExts sread registry stmt n new.2

/-- `osl_statement_pread` (source/statement.c:436-459), on a non NULL file. -/
def stmtPread (c : Cfg) (sread : Nat → Option Str → M Ptr) (registry : Ptr) (prec : Int) (file : Str) : M (Ptr × Str) := do
  let stmt ← stmtMalloc
  let list ← listPread c prec file
  stmtDispatch c stmt list.1
  let n ← lift (Util.fread_int list.2)
  let file ← stmtReadExts sread registry stmt n.1.toNat n.2
  pure (stmt, file)

/-- `osl_statement_read` (source/statement.c:469-476). -/
def stmtRead (c : Cfg) (e : Option Str) (sread : Nat → Option Str → M Ptr) (file : Str) : M (Ptr × Str) := do
  let registry ← ifaceDefault
  let r ← stmtPread c sread registry (Util.get_precision c e) file
  ifaceFree registry
  pure r

/-- The language of a scop (source/scop.c:442-453). -/
def scopReadLanguage (scop : Ptr) (file : Str) : M Str := do
  let language ← strRead file
  if language.1 = 0 then fail
  else do
    let n ← strSize language.1
    if n = 0 then fail
    else do
      let arr ← getField language.1 0
      let w ← getField arr 0
      let d ← hStrdup w
      setPtr scop 0 d
      strFree language.1
      pure language.2

/-- The parameters of a scop (source/scop.c:459-460). -/
def scopReadParameters (sread : Nat → Option Str → M Ptr) (scop : Ptr) (n : Int) (file : Str) : M Str :=
  if n > 0 then do
    let registry ← getPtr scop 4
    let g ← genFreadOne sread registry file
    setPtr scop 2 g.1
    pure g.2
  else pure file

/-- The link of a new statement (source/scop.c:472-475). -/
def scopLinkStmt (scop prev stmt : Ptr) : M Unit := do
  let s ← getPtr scop 3
  if s = 0 then setPtr scop 3 stmt else stmtNext.set prev stmt

/-- The loop reading the statements of a scop (source/scop.c:469-477): the position and the variable `prev`. -/
def scopReadStmts (c : Cfg) (sread : Nat → Option Str → M Ptr) (prec : Int) (scop : Ptr) : Nat → Ptr → Str → M (Ptr × Str)
  | 0, prev, file => pure (prev, file)
  | n + 1, prev, file => do
    let registry ← getPtr scop 4
    let stmt ← stmtPread c sread registry prec file
    scopLinkStmt scop prev stmt.1
    scopReadStmts c sread prec scop n stmt.1 stmt.2

/-- One scop, after its start tag (source/scop.c:435-484): its address, `prev` and the position. -/
def scopReadOne (c : Cfg) (sread : Nat → Option Str → M Ptr) (registry : Ptr) (prec : Int) (prev : Ptr) (file : Str) : M (Ptr × Ptr × Str) := do
  let scop ← scopMalloc
  let reg ← ifaceClone registry
  setPtr scop 4 reg
  let file ← scopReadLanguage scop file
  let ctx ← relPread c prec file
  setPtr scop 1 ctx.1
  let np ← lift (Util.fread_int ctx.2)
  let file ← scopReadParameters sread scop np.1 np.2
  let ns ← lift (Util.fread_int file)
  let st ← scopReadStmts c sread prec scop ns.1.toNat prev ns.2
  let reg ← getPtr scop 4
  let ext ← genRead sread reg st.2
  setPtr scop 5 ext.1
  pure (scop, st.1, ext.2)

/-- The link of a new scop (source/scop.c:487-492): the new value of `list`. -/
def scopLink (first : Bool) (list current scop : Ptr) : M Ptr :=
  if first then pure scop
  else do
    scopNext.set current scop
    pure list

/-- The start tag (source/scop.c:428-434): whether there is one, and the position after it. -/
def scopReadTag (file : Str) : M (Bool × Str) := do
  let tmp ← hReadUptoflag file (Util.startTag URI_SCOP)
  if tmp.1 = 0 then pure (false, tmp.2)
  else do
    free tmp.1
    pure (true, tmp.2)

/-- The loop of `osl_scop_pread` (source/scop.c:424-494): the list, its last scop, the flag `first`, and `prev`.  Each turn moves the position. -/
def scopReadLoop (c : Cfg) (sread : Nat → Option Str → M Ptr) (registry : Ptr) (prec : Int) : Nat → Bool → Ptr → Ptr → Ptr → Str → M Ptr
  | 0, _, _, _, _, _ => undef
  | n + 1, first, list, current, prev, file => do
    let tag ← scopReadTag file
    if tag.1 then do
      let scop ← scopReadOne c sread registry prec prev tag.2
      let list ← scopLink first list current scop.1
      scopReadLoop c sread registry prec n false list scop.1 scop.2.1 scop.2.2
    else pure list

/-- `osl_scop_pread` (source/scop.c:410-501) on a non NULL file.  The integrity check at its end (source/scop.c:496-497), which only reads the scops and writes warnings, is
not in the model. -/
def scopPread (c : Cfg) (sread : Nat → Option Str → M Ptr) (registry : Ptr) (prec : Int) (file : Str) : M Ptr :=
  scopReadLoop c sread registry prec (file.length + 1) true 0 0 0 file

/-- `osl_scop_read` (source/scop.c:511-518). -/
def scopRead (c : Cfg) (e : Option Str) (sread : Nat → Option Str → M Ptr) (file : Str) : M Ptr := do
  let registry ← ifaceDefault
  let scop ← scopPread c sread registry (Util.get_precision c e) file
  ifaceFree registry
  pure scop

end Osl.Mem
