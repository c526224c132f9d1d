import Verif.ExtBase
import Verif.RelationText
/-!
# Model of the extension dependence (source/extensions/dependence.c)

Not modelled: the pointers of a dependence to statements and accesses, to `usr` (`osl_dependence_clone` copies the pointers to the
statements, no other function of this file but `osl_dependence_idump`, in Verif/Dump.lean, uses them).
-/

namespace Osl
namespace Ext

/-- `osl_dependence_t` without its pointers (include/osl/extensions/dependence.h:125-173); the `next` pointers make lists.
The eight dimensions are in the order of the structure. -/
structure Dep where
  label_source : Int
  label_target : Int
  ref_source : Int
  ref_target : Int
  depth : Int
  type : Int
  domain : Rel
  src_out_dom : Int
  src_out_acc : Int
  tgt_out_dom : Int
  tgt_out_acc : Int
  src_loc_dom : Int
  src_loc_acc : Int
  tgt_loc_dom : Int
  tgt_loc_acc : Int
deriving Repr, DecidableEq

namespace Dep

/-- The text of the type (source/extensions/dependence.c:267-289); the program exits for another type. -/
def typeText (t : Int) : Out Str :=
  if t = UNDEFINED then .ok "UNSET".toList
  else if t = 1 then .ok "RAW #(flow)".toList
  else if t = 2 then .ok "WAR #(anti)".toList
  else if t = 3 then .ok "WAW #(output)".toList
  else if t = 4 then .ok "RAR #(input)".toList
  else if t = 5 then .ok "RAW_SCALPRIV #(scalar priv)".toList
  else .err

/-- The dependence information (source/extensions/dependence.c:292-301): at most OSL_MAX_STRING - 1 characters. -/
def infoText (n : Nat) (ty : Str) (d : Dep) : Str :=
  Rel.truncated ("# Description of dependence ".toList ++ showNat n ++ "\n".toList ++ "# type\n".toList ++ ty ++ "\n".toList ++
    "# From source statement id\n".toList ++ showInt d.label_source ++ "\n".toList ++
    "# To target statement id\n".toList ++ showInt d.label_target ++ "\n".toList ++
    "# Depth \n".toList ++ showInt d.depth ++ "\n".toList ++
    "# From source access ref\n".toList ++ showInt d.ref_source ++ "\n".toList ++
    "# To target access ref\n".toList ++ showInt d.ref_target ++ "\n".toList)

/-- The eight dimensions on a line. -/
def dimsLine (d : Dep) : Str :=
  showInt d.src_out_dom ++ (" ".toList ++ (showInt d.src_out_acc ++ (" ".toList ++ (showInt d.tgt_out_dom ++ (" ".toList ++
  (showInt d.tgt_out_acc ++ (" ".toList ++ (showInt d.src_loc_dom ++ (" ".toList ++ (showInt d.src_loc_acc ++ (" ".toList ++
  (showInt d.tgt_loc_dom ++ (" ".toList ++ showInt d.tgt_loc_acc)))))))))))))

/-- The dimension information (source/extensions/dependence.c:305-318). -/
def dimsText (d : Dep) : Str :=
  Rel.truncated ("# Dimension information\n# 1 src-out-dom, 2 src-out-acc, 3 tgt-out-dom, 4 tgt-out-acc\n# 5 src-loc-dom, 6 src-loc-acc, 7 tgt-loc-dom, 8 tgt-loc-acc\n".toList ++
    dimsLine d ++ "\n# Dependence domain\n".toList)

/-- The loop of `osl_dependence_sprint` (source/extensions/dependence.c:266-325): the pieces which are concatenated. -/
def pieces (c : Cfg) : Nat → List Dep → Out (List Str)
  | _, [] => .ok []
  | n, d :: l => do
    let ty ← typeText d.type
    let dom ← Rel.sprint c d.domain
    let rest ← pieces c (n + 1) l
    return infoText n ty d :: dimsText d :: dom :: rest

/-- `osl_dependence_sprint` (source/extensions/dependence.c:248-329); a NULL list has a text. -/
def sprint (c : Cfg) (l : List Dep) : Out (Option Str) := do
  let ps ← pieces c 1 l
  let r ← Util.emit (("# Number of dependences\n".toList ++ showInt l.length ++ "\n".toList) :: ps)
  return some r

/-- The type of a word (source/extensions/dependence.c:342-351); the default value is OSL_UNDEFINED. -/
def typeOf (w : Str) : Int :=
  if w = "RAW".toList then 1
  else if w = "RAR".toList then 4
  else if w = "WAR".toList then 2
  else if w = "WAW".toList then 3
  else if w = "RAW_SCALPRIV".toList then 5
  else UNDEFINED

/-- The dimension information (source/extensions/dependence.c:370-395): the copied line must fit in `str`. -/
def readDims (s : Str) : Out (List Int × Str) :=
  let s := Util.sskip s
  let line := s.takeWhile (fun ch => ch != '\n')
  if line.length ≥ MAX_STRING then .ub
  else do
    let l ← scanInts 8 line
    if l.length ≠ 8 then .err else .ok (l, s.drop line.length)

/-- `osl_dependence_read_one_dep` (source/extensions/dependence.c:335-401). -/
def readOne (c : Cfg) (prec : Int) (s : Str) : Out (Dep × Option Str) := do
  let (w, s) ← Util.read_string s
  let (ls, s) ← Util.read_int s
  let (lt, s) ← Util.read_int s
  let (de, s) ← Util.read_int s
  let (rs, s) ← Util.read_int s
  let (rt, s) ← Util.read_int s
  let (ds, s) ← readDims s
  let (dom, pos) ← Rel.psread c prec s
  return ({ label_source := ls, label_target := lt, ref_source := rs, ref_target := rt, depth := de, type := typeOf w, domain := dom, src_out_dom := ds.getD 0 0, src_out_acc := ds.getD 1 0, tgt_out_dom := ds.getD 2 0, tgt_out_acc := ds.getD 3 0, src_loc_dom := ds.getD 4 0, src_loc_acc := ds.getD 5 0, tgt_loc_dom := ds.getD 6 0, tgt_loc_acc := ds.getD 7 0 }, pos)

/-- The loop of `osl_dependence_psread` (source/extensions/dependence.c:430-438). -/
def readLoop (c : Cfg) (prec : Int) : Nat → Option Str → Out (List Dep × Option Str)
  | 0, pos => .ok ([], pos)
  | _ + 1, none => .ub
  | n + 1, some s => do
    let (d, pos) ← readOne c prec s
    let (l, pos) ← readLoop c prec n pos
    return (d :: l, pos)

/-- `osl_dependence_psread` (source/extensions/dependence.c:416-441). -/
def psread (c : Cfg) (prec : Int) : Option Str → Out (List Dep × Option Str)
  | none => .ok ([], none)
  | some s => do
    let (n, s) ← Util.read_int s
    readLoop c prec n.toNat (some s)

/-- `osl_dependence_malloc` (source/extensions/dependence.c:454-484). -/
def malloc : Dep :=
  { label_source := UNDEFINED, label_target := UNDEFINED, ref_source := UNDEFINED, ref_target := UNDEFINED, depth := UNDEFINED, type := UNDEFINED, domain := [], src_out_dom := UNDEFINED, src_out_acc := UNDEFINED, tgt_out_dom := UNDEFINED, tgt_out_acc := UNDEFINED, src_loc_dom := UNDEFINED, src_loc_acc := UNDEFINED, tgt_loc_dom := UNDEFINED, tgt_loc_acc := UNDEFINED }

/-- The copy of one dependence (source/extensions/dependence.c:519-538). -/
def cloneOne (c : Cfg) (d : Dep) : Out Dep := do
  let dom ← Rel.clone c d.domain
  return { malloc with depth := d.depth, type := d.type, label_source := d.label_source, label_target := d.label_target, ref_source := d.ref_source, ref_target := d.ref_target, domain := dom, src_out_dom := d.src_out_dom, src_out_acc := d.src_out_acc, tgt_out_dom := d.tgt_out_dom, tgt_out_acc := d.tgt_out_acc, src_loc_dom := d.src_loc_dom, src_loc_acc := d.src_loc_acc, tgt_loc_dom := d.tgt_loc_dom, tgt_loc_acc := d.tgt_loc_acc }

/-- `osl_dependence_nclone` (source/extensions/dependence.c:513-554) with `n` equal to -1, `osl_dependence_clone`
(source/extensions/dependence.c:563-565). -/
def clone (c : Cfg) (l : List Dep) : Out (List Dep) := Out.mapOut (cloneOne c) l

/-- The comparison of the fields but the domain (source/extensions/dependence.c:592-614). -/
def equalInts (a b : Dep) : Bool :=
  if a.label_source ≠ b.label_source ∨ a.label_target ≠ b.label_target ∨ a.ref_source ≠ b.ref_source ∨ a.ref_target ≠ b.ref_target ∨
    a.depth ≠ b.depth ∨ a.type ≠ b.type ∨ a.src_out_dom ≠ b.src_out_dom ∨ a.src_out_acc ≠ b.src_out_acc ∨
    a.tgt_out_dom ≠ b.tgt_out_dom ∨ a.tgt_out_acc ≠ b.tgt_out_acc ∨ a.src_loc_dom ≠ b.src_loc_dom ∨ a.src_loc_acc ≠ b.src_loc_acc ∨
    a.tgt_loc_dom ≠ b.tgt_loc_dom ∨ a.tgt_loc_acc ≠ b.tgt_loc_acc then false else true

/-- The comparison of the heads of the lists (source/extensions/dependence.c:589-614). -/
def equalOne (c : Cfg) (a b : Dep) : Out Bool := do
  let e ← Rel.equal c a.domain b.domain
  if !e then return false else return equalInts a b

/-- The comparison of the tails (source/extensions/dependence.c:581-587) before that of the heads. -/
def andThen (x : Out Bool) (y : Out Bool) : Out Bool := do
  let b ← x
  if !b then return false else y

/-- `osl_dependence_equal` (source/extensions/dependence.c:576-615): a NULL list is dereferenced, unless both are NULL. -/
def equal (c : Cfg) : List Dep → List Dep → Out Bool
  | [], [] => .ok true
  | [], _ :: _ => .ub
  | _ :: _, [] => .ub
  | _ :: _ :: _, [_] => .ok false
  | [_], _ :: _ :: _ => .ok false
  | [a], [b] => equalOne c a b
  | a :: a' :: as, b :: b' :: bs => andThen (equal c (a' :: as) (b' :: bs)) (equalOne c a b)

/-- `osl_dependence_add` (source/extensions/dependence.c:626-640): the list `*start` and the index of `*now` in it.  The
nodes which followed `*now` are lost. -/
def add (start : List Dep) (now : Nat) (l : List Dep) : Out (List Dep × Nat) :=
  match l with
  | [] => .ok (start, now)
  | _ =>
    match start with
    | [] => .ok (l, l.length - 1)
    | _ => if now < start.length then .ok (start.take (now + 1) ++ l, now + l.length) else .ub

/-- `osl_nb_dependences` (source/extensions/dependence.c:649-657). -/
def nb : List Dep → Nat
  | [] => 0
  | _ :: l => nb l + 1

/-- The interface (source/extensions/dependence.c:665-678); `osl_dependence_sread` (source/extensions/dependence.c:407-410)
takes its precision from the environment. -/
def ops (c : Cfg) (env : Option Str) : Ops (NE Dep) where
  sprint := fun l => sprint c (NE.elems l)
  sread := fun s => psread c (Util.get_precision c env) s >>= fun p => .ok (NE.ofList p.1, p.2)
  clone := fun l => clone c (NE.elems l) >>= fun p => .ok (NE.ofList p)
  equal := fun a b => equal c (NE.elems a) (NE.elems b)

end Dep
end Ext
end Osl
