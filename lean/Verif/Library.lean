import Verif.ScopText
import Verif.ExtSimple
import Verif.ExtText
import Verif.ExtMisc
import Verif.ExtArrays
import Verif.ExtDep
import Verif.ExtLoop
import Verif.ExtSymbols
import Verif.InterfaceProps
/-!
# The library with its default registry

The data of a generic is a `void*`; here it is a value of `Data`, one constructor for each of the 18 interfaces of
`osl_interface_get_default_registry` (source/interface.c:366-393).  Calling a function of an interface on data of another kind is
undefined.  The symbols hold generics, hence data, whose type is the parameter `S`: `Data` is used at each depth of nesting
(`DataAt`), a text with deeper symbols than the depth being undefined in the model.
-/

namespace Osl

/-- The data of the known extensions; the linked structures are never NULL here. -/
inductive Data (S : Type) where
  | strings (x : Strings)
  | body (x : Body)
  | relation (x : Ext.NE Part)
  | textual (x : Ext.Textual)
  | comment (x : Ext.Comment)
  | null (x : Ext.Null)
  | scatinfos (x : Ext.Scatinfos)
  | scatnames (x : Ext.Scatnames)
  | arrays (x : Ext.Arrays)
  | coordinates (x : Ext.Coordinates)
  | clay (x : Ext.Clay)
  | dependence (x : Ext.NE Ext.Dep)
  | symbols (x : S)
  | extbody (x : Ext.Extbody)
  | loop (x : Ext.NE Ext.Loop)
  | unroll (x : Ext.NE Ext.Unroll)
  | region (x : Ext.NE Ext.Region)
  | annotation (x : Ext.Annotation)
deriving Repr, DecidableEq

namespace Data

variable {S : Type}

open Ext (Ops NE)

/-- A kind of data among the others: how it is put in a `void*`, and taken from it. -/
structure Kind (S X : Type) where
  inj : X → Data S
  proj : Data S → Option X
  proj_inj : ∀ x, proj (inj x) = some x

/-- The functions of an extension seen from `void*`. -/
def lift {X : Type} (k : Kind S X) (o : Ops X) : Ops (Data S) where
  sprint := fun d => match d with
    | none => o.sprint none
    | some d => match k.proj d with | some x => o.sprint (some x) | none => .ub
  sread := fun s => o.sread s >>= fun p => .ok (p.1.map k.inj, p.2)
  clone := fun d => match d with
    | none => o.clone none >>= fun p => .ok (p.map k.inj)
    | some d => match k.proj d with | some x => o.clone (some x) >>= fun p => .ok (p.map k.inj) | none => .ub
  equal := fun a b => match a, b with
    | none, none => o.equal none none
    | some a, none => match k.proj a with | some x => o.equal (some x) none | none => .ub
    | none, some b => match k.proj b with | some y => o.equal none (some y) | none => .ub
    | some a, some b => match k.proj a, k.proj b with | some x, some y => o.equal (some x) (some y) | _, _ => .ub

/-- The kinds. -/
def kStrings : Kind S Strings := ⟨.strings, fun d => match d with | .strings x => some x | _ => none, fun _ => rfl⟩
def kBody : Kind S Body := ⟨.body, fun d => match d with | .body x => some x | _ => none, fun _ => rfl⟩
def kRelation : Kind S (NE Part) := ⟨.relation, fun d => match d with | .relation x => some x | _ => none, fun _ => rfl⟩
def kTextual : Kind S Ext.Textual := ⟨.textual, fun d => match d with | .textual x => some x | _ => none, fun _ => rfl⟩
def kComment : Kind S Ext.Comment := ⟨.comment, fun d => match d with | .comment x => some x | _ => none, fun _ => rfl⟩
def kNull : Kind S Ext.Null := ⟨.null, fun d => match d with | .null x => some x | _ => none, fun _ => rfl⟩
def kScatinfos : Kind S Ext.Scatinfos := ⟨.scatinfos, fun d => match d with | .scatinfos x => some x | _ => none, fun _ => rfl⟩
def kScatnames : Kind S Ext.Scatnames := ⟨.scatnames, fun d => match d with | .scatnames x => some x | _ => none, fun _ => rfl⟩
def kArrays : Kind S Ext.Arrays := ⟨.arrays, fun d => match d with | .arrays x => some x | _ => none, fun _ => rfl⟩
def kCoordinates : Kind S Ext.Coordinates := ⟨.coordinates, fun d => match d with | .coordinates x => some x | _ => none, fun _ => rfl⟩
def kClay : Kind S Ext.Clay := ⟨.clay, fun d => match d with | .clay x => some x | _ => none, fun _ => rfl⟩
def kDependence : Kind S (NE Ext.Dep) := ⟨.dependence, fun d => match d with | .dependence x => some x | _ => none, fun _ => rfl⟩
def kSymbols : Kind S S := ⟨.symbols, fun d => match d with | .symbols x => some x | _ => none, fun _ => rfl⟩
def kExtbody : Kind S Ext.Extbody := ⟨.extbody, fun d => match d with | .extbody x => some x | _ => none, fun _ => rfl⟩
def kLoop : Kind S (NE Ext.Loop) := ⟨.loop, fun d => match d with | .loop x => some x | _ => none, fun _ => rfl⟩
def kUnroll : Kind S (NE Ext.Unroll) := ⟨.unroll, fun d => match d with | .unroll x => some x | _ => none, fun _ => rfl⟩
def kRegion : Kind S (NE Ext.Region) := ⟨.region, fun d => match d with | .region x => some x | _ => none, fun _ => rfl⟩
def kAnnotation : Kind S Ext.Annotation := ⟨.annotation, fun d => match d with | .annotation x => some x | _ => none, fun _ => rfl⟩

/-- The strings as an extension (source/strings.c:433-446); a NULL string is dereferenced by the reader
(source/strings.c:194). -/
def stringsOps : Ops Strings where
  sprint := fun x => Strings.sprint x >>= fun t => .ok (some t)
  sread := fun s => match s with | none => .ub | some s => Strings.sread s
  clone := fun x => .ok (Strings.clone x)
  equal := fun a b => .ok (Strings.equal a b)

/-- The body as an extension (source/body.c:363-376); a NULL string is dereferenced by the reader (source/body.c:248). -/
def bodyOps : Ops Body where
  sprint := fun x => Body.sprint x >>= fun t => .ok (some t)
  sread := fun s => match s with | none => .ub | some s => Body.sread s >>= fun p => .ok (p.1, some p.2)
  clone := fun x => .ok (Body.clone x)
  equal := fun a b => .ok (Body.equal a b)

/-- The relation as an extension (source/relation.c:2885-2898); `env` is the variable OSL_PRECISION. -/
def relationOps (c : Cfg) (env : Option Str) : Ops (NE Part) where
  sprint := fun x => Rel.sprint c (NE.elems x) >>= fun t => .ok (some t)
  sread := fun s => match s with | none => .ub | some s => Rel.psread c (Util.get_precision c env) s >>= fun p => .ok (NE.ofList p.1, p.2)
  clone := fun x => Rel.clone c (NE.elems x) >>= fun r => .ok (NE.ofList r)
  equal := fun a b => Rel.equal c (NE.elems a) (NE.elems b)

/-- The functions of the interfaces, in the order of `osl_interface_get_default_registry` (source/interface.c:366-393). -/
def table (c : Cfg) (env : Option Str) (sym : Ops S) : List (Ops (Data S)) :=
  [lift kStrings stringsOps, lift kBody bodyOps, lift kRelation (relationOps c env), lift kTextual Ext.Textual.ops,
    lift kComment Ext.Comment.ops, lift kNull Ext.Null.ops, lift kScatinfos Ext.Scatinfos.ops, lift kScatnames Ext.Scatnames.ops,
    lift kArrays Ext.Arrays.ops, lift kCoordinates Ext.Coordinates.ops, lift kClay Ext.Clay.ops, lift kDependence (Ext.Dep.ops c env),
    lift kSymbols sym, lift kExtbody Ext.Extbody.ops, lift kLoop Ext.Loop.ops, lift kUnroll Ext.Unroll.ops,
    lift kRegion Ext.Region.ops, lift kAnnotation Ext.Annotation.ops]

/-- The functions of the interfaces (source/interface.c:366-393) as an environment: the function pointers of the `k`th interface are numbered `k` (`Ifaces.fnsOf`). -/
def env (c : Cfg) (e : Option Str) (sym : Ops S) : Env (Data S) where
  sprint := fun k d => match (table c e sym)[k]? with | some o => o.sprint d | none => .ub
  sread := fun k s => match (table c e sym)[k]? with | some o => o.sread s >>= fun p => .ok p.1 | none => .ub
  clone := fun k d => match (table c e sym)[k]? with | some o => o.clone d | none => .ub
  equal := fun k a b => match (table c e sym)[k]? with | some o => o.equal a b | none => .ub

/-- The library: the casts made by the statements (source/statement.c:200-210) and by the scops (source/scop.c:231-243). -/
def lib (c : Cfg) (e : Option Str) (sym : Ops S) : TextLib (Data S) :=
  { env c e sym with
    body := kBody.proj
    extbody := fun d => (kExtbody.proj d).map fun x => x.body
    strings := kStrings.proj
    arraysNames := fun d => match kArrays.proj d with | some a => Ext.Arrays.to_strings (some a) | none => .ub }

end Data

/-- The default registry: the interfaces of `osl_interface_get_default_registry` (source/interface.c:366-393), see
`Ifaces.default_registry_correct`. -/
def defaultRegistry : Ifaces := Ifaces.numbered 0 Ifaces.defaultURIs

/-- The data with symbols nested at most `n` times. -/
def DataAt : Nat → Type
  | 0 => Data Empty
  | n + 1 => Data (Ext.NE (Ext.Symbol (DataAt n)))

/-- No symbols. -/
def noSymbols : Ext.Ops Empty where
  sprint := fun _ => .ub
  sread := fun _ => .ub
  clone := fun _ => .ub
  equal := fun _ _ => .ub

/-- The functions of the interfaces of the default registry (source/interface.c:366-393) on data with symbols nested at most `n`
times. -/
def envAt (c : Cfg) (e : Option Str) : (n : Nat) → Env (DataAt n)
  | 0 => Data.env c e noSymbols
  | n + 1 => Data.env c e (Ext.Symbol.ops (envAt c e n) defaultRegistry)

/-- The library on data with symbols nested at most `n` times (source/interface.c:366-393). -/
def libAt (c : Cfg) (e : Option Str) : (n : Nat) → TextLib (DataAt n)
  | 0 => Data.lib c e noSymbols
  | n + 1 => Data.lib c e (Ext.Symbol.ops (envAt c e n) defaultRegistry)

end Osl
