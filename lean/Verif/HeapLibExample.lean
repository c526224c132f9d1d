import Verif.HeapLib
import Verif.HeapScopExample
import Verif.LibraryExample
/-!
# The data of the whole library in memory: they can be, concrete runs and misuses (C56)
-/

set_option linter.unusedSectionVars false

namespace Osl.Mem

open Osl.Ext

/-! ## Any data can be in memory -/

section

variable [Allocator]

/-- Some program makes it, starting from nothing. -/
def Makes (A : Ptr → Assn) : Prop := ∃ m : M Ptr, Triple emp m A

/-- The same, for a structure with a `next` pointer. -/
def MakesNode (A : Ptr → Ptr → Assn) : Prop := ∃ m : Ptr → M Ptr, ∀ n, Triple emp (m n) (fun p => A p n)

theorem makes_null : Makes (fun p => pur (p = 0)) := ⟨pure 0, by hret⟩

theorem makes_uri (o : Option Str) : Makes (fun p => uriAt p o) := by
  cases o with
  | none => exact makes_null
  | some w => exact ⟨alloc (.chars w), Triple.alloc _⟩

theorem makes_ints (l : List Int) : Makes (fun p => intsAt p l) := by
  refine ⟨alloc (.node l []), ?_⟩
  refine (Triple.alloc _).post (fun p h hh => ?_)
  rw [intsAt_ne (pto_ne h hh)]
  exact hh

theorem makes_strs (ws : List Str) : Makes (fun p => strsAt p ws) := by
  refine ⟨do let ps ← buildWords ws; alloc (.ptrs ps), ?_⟩
  hstep (buildWords_spec (ws := ws))
  refine Triple.last (P := emp) (Triple.alloc _) (by rw [emp_sep]) (fun p h hh => ?_)
  exact strs_intro h hh

theorem makes_opt {D : Type} {A : Ptr → D → Assn} {o : Option D} (h : ∀ d ∈ o, Makes (fun p => A p d)) : Makes (fun p => optAt A p o) := by
  cases o with
  | none => exact makes_null
  | some d => exact h d rfl

theorem makes_string (o : Option (List Str)) : Makes (fun p => stringAt p o) := by
  cases o with
  | none => exact makes_null
  | some ws =>
    refine ⟨do let ps ← buildWords ws; alloc (.ptrs (ps ++ [0])), ?_⟩
    show Triple _ _ (fun p => ex fun ps => _)
    hstep (buildWords_spec (ws := ws))
    hlast Triple.alloc
    hret

theorem makes_strings (o : Option Strings) : Makes (fun p => stringsAt p o) := by
  cases o with
  | none => exact makes_null
  | some s =>
    obtain ⟨m, hm⟩ := makes_string s.string
    refine ⟨do let x ← m; alloc (.ptrs [x]), ?_⟩
    show Triple _ _ (fun p => ex fun a => _)
    hstep hm
    hlast Triple.alloc
    hret

theorem makes_chain {X : Type} {N : Chain X} : ∀ {l : List X}, (∀ x ∈ l, MakesNode (fun p n => N.at_ p x n)) → Makes (fun p => N.list p l)
  | [], _ => makes_null
  | x :: l, h => by
    obtain ⟨m, hm⟩ := makes_chain (N := N) (l := l) (fun y hy => h y (by simp [hy]))
    obtain ⟨k, hk⟩ := h x (by simp)
    refine ⟨do let n ← m; k n, ?_⟩
    show Triple _ _ (fun p => ex fun n => N.at_ p x n ∗ N.list n l)
    hstep hm
    hlast (hk n)
    hret

theorem makes_rel {c : Cfg} {r : Rel} (h : RelFine c r) : Makes (fun p => relAt c p r) := ⟨_, buildRel_spec h⟩

theorem makes_body (b : Body) : Makes (fun p => bodyAt p b) := by
  obtain ⟨m, hm⟩ := makes_strings b.iterators
  obtain ⟨k, hk⟩ := makes_strings b.expression
  refine ⟨do let x ← m; let y ← k; alloc (.ptrs [x, y]), ?_⟩
  show Triple _ _ (fun p => ex fun a => ex fun b => _)
  hstep hm
  hstep hk
  hlast Triple.alloc
  hret

theorem makes_stringField (o : Option Str) : Makes (fun p => stringFieldAt p o) := by
  obtain ⟨m, hm⟩ := makes_uri o
  refine ⟨do let x ← m; alloc (.ptrs [x]), ?_⟩
  show Triple _ _ (fun p => ex fun a => _)
  hstep hm
  hlast Triple.alloc
  hret

theorem makes_scatinfos {x : Scatinfos} (h : x.Sized) : Makes (fun p => scatinfosAt p x) := by
  obtain ⟨m, hm⟩ := makes_ints x.parallel
  obtain ⟨k, hk⟩ := makes_ints x.permutable
  obtain ⟨i, hi⟩ := makes_ints x.type
  refine ⟨do let a ← m; let b ← k; let t ← i; alloc (.node [(x.parallel.length : Int)] [a, b, t]), ?_⟩
  unfold scatinfosAt
  rw [pur_true h]
  hstep hm
  hstep hk
  hstep hi
  hlast Triple.alloc
  hret

theorem makes_scatnames (x : Scatnames) : Makes (fun p => scatnamesAt p x) := by
  obtain ⟨m, hm⟩ := makes_strings x.names
  refine ⟨do let x ← m; alloc (.ptrs [x]), ?_⟩
  unfold scatnamesAt
  hstep hm
  hlast Triple.alloc
  hret

theorem makes_arrays (x : Arrays) : Makes (fun p => arraysAt p x) := by
  obtain ⟨m, hm⟩ := makes_ints (x.pairs.map (·.1))
  obtain ⟨k, hk⟩ := makes_strs (x.pairs.map (·.2))
  refine ⟨do let d ← m; let w ← k; alloc (.node [(x.pairs.length : Int)] [d, w]), ?_⟩
  unfold arraysAt
  hstep hm
  hstep hk
  hlast Triple.alloc
  hret

theorem makes_coord (x : Coordinates) : Makes (fun p => coordAt p x) := by
  obtain ⟨m, hm⟩ := makes_uri x.name
  refine ⟨do let w ← m; alloc (.node [x.line_start, x.line_end, x.column_start, x.column_end, x.indent] [w]), ?_⟩
  unfold coordAt
  hstep hm
  hlast Triple.alloc
  hret

theorem makes_extbody (x : Extbody) : Makes (fun p => extbodyAt p x) := by
  obtain ⟨m, hm⟩ := makes_ints (x.access.map (·.1))
  obtain ⟨k, hk⟩ := makes_ints (x.access.map (·.2))
  obtain ⟨i, hi⟩ := makes_opt (A := bodyAt) (o := x.body) (fun d _ => makes_body d)
  refine ⟨do let u ← m; let v ← k; let w ← i; alloc (.node [(x.access.length : Int)] [u, v, w]), ?_⟩
  unfold extbodyAt
  hstep hm
  hstep hk
  hstep hi
  hlast Triple.alloc
  hret

theorem makes_text (x : Lines) : ∃ m : M (Ptr × Ptr), Triple emp m (fun p => textAt ⟨x.length, p.1, p.2⟩ x) := by
  obtain ⟨m, hm⟩ := makes_ints (x.map (·.1))
  obtain ⟨k, hk⟩ := makes_strs (x.map (·.2))
  refine ⟨do let u ← m; let v ← k; pure (u, v), ?_⟩
  unfold textAt
  hstep hm
  hstep hk
  hret

theorem makes_ann (x : Annotation) : Makes (fun p => annAt p x) := by
  obtain ⟨m, hm⟩ := makes_text x.pre
  obtain ⟨k, hk⟩ := makes_text x.suf
  refine ⟨do let u ← m; let v ← k; alloc (.node [(x.pre.length : Int), x.suf.length] [u.1, u.2, v.1, v.2]), ?_⟩
  unfold annAt
  hstep hm
  hstep hk
  hlast Triple.alloc
  refine Triple.ret (fun h hh => ⟨⟨x.pre.length, u.1, u.2⟩, ⟨x.suf.length, v.1, v.2⟩, hh.perm (by ac_rfl)⟩)

theorem makes_region (x : Region) : MakesNode (fun p n => regionAt p x n) := by
  obtain ⟨m, hm⟩ := makes_text x.pre
  obtain ⟨k, hk⟩ := makes_text x.suf
  obtain ⟨i, hi⟩ := makes_text x.prelude
  obtain ⟨j, hj⟩ := makes_text x.postlude
  refine ⟨fun n => do
    let u ← m; let v ← k; let w ← i; let z ← j
    alloc (.node [(x.pre.length : Int), x.suf.length, x.prelude.length, x.postlude.length, x.location] [u.1, u.2, v.1, v.2, w.1, w.2, z.1, z.2, n]), fun n => ?_⟩
  unfold regionAt
  hstep hm
  hstep hk
  hstep hi
  hstep hj
  hlast Triple.alloc
  refine Triple.ret (fun h hh => ⟨⟨x.pre.length, u.1, u.2⟩, ⟨x.suf.length, v.1, v.2⟩, ⟨x.prelude.length, w.1, w.2⟩, ⟨x.postlude.length, z.1, z.2⟩, hh.perm (by ac_rfl)⟩)

theorem makes_loop (x : Loop) : MakesNode (fun p n => loopAt p x n) := by
  obtain ⟨m, hm⟩ := makes_uri x.iter
  obtain ⟨k, hk⟩ := makes_ints x.stmt_ids
  obtain ⟨i, hi⟩ := makes_uri x.private_vars
  obtain ⟨j, hj⟩ := makes_uri x.user
  refine ⟨fun n => do
    let u ← m; let v ← k; let w ← i; let z ← j
    alloc (.node [(x.stmt_ids.length : Int), x.directive] [u, v, w, z, n]), fun n => ?_⟩
  unfold loopAt
  hstep hm
  hstep hk
  hstep hi
  hstep hj
  hlast Triple.alloc
  hret

theorem makes_unroll (x : Unroll) : MakesNode (fun p n => unrollAt p x n) := by
  obtain ⟨m, hm⟩ := makes_uri x.iter
  refine ⟨fun n => do let u ← m; alloc (.node [Unroll.ofBool x.jam, (x.factor : Int)] [u, n]), fun n => ?_⟩
  unfold unrollAt
  hstep hm
  hlast Triple.alloc
  hret

theorem makes_dep {c : Cfg} {x : Dep} (h : RelFine c x.domain) : MakesNode (fun p n => depAt c p x n) := by
  obtain ⟨m, hm⟩ := makes_rel h
  refine ⟨fun n => do
    let u ← m
    alloc (.node [x.label_source, x.label_target, x.ref_source, x.ref_target, x.depth, x.type, x.src_out_dom, x.src_out_acc, x.tgt_out_dom, x.tgt_out_acc,
      x.src_loc_dom, x.src_loc_acc, x.tgt_loc_dom, x.tgt_loc_acc] [u, 0, 0, 0, 0, 0, n]), fun n => ?_⟩
  unfold depAt
  hstep hm
  hlast Triple.alloc
  refine Triple.ret (fun h hh => ⟨u, 0, 0, 0, 0, 0, hh.perm (by ac_rfl)⟩)

/-- What the model asks of some data to be in memory: the relations have known precisions and rectangular matrices, the arrays of scatinfos have the
same size. -/
def DataFine {S : Type} (c : Cfg) (sym : S → Prop) : Data S → Prop
  | .relation x => RelFine c (NE.elems (some x))
  | .scatinfos x => x.Sized
  | .dependence x => ∀ d ∈ NE.elems (some x), RelFine c d.domain
  | .symbols x => sym x
  | _ => True

theorem makes_data {S : Type} {c : Cfg} {sym : S → Prop} {at_ : Ptr → S → Assn} (hs : ∀ x, sym x → Makes (fun p => at_ p x)) :
    ∀ d : Data S, DataFine c sym d → Makes (fun p => dataAt c at_ p d)
  | .strings x, _ => makes_strings (some x)
  | .body x, _ => makes_body x
  | .relation _, h => makes_rel h
  | .textual x, _ => makes_stringField x.textual
  | .comment x, _ => makes_stringField x.comment
  | .null _, _ => ⟨alloc (.ptrs []), Triple.alloc _⟩
  | .scatinfos _, h => makes_scatinfos h
  | .scatnames x, _ => makes_scatnames x
  | .arrays x, _ => makes_arrays x
  | .coordinates x, _ => makes_coord x
  | .clay x, _ => makes_stringField x.script
  | .dependence _, h => makes_chain (N := depChain c) (fun d hd => makes_dep (h d hd))
  | .symbols x, h => hs x h
  | .extbody x, _ => makes_extbody x
  | .loop _, _ => makes_chain (N := loopChain) (fun d _ => makes_loop d)
  | .unroll _, _ => makes_chain (N := unrollChain) (fun d _ => makes_unroll d)
  | .region _, _ => makes_chain (N := regionChain) (fun d _ => makes_region d)
  | .annotation x, _ => makes_ann x

theorem makes_iface (i : Iface) : Makes (fun p => ifacesAt p [i]) := by
  obtain ⟨m, hm⟩ := makes_uri i.URI
  refine ⟨do let u ← m; alloc (.iface u i.fns 0), ?_⟩
  simp only [ifacesAt_one]
  unfold ifaceAt
  hstep hm
  hlast Triple.alloc
  hret

/-- What is asked of a generic: the functions of the interface are those of the kind of the data; without interface, no data. -/
def GenericFine {D : Type} (fits : Fns → Option D → Prop) (fine : D → Prop) (g : Generic D) : Prop :=
  match g.interface with
  | none => g.data = none
  | some i => fits i.fns g.data ∧ ∀ d ∈ g.data, fine d

theorem makes_generic {D : Type} {E : Env D} {O : DataMem D E} {fine : D → Prop} (hd : ∀ d, fine d → Makes (fun p => O.at_ p d)) {g : Generic D}
    (h : GenericFine O.fits fine g) : MakesNode (fun p n => genAt O p g n) := by
  obtain ⟨i, d⟩ := g
  cases i with
  | none =>
    have h : d = none := h
    subst h
    refine ⟨fun n => alloc (.ptrs [0, 0, n]), fun n => ?_⟩
    refine (Triple.alloc _).post (fun p h hh => ⟨0, 0, ?_⟩)
    show (_ ∗ pur ((0 : Ptr) = 0 ∧ (0 : Ptr) = 0 ∧ _)) h
    rw [pur_true ⟨rfl, rfl, rfl⟩, sep_emp]
    exact hh
  | some i =>
    obtain ⟨h1, h2⟩ : O.fits i.fns d ∧ ∀ x ∈ d, fine x := h
    obtain ⟨m, hm⟩ := makes_iface i
    obtain ⟨k, hk⟩ := makes_opt (A := O.at_) (o := d) (fun x hx => hd x (h2 x hx))
    refine ⟨fun n => do let x ← m; let y ← k; alloc (.ptrs [x, y, n]), fun n => ?_⟩
    have e : ∀ p, genAt O p ⟨some i, d⟩ n = ex fun x => ex fun y => p ↦ .ptrs [x, y, n] ∗ ifacesAt x [i] ∗ optAt O.at_ y d := by
      intro p
      unfold genAt contentAt
      simp only [pur_true h1, emp_sep, DataMem.opt]
    simp only [e]
    hstep hm
    hstep hk
    hlast Triple.alloc
    hret

theorem makes_generics {D : Type} {E : Env D} {O : DataMem D E} {fine : D → Prop} (hd : ∀ d, fine d → Makes (fun p => O.at_ p d)) {l : GList D}
    (h : ∀ g ∈ l, GenericFine O.fits fine g) : Makes (fun p => glistAt O p l) :=
  makes_chain (N := genChain O) (fun g hg => makes_generic hd (h g hg))

/-- What is asked of symbols: the same for the extensions in them. -/
def SymbolsFine {D : Type} (g : Generic D → Prop) (l : NE (Symbol D)) : Prop :=
  ∀ x ∈ NE.elems (some l), (∀ y ∈ x.identifier, g y) ∧ (∀ y ∈ x.datatype, g y) ∧ (∀ y ∈ x.scope, g y) ∧ ∀ y ∈ x.extent, g y

theorem makes_symbols {D : Type} {E : Env D} {O : DataMem D E} {fine : D → Prop} (hd : ∀ d, fine d → Makes (fun p => O.at_ p d)) (l : NE (Symbol D))
    (h : SymbolsFine (GenericFine O.fits fine) l) : Makes (fun p => (symChain O).list p (NE.elems (some l))) := by
  refine makes_chain (N := symChain O) (fun x hx => ?_)
  obtain ⟨h1, h2, h3, h4⟩ := h x hx
  obtain ⟨m, hm⟩ := makes_generics hd h1
  obtain ⟨k, hk⟩ := makes_generics hd h2
  obtain ⟨i, hi⟩ := makes_generics hd h3
  obtain ⟨j, hj⟩ := makes_generics hd h4
  refine ⟨fun n => do
    let u ← m; let v ← k; let w ← i; let z ← j
    alloc (.node [x.type, x.generated, x.nb_dims] [u, v, w, z, n]), fun n => ?_⟩
  show Triple _ _ (fun p => symAt O p x n)
  unfold symAt
  hstep hm
  hstep hk
  hstep hi
  hstep hj
  hlast Triple.alloc
  hret

end

/-- The functions fit the data, at any depth: the number of the functions is the one of the kind of the data in the default registry. -/
def fitsAt : (n : Nat) → Fns → Option (DataAt n) → Prop
  | 0 => dataFits
  | _ + 1 => dataFits

/-- What is asked of some data to be in memory, with symbols nested at most `n` times. -/
def fineAt (c : Cfg) : (n : Nat) → DataAt n → Prop
  | 0 => DataFine c (fun x => x.elim)
  | n + 1 => DataFine c (SymbolsFine (GenericFine (fitsAt n) (fineAt c n)))

section

variable [Allocator]

theorem memAt_fits (c : Cfg) (e : Option Str) : ∀ n, (memAt c e n).fits = fitsAt n
  | 0 => rfl
  | _ + 1 => rfl

theorem makes_at (c : Cfg) (e : Option Str) : ∀ n (d : DataAt n), fineAt c n d → Makes (fun p => (memAt c e n).at_ p d)
  | 0, d, h => makes_data (S := Empty) (sym := fun x => x.elim) (fun x => x.elim) d h
  | n + 1, d, h => by
    refine makes_data (S := NE (Symbol (DataAt n))) (sym := SymbolsFine (GenericFine (fitsAt n) (fineAt c n))) (fun x hx => ?_) d h
    refine makes_symbols (O := memAt c e n) (makes_at c e n) x ?_
    rw [memAt_fits]
    exact hx

theorem makes_glist (c : Cfg) (e : Option Str) (n : Nat) {l : GList (DataAt n)} (h : ∀ g ∈ l, GenericFine (fitsAt n) (fineAt c n) g) :
    Makes (fun p => glistAt (libMem c e n) p l) := by
  cases n with
  | zero => exact makes_generics (O := memAt c e 0) (makes_at c e 0) (by rw [memAt_fits]; exact h)
  | succ n => exact makes_generics (O := memAt c e (n + 1)) (makes_at c e (n + 1)) (by rw [memAt_fits]; exact h)

theorem makes_registry (l : Ifaces) : Makes (fun p => ifacesAt p l) := by
  refine makes_chain (N := ifaceChain) (fun i _ => ?_)
  obtain ⟨m, hm⟩ := makes_uri i.URI
  refine ⟨fun n => do let u ← m; alloc (.iface u i.fns n), fun n => ?_⟩
  show Triple _ _ (fun p => ifaceAt p i n)
  unfold ifaceAt
  hstep hm
  hlast Triple.alloc
  hret

/-- What is asked of a statement. -/
def StmtFine (c : Cfg) (n : Nat) (s : Stmt (DataAt n)) : Prop :=
  RelFine c s.domain ∧ RelFine c s.scattering ∧ (∀ r ∈ s.access, RelFine c r) ∧ ∀ g ∈ s.extension, GenericFine (fitsAt n) (fineAt c n) g

theorem makes_statement (c : Cfg) (e : Option Str) (n : Nat) {s : Stmt (DataAt n)} (h : StmtFine c n s) :
    MakesNode (fun p q => stmtAt c (L := (libAt c e n).toLib) (libMem c e n) p s q) := by
  obtain ⟨h1, h2, h3, h4⟩ := h
  obtain ⟨m, hm⟩ := makes_rel h1
  obtain ⟨k, hk⟩ := makes_rel h2
  obtain ⟨i, hi⟩ : Makes (fun p => rlistAt c p s.access) := ⟨_, buildList_spec h3⟩
  obtain ⟨j, hj⟩ := makes_glist c e n h4
  refine ⟨fun q => do
    let u ← m; let v ← k; let w ← i; let z ← j
    alloc (.ptrs [u, v, w, z, q]), fun q => ?_⟩
  unfold stmtAt
  hstep hm
  hstep hk
  hstep hi
  hstep hj
  hlast Triple.alloc
  hret

/-- What is asked of a scop. -/
def LibScopFine (c : Cfg) (n : Nat) (s : Scop (DataAt n)) : Prop :=
  RelFine c s.context ∧ (∀ g ∈ s.parameters, GenericFine (fitsAt n) (fineAt c n) g) ∧ (∀ x ∈ s.statement, StmtFine c n x) ∧
    ∀ g ∈ s.extension, GenericFine (fitsAt n) (fineAt c n) g

theorem makes_scops (c : Cfg) (e : Option Str) (n : Nat) {l : Scops (DataAt n)} (h : ∀ s ∈ l, LibScopFine c n s) : Makes (fun p => libScopsAt c e n p l) := by
  refine makes_chain (N := scopChain c (L := (libAt c e n).toLib) (libMem c e n)) (fun s hs => ?_)
  obtain ⟨h1, h2, h3, h4⟩ := h s hs
  obtain ⟨m0, hm0⟩ := makes_uri s.language
  obtain ⟨m, hm⟩ := makes_rel h1
  obtain ⟨k, hk⟩ := makes_glist c e n h2
  obtain ⟨i, hi⟩ := makes_chain (N := stmtChain c (L := (libAt c e n).toLib) (libMem c e n)) (fun x hx => makes_statement c e n (h3 x hx))
  obtain ⟨j, hj⟩ := makes_registry s.registry
  obtain ⟨o, ho⟩ := makes_glist c e n h4
  refine ⟨fun q => do
    let t ← m0; let u ← m; let v ← k; let w ← i; let z ← j; let y ← o
    alloc (.node [s.version] [t, u, v, w, z, y, q]), fun q => ?_⟩
  show Triple _ _ (fun p => scopAt c (L := (libAt c e n).toLib) (libMem c e n) p s q)
  unfold scopAt
  hstep hm0
  hstep hm
  hstep hk
  hstep hi
  hstep hj
  hstep ho
  hlast Triple.alloc
  hret

end

/-- C56: the hypothesis of the theorems can be met by every scop whose extensions are registered with the functions of their kind, at any depth. -/
theorem libScopsAt_exists (c : Cfg) (e : Option Str) (n : Nat) {l : Scops (DataAt n)} (h : ∀ s ∈ l, LibScopFine c n s) :
    ∃ (h : Heap) (p : Ptr), @libScopsAt bumpAlloc c e n p l h.get := by
  obtain ⟨m, hm⟩ := @makes_scops bumpAlloc c e n l h
  obtain ⟨p, h', _, hh⟩ := hm emp ⟨[]⟩ (by rw [sep_emp]; rfl)
  rw [sep_emp] at hh
  exact ⟨h', p, hh⟩

/-- Data registered in the default registry (source/interface.c:366-393) have the functions of their kind. -/
theorem ext_fine {S : Type} {fine : Data S → Prop} (d : Data S) (h : fine d) : GenericFine dataFits fine (Data.ext d) := by
  obtain ⟨u, _, h2, _⟩ := Data.registry_at d.index (Data.index_lt d)
  have e : Data.ext d = { interface := some { URI := some u, fns := Ifaces.fnsOf d.index }, data := some d } := by
    unfold Data.ext
    rw [h2]
  rw [e]
  refine ⟨⟨rfl, ?_⟩, ?_⟩
  · show d.index = kindNo d
    cases d <;> rfl
  · intro x hx
    simp only [Option.mem_def, Option.some.injEq] at hx
    subst hx
    exact h

theorem all_nil {α : Type} {P : α → Prop} : ∀ x ∈ ([] : List α), P x := by simp

theorem all_cons {α : Type} {P : α → Prop} {a : α} {l : List α} (h : P a) (t : ∀ x ∈ l, P x) : ∀ x ∈ a :: l, P x := by
  intro x hx
  rcases List.mem_cons.mp hx with rfl | hx
  · exact h
  · exact t x hx

/-- The scop of `LibraryExample`, with strings, comments, bodies, arrays, coordinates and symbols, meets the conditions. -/
theorem exScopL_fine : LibScopFine Cfg.std 1 Data.exScopL := by
  have dom : RelFine Cfg.std [Rel.exDomain, Rel.exDomain2] := by
    intro a ha
    simp at ha
    rcases ha with rfl | rfl <;> exact ⟨by decide, by decide, by decide⟩
  have sca : RelFine Cfg.std [Stmts.exScatt] := all_cons ⟨by decide, by decide, by decide⟩ all_nil
  have acc : RelFine Cfg.std [Rel.exAccess] := all_cons ⟨by decide, by decide, by decide⟩ all_nil
  have part : ∀ l, ∀ g ∈ Data.exPart0 l, GenericFine (fitsAt 0) (fineAt Cfg.std 0) g :=
    fun l => all_cons (ext_fine (S := Empty) (fine := fineAt Cfg.std 0) _ trivial) all_nil
  have plain : ∀ d : Data.exData, fineAt Cfg.std 1 d → GenericFine (fitsAt 1) (fineAt Cfg.std 1) (Data.ext d) := fun d h => ext_fine (fine := fineAt Cfg.std 1) d h
  have stmt : StmtFine Cfg.std 1 Data.exStmtL := ⟨dom, sca, all_cons acc all_nil, all_cons (plain _ trivial) (all_cons (plain _ trivial) all_nil)⟩
  have sym : fineAt Cfg.std 1 (Data.symbols Data.exSymbols : Data.exData) :=
    show SymbolsFine (GenericFine (fitsAt 0) (fineAt Cfg.std 0)) Data.exSymbols from all_cons ⟨part _, part _, part _, part _⟩ all_nil
  refine ⟨?_, all_cons (plain _ trivial) all_nil, all_cons stmt (all_cons stmt all_nil),
    all_cons (plain _ trivial) (all_cons (plain _ trivial) (all_cons (plain _ sym) all_nil))⟩
  exact all_cons ⟨by decide, by decide, by decide⟩ all_nil

/-- It can be in memory. -/
example : ∃ (h : Heap) (p : Ptr), @libScopsAt bumpAlloc Cfg.std (some "64".toList) 1 p [Data.exScopL, Data.exScopL] h.get :=
  libScopsAt_exists _ _ _ (all_cons exScopL_fine (all_cons exScopL_fine all_nil))

/-! ## Runs -/

section
local instance libExampleAlloc : Allocator := bumpAlloc

/-- An annotation with one line before and one after. -/
def demoAnnotation : M Ptr := do
  let p ← annMalloc
  let l ← alloc (.chars "before".toList)
  appendText p 0 1 l
  let l ← alloc (.chars "after".toList)
  appendText p 1 3 l
  pure p

set_option maxRecDepth 20000 in
/-- Runs: an annotation is its node, two arrays for each text and the lines; a copy is as much; everything is freed. -/
example : blocksLeft demoAnnotation = some 7 ∧
    blocksLeft (do
      let p ← demoAnnotation
      annClone p) = some 14 ∧
    blocksLeft (do
      let p ← demoAnnotation
      let q ← annClone p
      annFree p
      annFree q) = some 0 ∧
    blocksLeft (do
      let p ← arraysMalloc
      let w ← alloc (.chars "A".toList)
      let _ ← arraysAdd p 4 w
      let _ ← arraysAdd p 5 w
      free w
      let q ← arraysClone p
      arraysFree p
      pure q) = some 5 := by decide +kernel

set_option maxRecDepth 20000 in
/-- Runs: symbols in symbols, freed by the functions of the default registry through their interfaces. -/
example : blocksLeft (do
      let i ← ifaceMake 12 "symbols".toList
      let j ← ifaceMake 0 "strings".toList
      let w ← strGenerate "A".toList 2
      let g ← genShell w j
      let x ← symMalloc
      setPtr x 0 g
      let s ← genShell x i
      let t ← genClone (fnsAt Cfg.std 1) s
      genFree (fnsAt Cfg.std 1) s
      genFree (fnsAt Cfg.std 1) t) = some 0 := by decide +kernel

set_option maxRecDepth 20000 in
/-- Finding (C56): a line given to `osl_annotation_append_prefix` is not copied: it is freed with the annotation. -/
theorem annotation_append_double_free :
    undefinedRun (do
      let p ← annMalloc
      let l ← alloc (.chars "before".toList)
      appendText p 0 1 l
      annFree p
      free l) = true := by decide +kernel

set_option maxRecDepth 20000 in
/-- Finding (C56): data registered with the functions of another kind: freeing them is undefined. -/
theorem generic_wrong_kind_undefined :
    undefinedRun (do
      let i ← ifaceMake 1 "body".toList
      let p ← coordMalloc
      let g ← genShell p i
      genFree (fnsAt Cfg.std 0) g) = true := by decide +kernel

end

end Osl.Mem
