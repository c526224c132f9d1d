import Verif.Defined
import Verif.LibraryProps
/-!
# C83: copies, comparisons and checks of extensions, statements and scops are defined

An extension is *own* when its interface is one of the default registry, and its data are of the kind of this interface.  The copies of such extensions are defined, but for
an annotation which is NULL; their comparisons are defined if no data are NULL, no string of them is missing, and there is no region.
-/

namespace Osl

open Osl.Ext

/-! ## Specification -/

namespace Data

variable {S : Type}

/-- Spec: the matrices of the relations of the data are of the sizes their headers announce; `sym` is what is asked of the symbols. -/
def Shaped (sym : S → Prop) : Data S → Prop
  | .relation x => Rel.Shape (NE.elems (some x))
  | .dependence x => ∀ d ∈ NE.elems (some x), Rel.Shape d.domain
  | .symbols s => sym s
  | _ => True

/-- Spec: besides, no string which the comparison reads is missing, and there is no region (the comparison of equal regions is undefined, C62). -/
def Comparable (sym : S → Prop) : Data S → Prop
  | .comment x => x.comment ≠ none
  | .clay x => x.script ≠ none
  | .coordinates x => x.name ≠ none
  | .loop x => ∀ l ∈ NE.elems (some x), l.iter ≠ none ∧ l.private_vars ≠ none ∧ l.user ≠ none
  | .region _ => False
  | d => Shaped sym d

end Data

variable {S : Type}

/-- Spec: the extension has an interface of the default registry and data of its kind, which may be NULL but for an annotation, and for symbols unless `nosym`. -/
def Own (nosym : Prop) (good : Data S → Prop) (g : Generic (Data S)) : Prop :=
  ∃ k : Nat, k < 18 ∧ g.interface = defaultRegistry[k]? ∧ match g.data with
    | some d => d.index = k ∧ good d
    | none => k ≠ 17 ∧ (k = 12 → nosym)

/-- Spec: the same, with data which are not NULL. -/
def Full (good : Data S → Prop) (g : Generic (Data S)) : Prop := ∃ d : Data S, g.data = some d ∧ g.interface = defaultRegistry[d.index]? ∧ good d

/-- Spec: the extensions can be copied, those of the symbols too. -/
def Copyable : (n : Nat) → GList (DataAt n) → Prop
  | 0, l => ∀ g ∈ l, Own False (Data.Shaped (fun _ : Empty => True)) g
  | n + 1, l => ∀ g ∈ l, Own True (Data.Shaped (fun s : NE (Symbol (DataAt n)) => ∀ y ∈ NE.elems (some s),
      Copyable n y.identifier ∧ Copyable n y.datatype ∧ Copyable n y.scope ∧ Copyable n y.extent)) g

/-- Spec: the extensions can be compared, those of the (first) symbols too. -/
def Matchable : (n : Nat) → GList (DataAt n) → Prop
  | 0, l => ∀ g ∈ l, Full (Data.Comparable (fun _ : Empty => True)) g
  | n + 1, l => ∀ g ∈ l, Full (Data.Comparable (fun s : NE (Symbol (DataAt n)) => ∀ y ∈ NE.elems (some s),
      Matchable n y.identifier ∧ Matchable n y.datatype ∧ Matchable n y.scope ∧ Matchable n y.extent)) g

/-! ## Lists of extensions -/

theorem iface_add_defined {l m : Ifaces} : Ifaces.add l m ≠ .ub := by
  unfold Ifaces.add
  refine bind_defined ?_ (fun _ _ e => by cases e)
  have : ∀ m : Ifaces, Ifaces.checkLoop l m ≠ .ub := by
    intro m
    induction m with
    | nil => intro e; cases e
    | cons i m ih =>
      unfold Ifaces.checkLoop
      split
      · intro e; cases e
      · split
        · intro e; cases e
        · exact ih
  exact this m

theorem iface_nclone_defined : ∀ {k : Option Nat} {l acc : Ifaces}, Ifaces.ncloneLoop k l acc ≠ .ub
  | _, [], _ => by unfold Ifaces.ncloneLoop; intro e; cases e
  | none, i :: l, acc => by unfold Ifaces.ncloneLoop; exact bind_defined iface_add_defined (fun _ _ => iface_nclone_defined)
  | some 0, i :: l, acc => by unfold Ifaces.ncloneLoop; intro e; cases e
  | some (k + 1), i :: l, acc => by unfold Ifaces.ncloneLoop; exact bind_defined iface_add_defined (fun _ _ => iface_nclone_defined)

theorem iface_clone_defined {l : Ifaces} : Ifaces.clone l ≠ .ub := iface_nclone_defined

namespace GList

variable {D : Type}

theorem checkLoop_defined {first : GList D} : ∀ {l : GList D}, checkLoop first l ≠ .ub
  | [] => by intro e; cases e
  | x :: l => by
    have ih := checkLoop_defined (first := first) (l := l)
    unfold checkLoop
    split
    · intro e; cases e
    · split
      · intro e; cases e
      · split
        · intro e; cases e
        · exact ih

theorem add_defined {l m : GList D} : add l m ≠ .ub := bind_defined checkLoop_defined (fun _ _ e => by cases e)

theorem ncloneLoop_defined {E : Env D} : ∀ {k : Nat} {l acc : GList D}, (∀ g ∈ l, ∀ i, g.interface = some i → E.clone i.fns.clone g.data ≠ .ub) → ncloneLoop E k l acc ≠ .ub
  | 0, l, acc, _ => by unfold ncloneLoop; intro e; cases e
  | k + 1, [], acc, _ => by unfold ncloneLoop; intro e; cases e
  | k + 1, g :: l, acc, h => by
    unfold ncloneLoop
    have h' : ∀ g ∈ l, ∀ i, g.interface = some i → E.clone i.fns.clone g.data ≠ .ub := fun g hg => h g (List.mem_cons_of_mem _ hg)
    split
    · exact ncloneLoop_defined h'
    · next i hi =>
      refine bind_defined (h g List.mem_cons_self i hi) (fun _ _ => ?_)
      refine bind_defined iface_clone_defined (fun _ _ => ?_)
      exact bind_defined add_defined (fun _ _ => ncloneLoop_defined h')

theorem clone_defined {E : Env D} {l : GList D} (h : ∀ g ∈ l, ∀ i, g.interface = some i → E.clone i.fns.clone g.data ≠ .ub) : clone E l ≠ .ub := ncloneLoop_defined h

theorem findEqual_defined {E : Env D} {g : Generic D} {i : Iface} (hi : g.interface = some i) (hu : i.URI ≠ none) : ∀ {l : GList D},
    (∀ h ∈ l, (∃ j, h.interface = some j ∧ j.URI ≠ none) ∧ (h.interface = some i → E.equal i.fns.equal g.data h.data ≠ .ub)) → findEqual E g l ≠ .ub
  | [], _ => by intro e; cases e
  | h :: l, H => by
    obtain ⟨⟨j, hj, hv⟩, he⟩ := H h List.mem_cons_self
    have ih := findEqual_defined hi hu (fun x hx => H x (List.mem_cons_of_mem _ hx))
    obtain ⟨u, hu⟩ := Option.ne_none_iff_exists'.mp hu
    obtain ⟨v, hv⟩ := Option.ne_none_iff_exists'.mp hv
    unfold findEqual
    have hq : Ifaces.equal g.interface h.interface = .ok (decide (u = v) && decide (i.fns = j.fns)) := by rw [hi, hj]; simp only [Ifaces.equal, hu, hv]
    rw [hq]
    split
    · next e =>
      injection e with e
      simp only [Bool.and_eq_true, decide_eq_true_eq] at e
      have : i = j := by
        obtain ⟨a, b⟩ := i
        obtain ⟨a', b'⟩ := j
        simp only at hu hv e
        rw [hu, hv, e.1, e.2]
      simp only [hi]
      exact he (by rw [hj, this])
    · exact ih
    · next e => cases e
    · next e => cases e

theorem equal_defined {E : Env D} {l m : GList D} (hl : ∀ g ∈ l, ∃ i, g.interface = some i ∧ i.URI ≠ none) (hm : ∀ g ∈ m, ∃ i, g.interface = some i ∧ i.URI ≠ none)
    (h : ∀ g ∈ l, ∀ g' ∈ m, ∀ i, g.interface = some i → g'.interface = some i → E.equal i.fns.equal g.data g'.data ≠ .ub) : equal E l m ≠ .ub := by
  unfold equal
  split
  · intro e; cases e
  · next hc =>
    clear hc
    induction l with
    | nil => intro e; cases e
    | cons g l ih =>
      obtain ⟨i, hi, hu⟩ := hl g List.mem_cons_self
      have ih := ih (fun x hx => hl x (List.mem_cons_of_mem _ hx)) (fun x hx => h x (List.mem_cons_of_mem _ hx))
      have h1 := findEqual_defined (E := E) hi hu (l := m) (fun x hx => ⟨hm x hx, fun e => h g List.mem_cons_self x hx i hi e⟩)
      unfold equalLoop
      split
      · exact ih
      · intro e; cases e
      · intro e; cases e
      · next e => exact absurd e h1

end GList

/-! ## The data -/

namespace Data

theorem lift_clone_defined {X : Type} {k : Kind S X} {o : Ops X} {d : Option (Data S)} (h0 : d = none → o.clone none ≠ .ub)
    (h : ∀ y, d = some y → ∃ x, k.proj y = some x ∧ o.clone (some x) ≠ .ub) : (lift k o).clone d ≠ .ub := by
  cases d with
  | none => exact bind_defined (h0 rfl) (fun _ _ e => by cases e)
  | some y =>
    obtain ⟨x, h1, h2⟩ := h y rfl
    simp only [lift, h1]
    exact bind_defined h2 (fun _ _ e => by cases e)

theorem registry_get : ∀ {k : Nat}, k < 18 → ∃ i, defaultRegistry[k]? = some i ∧ i.fns = Ifaces.fnsOf k ∧ i.URI ≠ none := by
  intro k hk
  have : ∀ k : Fin 18, ∃ i, defaultRegistry[k.val]? = some i ∧ i.fns = Ifaces.fnsOf k ∧ i.URI ≠ none := by
    intro k
    refine ⟨(defaultRegistry[k.val]?).getD ⟨none, Ifaces.fnsOf 0⟩, ?_⟩
    revert k
    decide
  exact this ⟨k, hk⟩

variable {c : Cfg} {e : Option Str} {sym : Ops S}

theorem dep_clone_defined {l : List Dep} (h : ∀ d ∈ l, Rel.Shape d.domain) : Dep.clone c l ≠ .ub :=
  mapOut_defined (fun d hd => bind_defined (Rel.clone_defined (h d hd)) (fun _ _ e => by cases e))

/-- A copy of data by the function of their kind. -/
theorem env_clone_defined {nosym : Prop} {P : S → Prop} (h0 : nosym → sym.clone none ≠ .ub) (hS : ∀ s, P s → sym.clone (some s) ≠ .ub) {g : Generic (Data S)} (h : Own nosym (Shaped P) g) {i : Iface}
    (hi : g.interface = some i) : (env c e sym).clone i.fns.clone g.data ≠ .ub := by
  obtain ⟨k, hk, h1, h2⟩ := h
  obtain ⟨j, h3, h4, _⟩ := registry_get hk
  have hij : i = j := by rw [hi, h3] at h1; injection h1
  subst hij
  rw [h4]
  show (match (table c e sym)[k]? with | some o => o.clone g.data | none => .ub) ≠ .ub
  cases hd : g.data with
  | some d =>
    rw [hd] at h2
    obtain ⟨rfl, h2⟩ := h2
    have V : ∀ {X : Type} {k : Kind S X} {o : Ops X} {x : X}, o.clone (some x) ≠ .ub → (lift k o).clone (some (k.inj x)) ≠ .ub := fun {X k o x} h => by
      simp only [lift, k.proj_inj]
      exact bind_defined h (fun _ _ e => by cases e)
    cases d with
    | relation x => exact V (k := kRelation) (o := relationOps c e) (x := x) (bind_defined (Rel.clone_defined h2) (fun _ _ e => by cases e))
    | dependence x => exact V (k := kDependence) (o := Ext.Dep.ops c e) (x := x) (bind_defined (dep_clone_defined h2) (fun _ _ e => by cases e))
    | symbols s => exact V (k := kSymbols) (o := sym) (x := s) (hS s h2)
    | strings x => exact V (k := kStrings) (o := stringsOps) (x := x) (fun e => by cases e)
    | body x => exact V (k := kBody) (o := bodyOps) (x := x) (fun e => by cases e)
    | textual x => exact V (k := kTextual) (o := Ext.Textual.ops) (x := x) (fun e => by cases e)
    | comment x => exact V (k := kComment) (o := Ext.Comment.ops) (x := x) (fun e => by cases e)
    | null x => exact V (k := kNull) (o := Ext.Null.ops) (x := x) (fun e => by cases e)
    | scatinfos x => exact V (k := kScatinfos) (o := Ext.Scatinfos.ops) (x := x) (fun e => by cases e)
    | scatnames x => exact V (k := kScatnames) (o := Ext.Scatnames.ops) (x := x) (fun e => by cases e)
    | arrays x => exact V (k := kArrays) (o := Ext.Arrays.ops) (x := x) (fun e => by cases e)
    | coordinates x => exact V (k := kCoordinates) (o := Ext.Coordinates.ops) (x := x) (fun e => by cases e)
    | clay x => exact V (k := kClay) (o := Ext.Clay.ops) (x := x) (fun e => by cases e)
    | extbody x => exact V (k := kExtbody) (o := Ext.Extbody.ops) (x := x) (fun e => by cases e)
    | loop x => exact V (k := kLoop) (o := Ext.Loop.ops) (x := x) (fun e => by cases e)
    | unroll x => exact V (k := kUnroll) (o := Ext.Unroll.ops) (x := x) (fun e => by cases e)
    | region x => exact V (k := kRegion) (o := Ext.Region.ops) (x := x) (fun e => by cases e)
    | annotation x => exact V (k := kAnnotation) (o := Ext.Annotation.ops) (x := x) (fun e => by cases e)
  | none =>
    rw [hd] at h2
    have N : ∀ {X : Type} {k : Kind S X} {o : Ops X}, o.clone none ≠ .ub → (lift k o).clone none ≠ .ub := fun h => lift_clone_defined (fun _ => h) (fun y hy => by cases hy)
    have A : ∀ sym : Ops S, sym.clone none ≠ .ub → ∀ o ∈ (table c e sym).take 17, o.clone none ≠ .ub := by
      intro sym h0
      unfold table
      refine List.forall_mem_cons.mpr ⟨N (k := kStrings) (o := stringsOps) (fun e => by cases e), ?_⟩
      refine List.forall_mem_cons.mpr ⟨N (k := kBody) (o := bodyOps) (fun e => by cases e), ?_⟩
      refine List.forall_mem_cons.mpr ⟨N (k := kRelation) (o := (relationOps c e)) (fun e => by cases e), ?_⟩
      refine List.forall_mem_cons.mpr ⟨N (k := kTextual) (o := Ext.Textual.ops) (fun e => by cases e), ?_⟩
      refine List.forall_mem_cons.mpr ⟨N (k := kComment) (o := Ext.Comment.ops) (fun e => by cases e), ?_⟩
      refine List.forall_mem_cons.mpr ⟨N (k := kNull) (o := Ext.Null.ops) (fun e => by cases e), ?_⟩
      refine List.forall_mem_cons.mpr ⟨N (k := kScatinfos) (o := Ext.Scatinfos.ops) (fun e => by cases e), ?_⟩
      refine List.forall_mem_cons.mpr ⟨N (k := kScatnames) (o := Ext.Scatnames.ops) (fun e => by cases e), ?_⟩
      refine List.forall_mem_cons.mpr ⟨N (k := kArrays) (o := Ext.Arrays.ops) (fun e => by cases e), ?_⟩
      refine List.forall_mem_cons.mpr ⟨N (k := kCoordinates) (o := Ext.Coordinates.ops) (fun e => by cases e), ?_⟩
      refine List.forall_mem_cons.mpr ⟨N (k := kClay) (o := Ext.Clay.ops) (fun e => by cases e), ?_⟩
      refine List.forall_mem_cons.mpr ⟨N (k := kDependence) (o := (Ext.Dep.ops c e)) (fun e => by cases e), ?_⟩
      refine List.forall_mem_cons.mpr ⟨N (k := kSymbols) (o := sym) h0, ?_⟩
      refine List.forall_mem_cons.mpr ⟨N (k := kExtbody) (o := Ext.Extbody.ops) (fun e => by cases e), ?_⟩
      refine List.forall_mem_cons.mpr ⟨N (k := kLoop) (o := Ext.Loop.ops) (fun e => by cases e), ?_⟩
      refine List.forall_mem_cons.mpr ⟨N (k := kUnroll) (o := Ext.Unroll.ops) (fun e => by cases e), ?_⟩
      refine List.forall_mem_cons.mpr ⟨N (k := kRegion) (o := Ext.Region.ops) (fun e => by cases e), ?_⟩
      exact fun _ h => by cases h
    have hk : k < 17 := by have := h2.1; omega
    have hL : (table c e sym)[k]? = ((table c e sym).take 17)[k]? := by rw [List.getElem?_take, if_pos hk]
    have hT : ((table c e sym).take 17)[k]? = none → False := fun h => absurd (List.getElem?_eq_none_iff.mp h) (by rw [List.length_take]; show ¬ min 17 18 ≤ k; omega)
    by_cases h12 : k = 12
    · rw [hL]
      cases ho : ((table c e sym).take 17)[k]? with
      | none => exact (hT ho).elim
      | some o => exact A sym (h0 (h2.2 h12)) o (List.mem_of_getElem? ho)
    · let sym' : Ops S := { sym with clone := fun _ => .ok none }
      have hT' : (table c e sym)[k]? = ((table c e sym').take 17)[k]? := by
        rw [hL, show table c e sym' = (table c e sym).set 12 (lift kSymbols sym') from rfl, List.getElem?_take, if_pos hk, List.getElem?_take, if_pos hk, List.getElem?_set_ne (fun e => h12 e.symm)]
      rw [hT']
      cases ho : ((table c e sym').take 17)[k]? with
      | none => exact absurd (List.getElem?_eq_none_iff.mp ho) (by rw [List.length_take]; show ¬ min 17 18 ≤ k; omega)
      | some o => exact A sym' (fun e => by cases e) o (List.mem_of_getElem? ho)

theorem strEq_defined {a b : Option Str} (h : a ≠ none) (h' : b ≠ none) : Ext.strEq a b ≠ .ub := by
  cases a with
  | none => exact absurd rfl h
  | some a => cases b with
    | none => exact absurd rfl h'
    | some b => intro e; cases e

theorem sameStr_defined {a b : Option Str} (h : a ≠ none) (h' : b ≠ none) : Ext.Loop.sameStr a b ≠ .ub := by
  cases a with
  | none => exact absurd rfl h
  | some a => cases b with
    | none => exact absurd rfl h'
    | some b => intro e; cases e

theorem ite_defined {α : Type} {p : Prop} [Decidable p] {a b : Out α} (h : a ≠ .ub) (h' : b ≠ .ub) : (if p then a else b) ≠ .ub := by split <;> assumption

theorem ok_defined {α : Type} {a : α} : (Out.ok a) ≠ .ub := by intro e; cases e

/-- What the comparison of the loops reads is not missing. -/
def LoopOk (l : Ext.Loop) : Prop := l.iter ≠ none ∧ l.private_vars ≠ none ∧ l.user ≠ none

theorem loop_equalOne_defined {a b : Ext.Loop} (h : LoopOk a) (h' : LoopOk b) : Ext.Loop.equalOne a b ≠ .ub := by
  unfold Ext.Loop.equalOne
  refine ite_defined ok_defined (bind_defined (strEq_defined h.1 h'.1) (fun _ _ => ?_))
  refine ite_defined ok_defined (ite_defined ok_defined ?_)
  unfold Ext.Loop.equalRest
  refine bind_defined (sameStr_defined h.2.1 h'.2.1) (fun _ _ => ?_)
  refine ite_defined ok_defined (ite_defined ok_defined (bind_defined (sameStr_defined h.2.2 h'.2.2) (fun _ _ => ?_)))
  exact ite_defined ok_defined ok_defined

theorem loop_found_defined {a : Ext.Loop} (h : LoopOk a) : ∀ {m : List Ext.Loop}, (∀ b ∈ m, LoopOk b) → Ext.Loop.foundLoop a m ≠ .ub
  | [], _ => ok_defined
  | b :: m, h' => bind_defined (loop_equalOne_defined h (h' b List.mem_cons_self)) (fun _ _ =>
      ite_defined ok_defined (loop_found_defined h (fun x hx => h' x (List.mem_cons_of_mem _ hx))))

theorem loop_equalLoop_defined {m : List Ext.Loop} (h' : ∀ b ∈ m, LoopOk b) : ∀ {l : List Ext.Loop}, (∀ a ∈ l, LoopOk a) → Ext.Loop.equalLoop m l ≠ .ub
  | [], _ => ok_defined
  | a :: l, h => bind_defined (loop_found_defined (h a List.mem_cons_self) h') (fun _ _ =>
      ite_defined ok_defined (loop_equalLoop_defined h' (fun x hx => h x (List.mem_cons_of_mem _ hx))))

theorem loop_equal_defined {l m : List Ext.Loop} (h : ∀ a ∈ l, LoopOk a) (h' : ∀ b ∈ m, LoopOk b) : Ext.Loop.equal l m ≠ .ub := by
  cases l with
  | nil => cases m <;> exact ok_defined
  | cons a l => cases m with
    | nil => exact ok_defined
    | cons b m => exact ite_defined ok_defined (loop_equalLoop_defined h' h)

theorem dep_equal_defined {c : Cfg} : ∀ {l m : List Ext.Dep}, (l = [] ↔ m = []) → (∀ d ∈ l, Rel.Shape d.domain) → (∀ d ∈ m, Rel.Shape d.domain) → Ext.Dep.equal c l m ≠ .ub := by
  have one : ∀ {a b : Ext.Dep}, Rel.Shape a.domain → Rel.Shape b.domain → Ext.Dep.equalOne c a b ≠ .ub := fun h h' =>
    bind_defined (Rel.equal_defined h h') (fun _ _ => ite_defined ok_defined ok_defined)
  intro l
  induction l with
  | nil =>
    intro m h _ _
    rw [h.mp rfl]
    exact ok_defined
  | cons a l ih =>
    intro m h h1 h2
    cases m with
    | nil => exact absurd (h.mpr rfl) (by intro e; cases e)
    | cons b m =>
      have ha := h1 a List.mem_cons_self
      have hb := h2 b List.mem_cons_self
      cases l with
      | nil => cases m with
        | nil => exact one ha hb
        | cons b' m => exact ok_defined
      | cons a' l => cases m with
        | nil => exact ok_defined
        | cons b' m =>
          refine bind_defined (ih (m := b' :: m) ⟨(fun e => by cases e), (fun e => by cases e)⟩ (fun x hx => h1 x (List.mem_cons_of_mem _ hx)) (fun x hx => h2 x (List.mem_cons_of_mem _ hx))) (fun _ _ => ?_)
          exact ite_defined ok_defined (one ha hb)

theorem registry_inj {k j : Nat} (hk : k < 18) (hj : j < 18) (h : defaultRegistry[k]? = defaultRegistry[j]?) : k = j := by
  have : ∀ k j : Fin 18, defaultRegistry[k.val]? = defaultRegistry[j.val]? → k = j := by decide +kernel
  exact congrArg Fin.val (this ⟨k, hk⟩ ⟨j, hj⟩ h)

/-- A comparison of data by the function of their kind. -/
theorem env_equal_defined {c : Cfg} {e : Option Str} {sym : Ops S} {P : S → Prop} (hS : ∀ s t, P s → P t → sym.equal (some s) (some t) ≠ .ub) {g g' : Generic (Data S)}
    (h : Full (Comparable P) g) (h' : Full (Comparable P) g') {i : Iface} (hi : g.interface = some i) (hi' : g'.interface = some i) : (env c e sym).equal i.fns.equal g.data g'.data ≠ .ub := by
  obtain ⟨d, h1, h2, h3⟩ := h
  obtain ⟨d', h1', h2', h3'⟩ := h'
  have hdd : d'.index = d.index := registry_inj (index_lt d') (index_lt d) (by rw [← h2', ← h2, hi, hi'])
  obtain ⟨j, h4, h5, _⟩ := registry_get (index_lt d)
  have hij : i = j := by rw [hi, h4] at h2; injection h2
  subst hij
  rw [h5, h1, h1']
  clear h1 h1' h2 h2' hi hi' h4 h5
  show (match (table c e sym)[d.index]? with | some o => o.equal (some d) (some d') | none => .ub) ≠ .ub
  have V : ∀ {X : Type} {k : Kind S X} {o : Ops X} {x y : X}, o.equal (some x) (some y) ≠ .ub → (lift k o).equal (some (k.inj x)) (some (k.inj y)) ≠ .ub := fun {X k o x y} h => by
    simp only [lift, k.proj_inj]
    exact h
  cases d with
  | relation x =>
    obtain ⟨y, rfl⟩ : ∃ y, d' = .relation y := by cases d' <;> first | exact ⟨_, rfl⟩ | (simp [index] at hdd)
    exact V (k := kRelation) (o := relationOps c e) (x := x) (y := y) (Rel.equal_defined h3 h3')
  | dependence x =>
    obtain ⟨y, rfl⟩ : ∃ y, d' = .dependence y := by cases d' <;> first | exact ⟨_, rfl⟩ | (simp [index] at hdd)
    exact V (k := kDependence) (o := Ext.Dep.ops c e) (x := x) (y := y) (dep_equal_defined ⟨(fun e => by cases e), (fun e => by cases e)⟩ h3 h3')
  | symbols s =>
    obtain ⟨y, rfl⟩ : ∃ y, d' = .symbols y := by cases d' <;> first | exact ⟨_, rfl⟩ | (simp [index] at hdd)
    exact V (k := kSymbols) (o := sym) (x := s) (y := y) (hS s y h3 h3')
  | strings x =>
    obtain ⟨y, rfl⟩ : ∃ y, d' = .strings y := by cases d' <;> first | exact ⟨_, rfl⟩ | (simp [index] at hdd)
    exact V (k := kStrings) (o := stringsOps) (x := x) (y := y) ok_defined
  | body x =>
    obtain ⟨y, rfl⟩ : ∃ y, d' = .body y := by cases d' <;> first | exact ⟨_, rfl⟩ | (simp [index] at hdd)
    exact V (k := kBody) (o := bodyOps) (x := x) (y := y) ok_defined
  | textual x =>
    obtain ⟨y, rfl⟩ : ∃ y, d' = .textual y := by cases d' <;> first | exact ⟨_, rfl⟩ | (simp [index] at hdd)
    exact V (k := kTextual) (o := Ext.Textual.ops) (x := x) (y := y) ok_defined
  | comment x =>
    obtain ⟨y, rfl⟩ : ∃ y, d' = .comment y := by cases d' <;> first | exact ⟨_, rfl⟩ | (simp [index] at hdd)
    exact V (k := kComment) (o := Ext.Comment.ops) (x := x) (y := y) (bind_defined (strEq_defined h3 h3') (fun _ _ => ok_defined))
  | null x =>
    obtain ⟨y, rfl⟩ : ∃ y, d' = .null y := by cases d' <;> first | exact ⟨_, rfl⟩ | (simp [index] at hdd)
    exact V (k := kNull) (o := Ext.Null.ops) (x := x) (y := y) ok_defined
  | scatinfos x =>
    obtain ⟨y, rfl⟩ : ∃ y, d' = .scatinfos y := by cases d' <;> first | exact ⟨_, rfl⟩ | (simp [index] at hdd)
    refine V (k := kScatinfos) (o := Ext.Scatinfos.ops) (x := x) (y := y) ?_
    show Ext.Scatinfos.equal (some x) (some y) ≠ .ub
    unfold Ext.Scatinfos.equal
    repeat (first | exact ok_defined | (refine ite_defined ?_ ?_))
  | scatnames x =>
    obtain ⟨y, rfl⟩ : ∃ y, d' = .scatnames y := by cases d' <;> first | exact ⟨_, rfl⟩ | (simp [index] at hdd)
    exact V (k := kScatnames) (o := Ext.Scatnames.ops) (x := x) (y := y) (ite_defined ok_defined ok_defined)
  | arrays x =>
    obtain ⟨y, rfl⟩ : ∃ y, d' = .arrays y := by cases d' <;> first | exact ⟨_, rfl⟩ | (simp [index] at hdd)
    exact V (k := kArrays) (o := Ext.Arrays.ops) (x := x) (y := y) (ite_defined ok_defined ok_defined)
  | coordinates x =>
    obtain ⟨y, rfl⟩ : ∃ y, d' = .coordinates y := by cases d' <;> first | exact ⟨_, rfl⟩ | (simp [index] at hdd)
    refine V (k := kCoordinates) (o := Ext.Coordinates.ops) (x := x) (y := y) (bind_defined (strEq_defined h3 h3') (fun _ _ => ?_))
    exact ite_defined ok_defined (ite_defined ok_defined (ite_defined ok_defined (ite_defined ok_defined (ite_defined ok_defined (ite_defined ok_defined ok_defined)))))
  | clay x =>
    obtain ⟨y, rfl⟩ : ∃ y, d' = .clay y := by cases d' <;> first | exact ⟨_, rfl⟩ | (simp [index] at hdd)
    exact V (k := kClay) (o := Ext.Clay.ops) (x := x) (y := y) (strEq_defined h3 h3')
  | extbody x =>
    obtain ⟨y, rfl⟩ : ∃ y, d' = .extbody y := by cases d' <;> first | exact ⟨_, rfl⟩ | (simp [index] at hdd)
    exact V (k := kExtbody) (o := Ext.Extbody.ops) (x := x) (y := y) (ite_defined ok_defined (ite_defined ok_defined ok_defined))
  | loop x =>
    obtain ⟨y, rfl⟩ : ∃ y, d' = .loop y := by cases d' <;> first | exact ⟨_, rfl⟩ | (simp [index] at hdd)
    exact V (k := kLoop) (o := Ext.Loop.ops) (x := x) (y := y) (loop_equal_defined h3 h3')
  | unroll x =>
    obtain ⟨y, rfl⟩ : ∃ y, d' = .unroll y := by cases d' <;> first | exact ⟨_, rfl⟩ | (simp [index] at hdd)
    exact V (k := kUnroll) (o := Ext.Unroll.ops) (x := x) (y := y) ok_defined
  | region x => exact h3.elim
  | annotation x =>
    obtain ⟨y, rfl⟩ : ∃ y, d' = .annotation y := by cases d' <;> first | exact ⟨_, rfl⟩ | (simp [index] at hdd)
    exact V (k := kAnnotation) (o := Ext.Annotation.ops) (x := x) (y := y) ok_defined

end Data

/-! ## The symbols, and the levels -/

theorem symbol_clone_defined {D : Type} {E : Env D} {l : List (Symbol D)}
    (h : ∀ y ∈ l, GList.clone E y.identifier ≠ .ub ∧ GList.clone E y.datatype ≠ .ub ∧ GList.clone E y.scope ≠ .ub ∧ GList.clone E y.extent ≠ .ub) : Symbol.clone E l ≠ .ub := by
  have : ∀ (l : List (Symbol D)) (i : Nat) (acc : List (Symbol D)),
      (∀ y ∈ l, GList.clone E y.identifier ≠ .ub ∧ GList.clone E y.datatype ≠ .ub ∧ GList.clone E y.scope ≠ .ub ∧ GList.clone E y.extent ≠ .ub) → Symbol.ncloneLoop E (-1) i l acc ≠ .ub := by
    intro l
    induction l with
    | nil => intro i acc _ e; unfold Symbol.ncloneLoop at e; cases e
    | cons s l ih =>
      intro i acc h
      obtain ⟨h1, h2, h3, h4⟩ := h s List.mem_cons_self
      unfold Symbol.ncloneLoop
      rw [if_pos (Or.inl rfl)]
      refine bind_defined ?_ (fun _ _ => ih _ _ (fun y hy => h y (List.mem_cons_of_mem _ hy)))
      exact bind_defined h1 (fun _ _ => bind_defined h2 (fun _ _ => bind_defined h3 (fun _ _ => bind_defined h4 (fun _ _ e => by cases e))))
  exact this l 0 [] h

theorem symbol_equal_defined {D : Type} {E : Env D} {l m : List (Symbol D)}
    (h : ∀ y ∈ l, ∀ z ∈ m, GList.equal E y.identifier z.identifier ≠ .ub ∧ GList.equal E y.datatype z.datatype ≠ .ub ∧ GList.equal E y.scope z.scope ≠ .ub ∧ GList.equal E y.extent z.extent ≠ .ub) :
    Symbol.equal E l m ≠ .ub := by
  have A : ∀ {a b : Out Bool}, a ≠ .ub → b ≠ .ub → Symbol.andThen a b ≠ .ub := fun h h' => bind_defined h (fun _ _ => Data.ite_defined h' Data.ok_defined)
  cases l with
  | nil => cases m <;> exact Data.ok_defined
  | cons a l => cases m with
    | nil => exact Data.ok_defined
    | cons b m =>
      obtain ⟨h1, h2, h3, h4⟩ := h a List.mem_cons_self b List.mem_cons_self
      exact Data.ite_defined (A h1 (A h2 (A h3 h4))) Data.ok_defined

/-- Extensions of the library can be copied. -/
theorem copy_defined {c : Cfg} {e : Option Str} : ∀ (n : Nat) {l : GList (DataAt n)}, Copyable n l → GList.clone (envAt c e n) l ≠ .ub
  | 0, l, h => GList.clone_defined (fun g hg i hi => Data.env_clone_defined (c := c) (e := e) (sym := noSymbols) (fun h => h.elim) (fun s => nomatch s) (h g hg) hi)
  | n + 1, l, h => by
    refine GList.clone_defined (fun g hg i hi => Data.env_clone_defined (c := c) (e := e) (sym := Symbol.ops (envAt c e n) defaultRegistry) (fun _ => ?_) (fun s hs => ?_) (h g hg) hi)
    · exact bind_defined (symbol_clone_defined (fun _ h => by cases h)) (fun _ _ e => by cases e)
    · refine bind_defined (symbol_clone_defined (fun y hy => ?_)) (fun _ _ e => by cases e)
      obtain ⟨h1, h2, h3, h4⟩ := hs y hy
      exact ⟨copy_defined n h1, copy_defined n h2, copy_defined n h3, copy_defined n h4⟩

theorem full_iface {good : Data S → Prop} {g : Generic (Data S)} (h : Full good g) : ∃ i, g.interface = some i ∧ i.URI ≠ none := by
  obtain ⟨d, _, h2, _⟩ := h
  obtain ⟨i, h3, _, h4⟩ := Data.registry_get (Data.index_lt d)
  exact ⟨i, by rw [h2, h3], h4⟩

/-- Extensions of the library can be compared. -/
theorem match_defined {c : Cfg} {e : Option Str} : ∀ (n : Nat) {l m : GList (DataAt n)}, Matchable n l → Matchable n m → GList.equal (envAt c e n) l m ≠ .ub
  | 0, l, m, h, h' => GList.equal_defined (fun g hg => full_iface (h g hg)) (fun g hg => full_iface (h' g hg))
      (fun g hg g' hg' i hi hi' => Data.env_equal_defined (c := c) (e := e) (sym := noSymbols) (fun s => nomatch s) (h g hg) (h' g' hg') hi hi')
  | n + 1, l, m, h, h' => by
    refine GList.equal_defined (fun g hg => full_iface (h g hg)) (fun g hg => full_iface (h' g hg))
      (fun g hg g' hg' i hi hi' => Data.env_equal_defined (c := c) (e := e) (sym := Symbol.ops (envAt c e n) defaultRegistry) (fun s t hs ht => ?_) (h g hg) (h' g' hg') hi hi')
    refine symbol_equal_defined (l := NE.elems (some s)) (m := NE.elems (some t)) (fun y hy z hz => ?_)
    obtain ⟨h1, h2, h3, h4⟩ := hs y hy
    obtain ⟨h1', h2', h3', h4'⟩ := ht z hz
    exact ⟨match_defined n h1 h1', match_defined n h2 h2', match_defined n h3 h3', match_defined n h4 h4'⟩

theorem libAt_env (c : Cfg) (e : Option Str) (n : Nat) : (libAt c e n).toEnv = envAt c e n := by cases n <;> rfl

/-! ## Statements -/

namespace Stmts

variable {c : Cfg} {D : Type} {L : Lib D}

/-- Spec: the matrices of a statement are of the sizes their headers announce, and its extensions satisfy `ext`. -/
structure Shape (ext : GList D → Prop) (s : Stmt D) : Prop where
  domain : Rel.Shape s.domain
  scattering : Rel.Shape s.scattering
  access : ∀ r ∈ s.access, Rel.Shape r
  extension : ext s.extension

/-- Spec: the numbers of a statement are those of C `int` computations which do not overflow. -/
structure Small (s : Stmt D) : Prop where
  domain : Rel.Small s.domain
  scattering : Rel.Small s.scattering
  access : ∀ r ∈ s.access, Rel.Small r

theorem cloneOne_defined {s : Stmt D} (h : Shape (fun l => GList.clone L.toEnv l ≠ .ub) s) : cloneOne c L s ≠ .ub :=
  bind_defined (Rel.clone_defined h.domain) (fun _ _ => bind_defined (Rel.clone_defined h.scattering) (fun _ _ =>
    bind_defined (RList.clone_defined h.access) (fun _ _ => bind_defined h.extension (fun _ _ e => by cases e))))

theorem nclone_defined {l : Stmts D} {k : Int} (h : ∀ s ∈ l, Shape (fun l => GList.clone L.toEnv l ≠ .ub) s) : nclone c L l k ≠ .ub := by
  unfold nclone
  refine mapOut_defined (fun s hs => cloneOne_defined (h s ?_))
  split at hs
  · exact hs
  · exact List.mem_of_mem_take hs

theorem clone_defined {l : Stmts D} (h : ∀ s ∈ l, Shape (fun l => GList.clone L.toEnv l ≠ .ub) s) : clone c L l ≠ .ub := nclone_defined h

theorem clone_one_safe_defined {r : Rel} (h : Rel.Shape r) : clone_one_safe c r ≠ .ub := by
  unfold clone_one_safe
  split
  · intro e; cases e
  · exact Rel.nclone_defined h

theorem shape_tail {p : Part} {r : Rel} (h : Rel.Shape (p :: r)) : Rel.Shape r := (Rel.shape_iff r).mpr (fun q hq => (Rel.shape_iff _).mp h q (List.mem_cons_of_mem _ hq))

theorem unionOne_defined {s : Stmt D} {d t : Rel} (h : Shape (fun l => GList.clone L.toEnv l ≠ .ub) s) (hd : Rel.Shape d) (ht : Rel.Shape t) : unionOne c L s d t ≠ .ub :=
  bind_defined (clone_one_safe_defined hd) (fun _ _ => bind_defined (clone_one_safe_defined ht) (fun _ _ =>
    bind_defined (RList.clone_defined h.access) (fun _ _ => bind_defined h.extension (fun _ _ e => by cases e))))

theorem unionInner_defined {s : Stmt D} {d : Rel} (h : Shape (fun l => GList.clone L.toEnv l ≠ .ub) s) (hd : Rel.Shape d) : ∀ {t : Rel}, Rel.Shape t → unionInner c L s d t ≠ .ub
  | [], ht => bind_defined (unionOne_defined h hd ht) (fun _ _ e => by cases e)
  | [_], ht => bind_defined (unionOne_defined h hd ht) (fun _ _ e => by cases e)
  | _ :: _ :: _, ht => bind_defined (unionOne_defined h hd ht) (fun _ _ => bind_defined (unionInner_defined h hd (shape_tail ht)) (fun _ _ e => by cases e))

theorem unionOuter_defined {s : Stmt D} (h : Shape (fun l => GList.clone L.toEnv l ≠ .ub) s) : ∀ {d : Rel}, Rel.Shape d → unionOuter c L s d ≠ .ub
  | [], hd => unionInner_defined h hd h.scattering
  | [_], hd => unionInner_defined h hd h.scattering
  | _ :: _ :: _, hd => bind_defined (unionInner_defined h hd h.scattering) (fun _ _ => bind_defined (unionOuter_defined h (shape_tail hd)) (fun _ _ e => by cases e))

theorem remove_unions_defined {l : Stmts D} (h : ∀ s ∈ l, Shape (fun l => GList.clone L.toEnv l ≠ .ub) s) : remove_unions c L l ≠ .ub := by
  cases l with
  | nil => intro e; cases e
  | cons s l => exact unionOuter_defined (h s List.mem_cons_self) (h s List.mem_cons_self).domain

theorem equalOne_defined {a b : Stmt D} {P Q : GList D → Prop} (hPQ : ∀ x y, P x → Q y → GList.equal L.toEnv x y ≠ .ub) (ha : Shape P a) (hb : Shape Q b) :
    equalOne c L a b ≠ .ub := by
  have h1 := Rel.equal_defined (c := c) ha.domain hb.domain
  have h2 := Rel.equal_defined (c := c) ha.scattering hb.scattering
  have h3 := RList.equal_defined (c := c) ha.access hb.access
  unfold equalOne
  split
  · split
    · split
      · exact hPQ _ _ ha.extension hb.extension
      · exact h3
    · exact h2
  · exact h1

theorem equal_defined {P Q : GList D → Prop} (hPQ : ∀ x y, P x → Q y → GList.equal L.toEnv x y ≠ .ub) : ∀ {l m : Stmts D}, (l = [] ↔ m = []) → (∀ s ∈ l, Shape P s) → (∀ s ∈ m, Shape Q s) →
    equal c L l m ≠ .ub := by
  intro l
  induction l with
  | nil =>
    intro m h _ _
    rw [h.mp rfl]
    intro e; cases e
  | cons a l ih =>
    intro m h h1 h2
    cases m with
    | nil => exact absurd (h.mpr rfl) (by intro e; cases e)
    | cons b m =>
      have hab := equalOne_defined (c := c) hPQ (h1 a List.mem_cons_self) (h2 b List.mem_cons_self)
      cases l with
      | nil => cases m with
        | nil => exact hab
        | cons b' m => intro e; cases e
      | cons a' l => cases m with
        | nil => intro e; cases e
        | cons b' m =>
          have ih := ih (m := b' :: m) ⟨(fun e => by cases e), (fun e => by cases e)⟩ (fun x hx => h1 x (List.mem_cons_of_mem _ hx)) (fun x hx => h2 x (List.mem_cons_of_mem _ hx))
          unfold equal
          split
          · exact hab
          · exact ih

theorem integrity_check_defined (hc : c.Valid) {np : Int} : ∀ {l : Stmts D}, (∀ s ∈ l, Shape (fun x => lookupBody L x ≠ .ub) s) → (∀ s ∈ l, Small s) → integrity_check c L np l ≠ .ub
  | [], _, _ => by intro e; cases e
  | s :: l, h, h' => by
    have hs := h s List.mem_cons_self
    have hs' := h' s List.mem_cons_self
    have ih := integrity_check_defined hc (np := np) (fun x hx => h x (List.mem_cons_of_mem _ hx)) (fun x hx => h' x (List.mem_cons_of_mem _ hx))
    have one : integrityOne c L np s ≠ .ub := by
      unfold integrityOne
      split
      · dsimp only
        split
        · split
          · have := hs.extension
            split
            · intro e; cases e
            · intro e; cases e
            · next h => exact absurd h this
          · exact RList.integrity_check_defined hc hs.access hs'.access
        · exact Rel.integrity_check_defined hc hs.scattering hs'.scattering
      · exact Rel.integrity_check_defined hc hs.domain hs'.domain
    unfold integrity_check
    split
    · exact ih
    · exact one

end Stmts

/-- Spec: data which are a body. -/
def IsBody : (n : Nat) → DataAt n → Prop
  | 0, d => ∃ b, d = Data.body b
  | _ + 1, d => ∃ b, d = Data.body b

/-- Spec: what is found under the URI of bodies is a body. -/
def Bodied (n : Nat) (l : GList (DataAt n)) : Prop := ∀ g ∈ l, ∀ i, g.interface = some i → i.URI = some "body".toList → ∀ d, g.data = some d → IsBody n d

theorem lookupBody_defined {c : Cfg} {e : Option Str} {n : Nat} {l : GList (DataAt n)} (h : Bodied n l) : Stmts.lookupBody (libAt c e n).toLib l ≠ .ub := by
  have H : ∀ {l : GList (DataAt n)}, Bodied n l → ∀ d, GList.lookup l URI_BODY = some d → IsBody n d := by
    intro l
    induction l with
    | nil => intro _ d hd; cases hd
    | cons g l ih =>
      intro h d hd
      unfold GList.lookup at hd
      split at hd
      · next hu =>
        unfold GList.has_URI at hu
        split at hu
        · next i hi => exact h g List.mem_cons_self i hi (of_decide_eq_true hu) d hd
        · cases hu
      · exact ih (fun g hg => h g (List.mem_cons_of_mem _ hg)) d hd
  unfold Stmts.lookupBody
  split
  · intro e; cases e
  · next d hd =>
    have := H h d hd
    cases n with
    | zero =>
      obtain ⟨b, rfl⟩ := this
      intro e; cases e
    | succ n =>
      obtain ⟨b, rfl⟩ := this
      intro e; cases e

/-! ## Scops -/

namespace Scops

variable {c : Cfg} {D : Type} {L : Lib D}

/-- Spec: the same for a scop. -/
structure Shape (ext : GList D → Prop) (s : Scop D) : Prop where
  context : Rel.Shape s.context
  parameters : ext s.parameters
  statement : ∀ a ∈ s.statement, Stmts.Shape ext a
  extension : ext s.extension

theorem clone_defined {l : Scops D} (h : ∀ s ∈ l, Shape (fun l => GList.clone L.toEnv l ≠ .ub) s) : clone c L l ≠ .ub :=
  mapOut_defined (fun s hs => bind_defined (Rel.clone_defined (h s hs).context) (fun _ _ => bind_defined (h s hs).parameters (fun _ _ =>
    bind_defined (Stmts.clone_defined (h s hs).statement) (fun _ _ => bind_defined iface_clone_defined (fun _ _ => bind_defined (h s hs).extension (fun _ _ e => by cases e))))))

theorem unionsLoop_defined : ∀ {l acc : Stmts D} {ptr : Option Nat}, (∀ s ∈ l, Stmts.Shape (fun l => GList.clone L.toEnv l ≠ .ub) s) → unionsLoop c L l acc ptr ≠ .ub
  | [], _, _, _ => by unfold unionsLoop; intro e; cases e
  | s :: l, acc, ptr, h => by
    have ih : ∀ {acc ptr}, unionsLoop c L l acc ptr ≠ .ub := unionsLoop_defined (fun x hx => h x (List.mem_cons_of_mem _ hx))
    unfold unionsLoop
    refine bind_defined (Stmts.remove_unions_defined h) (fun _ _ => ?_)
    split <;> exact ih

theorem remove_unions_defined {l : Scops D} (h : ∀ s ∈ l, Shape (fun l => GList.clone L.toEnv l ≠ .ub) s) : remove_unions c L l ≠ .ub :=
  mapOut_defined (fun s hs => bind_defined (unionsLoop_defined (h s hs).statement) (fun _ _ => bind_defined (Rel.clone_defined (h s hs).context) (fun _ _ =>
    bind_defined (h s hs).extension (fun _ _ => bind_defined (h s hs).parameters (fun _ _ => bind_defined iface_clone_defined (fun _ _ e => by cases e))))))

/-- Spec: the scattering can be extended: all its parts have one precision, and as many output dimensions as there is place for. -/
def Extensible (r : Rel) : Prop := ∀ p ∈ r, ∀ q ∈ r, p.precision = q.precision ∧ -1 ≤ q.nb_output_dims ∧ q.nb_output_dims < q.nb_columns

theorem normalize_scattering_defined {l : Scops D} (h : ∀ s ∈ l, ∀ a ∈ s.statement, Rel.Shape a.scattering) (h' : ∀ s r, l = s :: r → ∀ a ∈ s.statement, Extensible a.scattering) :
    normalize_scattering c l ≠ .ub := by
  cases l with
  | nil => intro e; cases e
  | cons s l =>
    refine bind_defined (mapOut_defined (fun a ha => ?_)) (fun _ _ e => by cases e)
    have h1 := h s List.mem_cons_self a ha
    have h2 := h' s l rfl a ha
    unfold normalizeOne
    split
    · intro e; cases e
    · next p r hp =>
      rw [hp] at h1 h2
      exact bind_defined (Rel.extend_output_defined h1 (by intro e; cases e) h2) (fun _ _ e => by cases e)

/-- Spec: what the comparison of two scops needs besides: no language is missing, the lists of statements are both NULL or both not, and so are the first interfaces of the registries. -/
structure Alike (a b : Scop D) : Prop where
  languages : a.language ≠ none ∧ b.language ≠ none
  statements : a.statement = [] ↔ b.statement = []
  registries : ∀ i j, a.registry.head? = some i → b.registry.head? = some j → i.URI ≠ none ∧ j.URI ≠ none

theorem iface_equal_defined {a b : Option Iface} (h : ∀ i j, a = some i → b = some j → i.URI ≠ none ∧ j.URI ≠ none) : Ifaces.equal a b ≠ .ub := by
  cases a with
  | none => cases b <;> (intro e; cases e)
  | some i => cases b with
    | none => intro e; cases e
    | some j =>
      obtain ⟨h1, h2⟩ := h i j rfl rfl
      obtain ⟨u, hu⟩ := Option.ne_none_iff_exists'.mp h1
      obtain ⟨v, hv⟩ := Option.ne_none_iff_exists'.mp h2
      simp only [Ifaces.equal, hu, hv]
      intro e; cases e

theorem equalOne_defined {P : GList D → Prop} (hP : ∀ x y, P x → P y → GList.equal L.toEnv x y ≠ .ub) {a b : Scop D} (ha : Shape P a) (hb : Shape P b) (hab : Alike a b) :
    equalOne c L a b ≠ .ub := by
  obtain ⟨u, hu⟩ := Option.ne_none_iff_exists'.mp hab.languages.1
  obtain ⟨v, hv⟩ := Option.ne_none_iff_exists'.mp hab.languages.2
  have rest : equalRest c L a b ≠ .ub := by
    have h1 := Rel.equal_defined (c := c) ha.context hb.context
    have h2 := hP _ _ ha.parameters hb.parameters
    have h3 := Stmts.equal_defined (c := c) hP hab.statements ha.statement hb.statement
    have h4 := iface_equal_defined hab.registries
    unfold equalRest
    split
    · split
      · split
        · split
          · exact hP _ _ ha.extension hb.extension
          · exact h4
        · exact h3
      · exact h2
    · exact h1
  unfold equalOne
  split
  · intro e; cases e
  · rw [hu, hv]
    exact Data.ite_defined (fun e => by cases e) rest

theorem equal_defined {P : GList D → Prop} (hP : ∀ x y, P x → P y → GList.equal L.toEnv x y ≠ .ub) : ∀ {l m : Scops D}, (∀ s ∈ l, Shape P s) → (∀ s ∈ m, Shape P s) →
    (∀ a ∈ l, ∀ b ∈ m, Alike a b) → equal c L l m ≠ .ub
  | [], [], _, _, _ => by intro e; cases e
  | [], _ :: _, _, _, _ => by intro e; cases e
  | _ :: _, [], _, _, _ => by intro e; cases e
  | a :: l, b :: m, h, h', hab => by
    have ih := equal_defined hP (fun x hx => h x (List.mem_cons_of_mem _ hx)) (fun x hx => h' x (List.mem_cons_of_mem _ hx))
      (fun x hx y hy => hab x (List.mem_cons_of_mem _ hx) y (List.mem_cons_of_mem _ hy))
    have one := equalOne_defined (c := c) hP (h a List.mem_cons_self) (h' b List.mem_cons_self) (hab a List.mem_cons_self b List.mem_cons_self)
    unfold equal
    split
    · exact ih
    · exact one

theorem integrity_check_defined (hc : c.Valid) : ∀ {l : Scops D}, (∀ s ∈ l, Rel.Shape s.context ∧ ∀ a ∈ s.statement, Stmts.Shape (fun x => Stmts.lookupBody L x ≠ .ub) a) →
    (∀ s ∈ l, Rel.Small s.context ∧ ∀ a ∈ s.statement, Stmts.Small a) → integrity_check c L l ≠ .ub
  | [], _, _ => by intro e; cases e
  | s :: l, h, h' => by
    have hs := h s List.mem_cons_self
    have hs' := h' s List.mem_cons_self
    have ih := integrity_check_defined hc (fun x hx => h x (List.mem_cons_of_mem _ hx)) (fun x hx => h' x (List.mem_cons_of_mem _ hx))
    unfold integrity_check
    split
    · split
      · exact ih
      · exact Stmts.integrity_check_defined hc hs.2 hs'.2
    · exact Rel.integrity_check_defined hc hs.1 hs'.1

/-- Spec: what the check for the old format needs of a statement, `p` being the precision of the first one. -/
def Flat (p : Int) (a : Stmt D) : Prop := ∃ q r, a.scattering = q :: r ∧ q.precision = p ∧ q.nb_output_dims < q.nb_columns

theorem identRow_defined {q : Part} (hq : Rect q.m q.nb_rows q.nb_columns) {i : Int} (h0 : 0 ≤ i) (hi : i < q.nb_rows) : ∀ {k : Nat} {j : Int}, 0 ≤ j → (k = 0 ∨ j + k < q.nb_columns) →
    identRow c q.precision q i k j ≠ .ub
  | 0, _, _, _ => by intro e; cases e
  | k + 1, j, hj, hk => by
    unfold identRow
    refine bind_defined (get2_defined hq h0 hi (by omega) (by omega)) (fun v _ => ?_)
    rw [if_neg (fun h => h rfl)]
    refine bind_defined ?_ (fun _ _ => ?_)
    · split
      · unfold OInt.mone; split <;> (intro e; cases e)
      · exact OInt.zero_defined
    · exact Data.ite_defined (identRow_defined hq h0 hi (by omega) (by omega)) (fun e => by cases e)

theorem identRows_defined {q : Part} (hq : Rel.PShape q) (hn : q.nb_output_dims < q.nb_columns) : ∀ {k : Nat} {i : Int}, 0 ≤ i → i + k ≤ q.nb_rows → identRows c q.precision q k i ≠ .ub
  | 0, _, _, _ => by intro e; cases e
  | k + 1, i, hi, hk => by
    have := hq.2
    exact bind_defined (identRow_defined hq.1 hi (by omega) (by omega) (by omega)) (fun _ _ => identRows_defined hq hn (by omega) (by omega))

theorem scoplibLoop_defined {p : Int} : ∀ {l : Stmts D}, (∀ a ∈ l, Rel.Shape a.scattering ∧ Flat p a) → scoplibLoop c p l ≠ .ub
  | [], _ => by intro e; cases e
  | a :: l, h => by
    obtain ⟨h1, q, r, hq, rfl, hn⟩ := h a List.mem_cons_self
    rw [hq] at h1
    have hs := (Rel.shape_iff _).mp h1 q List.mem_cons_self
    have hl : (0 : Int) ≤ q.nb_rows := by have := hs.1.1; omega
    have ih := scoplibLoop_defined (fun x hx => h x (List.mem_cons_of_mem _ hx))
    unfold scoplibLoop
    rw [hq]
    refine Data.ite_defined (fun e => by cases e) (Data.ite_defined (fun e => by cases e) ?_)
    exact bind_defined (identRows_defined hs hn (by omega) (by omega)) (fun _ _ => ih)

theorem check_compatible_scoplib_defined (hc : c.Valid) {l : Scops D} (h : ∀ s ∈ l, Rel.Shape s.context ∧ ∀ a ∈ s.statement, Stmts.Shape (fun x => Stmts.lookupBody L x ≠ .ub) a)
    (h' : ∀ s ∈ l, Rel.Small s.context ∧ ∀ a ∈ s.statement, Stmts.Small a) (h0 : l ≠ []) (hf : ∀ s, l = [s] → ∃ p, ∀ a ∈ s.statement, Flat p a) : check_compatible_scoplib c L l ≠ .ub := by
  have h1 := integrity_check_defined hc h h'
  unfold check_compatible_scoplib
  split
  · split
    · exact absurd rfl h0
    · intro e; cases e
    · next s _ =>
      obtain ⟨p, hf⟩ := hf s rfl
      split
      · intro e; cases e
      · next a as ha =>
        obtain ⟨q, r, hq, hp, _⟩ := hf a (by rw [ha]; exact List.mem_cons_self)
        rw [hq]
        dsimp only
        rw [hp, ← ha]
        have := scoplibLoop_defined (c := c) (fun x hx => ⟨((h s List.mem_cons_self).2 x hx).scattering, hf x hx⟩)
        split
        · intro e; cases e
        · intro e; cases e
        · next h => exact absurd h this
  · exact h1

end Scops

end Osl
