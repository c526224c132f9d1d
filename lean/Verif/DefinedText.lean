import Verif.DefinedExt
import Verif.Dump
import Verif.ScopPrintProps
/-!
# C83: displays are defined

The display functions (`.._dump`) need integers whose texts fit the buffers, strings which are not NULL where they are written with `%s`, no NULL annotation, and no dependence with statements
which are NULL: the reader of dependences leaves them NULL, so the display of a dependence which was read is never defined.
-/

namespace Osl

open Osl.Ext

/-! ## Specification -/

/-- Spec: the texts of the integers of a relation fit a buffer of OSL_MAX_STRING bytes. -/
def Rel.Short (r : Rel) : Prop := ∀ p ∈ r, ∀ row ∈ p.m, ∀ v ∈ row, (showInt v).length < MAX_STRING

namespace Data

variable {S : Type}

/-- Spec: no string which the display writes is missing, the matrices are of the sizes of their headers and their integers fit the buffers, there is no dependence; `sym` is what is asked of
the symbols. -/
def Displayable (sym : S → Prop) : Data S → Prop
  | .relation x => Rel.Shape (NE.elems (some x)) ∧ Rel.Short (NE.elems (some x))
  | .textual x => x.textual ≠ none
  | .comment x => x.comment ≠ none
  | .clay x => x.script ≠ none
  | .dependence _ => False
  | .symbols s => sym s
  | .loop x => ∀ l ∈ NE.elems (some x), l.iter ≠ none ∧ l.private_vars ≠ none ∧ l.user ≠ none
  | .unroll x => ∀ l ∈ NE.elems (some x), l.iter ≠ none
  | _ => True

end Data

/-- Spec: the extensions can be displayed, those of the symbols too. -/
def Showable : (n : Nat) → GList (DataAt n) → Prop
  | 0, l => ∀ g ∈ l, Own False (Data.Displayable (fun _ : Empty => True)) g
  | n + 1, l => ∀ g ∈ l, Own True (Data.Displayable (fun s : NE (Symbol (DataAt n)) => ∀ y ∈ NE.elems (some s),
      Showable n y.identifier ∧ Showable n y.datatype ∧ Showable n y.scope ∧ Showable n y.extent)) g

namespace Dump

variable {c : Cfg}

theorem cat_defined {α : Type} {f : α → Out Str} : ∀ {l : List α}, (∀ a ∈ l, f a ≠ .ub) → cat f l ≠ .ub
  | [], _ => by intro e; cases e
  | a :: l, h => bind_defined (h a List.mem_cons_self) (fun _ _ => bind_defined (cat_defined (fun x hx => h x (List.mem_cons_of_mem _ hx))) (fun _ _ e => by cases e))

theorem nodes_defined {α : Type} {head : Nat → α → Str} {body : α → Out Str} {sep : Str} : ∀ {l : List α} {k : Nat}, (∀ a ∈ l, body a ≠ .ub) → nodes head body sep k l ≠ .ub
  | [], _, _ => by intro e; cases e
  | a :: l, k, h => bind_defined (h a List.mem_cons_self) (fun _ _ => bind_defined (nodes_defined (fun x hx => h x (List.mem_cons_of_mem _ hx))) (fun _ _ e => by cases e))

theorem str_defined {s : Option Str} (h : s ≠ none) : Ext.str s ≠ .ub := by
  cases s with
  | none => exact absurd rfl h
  | some s => intro e; cases e

theorem int_defined {p v : Int} (h : (showInt v).length < MAX_STRING) : int c p v ≠ .ub := by
  unfold int OInt.sprint
  split
  · show Ext.buf (padLeft 4 (showInt v)) ≠ .ub
    unfold Ext.buf
    have hl : (padLeft 4 (showInt v)).length = 4 - (showInt v).length + (showInt v).length := by
      unfold padLeft
      rw [List.length_append, List.length_replicate]
    rw [if_pos (by rw [hl]; unfold MAX_STRING at h ⊢; omega)]
    intro e; cases e
  · intro e; cases e

theorem relation_defined {r : Rel} {n : Nat} (h : Rel.Shape r) (hs : Rel.Short r) : relation c r n ≠ .ub := by
  refine bind_defined (nodes_defined (fun p hp => ?_)) (fun _ _ e => by cases e)
  have hr := ((Rel.shape_iff r).mp h p hp).1
  refine bind_defined (cat_defined (fun i hi => ?_)) (fun _ _ e => by cases e)
  have hi := List.mem_range.mp hi
  refine bind_defined (cat_defined (fun j hj => ?_)) (fun _ _ e => by cases e)
  have hj := List.mem_range.mp hj
  refine bind_defined (get2_defined hr (by omega) (by omega) (by omega) (by omega)) (fun v hv => ?_)
  refine bind_defined (int_defined ?_) (fun _ _ e => by cases e)
  obtain ⟨row, h1, h2⟩ := Rel.get2_mem hv
  exact hs p hp row h1 v h2

theorem relation_list_defined {l : RList} {n : Nat} (h : ∀ r ∈ l, Rel.Shape r) (hs : ∀ r ∈ l, Rel.Short r) : relation_list c l n ≠ .ub :=
  bind_defined (nodes_defined (fun r hr => bind_defined (relation_defined (h r hr) (hs r hr)) (fun _ _ e => by cases e))) (fun _ _ e => by cases e)

theorem interface_defined {l : Ifaces} {n : Nat} (h : ∀ i, l.head? = some i → i.URI ≠ none) : interface l n ≠ .ub := by
  unfold interface
  cases l with
  | nil => exact bind_defined (fun e => by cases e) (fun _ _ => bind_defined (nodes_defined (fun _ _ e => by cases e)) (fun _ _ e => by cases e))
  | cons i l =>
    exact bind_defined (bind_defined (str_defined (h i rfl)) (fun _ _ e => by cases e)) (fun _ _ => bind_defined (nodes_defined (fun _ _ e => by cases e)) (fun _ _ e => by cases e))

theorem generic_defined {D : Type} {F : Fn D} {l : GList D} {n : Nat} (h : ∀ g ∈ l, (∀ i, g.interface = some i → i.URI ≠ none ∧ ∀ k, F i.fns.idump g.data k ≠ .ub)) : generic F l n ≠ .ub := by
  refine bind_defined (nodes_defined (fun g hg => ?_)) (fun _ _ e => by cases e)
  have h := h g hg
  unfold genericBody
  cases hi : g.interface with
  | none => exact bind_defined (interface_defined (fun i h => by cases h)) (fun _ _ => bind_defined (fun e => by cases e) (fun _ _ e => by cases e))
  | some i =>
    obtain ⟨h1, h2⟩ := h i hi
    refine bind_defined (interface_defined (fun j h => ?_)) (fun _ _ => bind_defined (h2 _) (fun _ _ e => by cases e))
    injection h with h
    rw [← h]
    exact h1

/-! ## The data -/

variable {S : Type} {sym : Option S → Nat → Out Str}

theorem fns_defined {nosym : Prop} {P : S → Prop} (h0 : nosym → ∀ k, sym none k ≠ .ub) (hS : ∀ s, P s → ∀ k, sym (some s) k ≠ .ub) {g : Generic (Data S)}
    (h : Own nosym (Data.Displayable P) g) {i : Iface} (hi : g.interface = some i) (n : Nat) : fns c sym i.fns.idump g.data n ≠ .ub := by
  obtain ⟨k, hk, h1, h2⟩ := h
  obtain ⟨j, h3, h4, _⟩ := Data.registry_get hk
  have hij : i = j := by rw [hi, h3] at h1; injection h1
  subst hij
  rw [h4]
  show (match (table c sym)[k]? with | some f => f g.data n | none => .ub) ≠ .ub
  cases hd : g.data with
  | some d =>
    rw [hd] at h2
    obtain ⟨rfl, h2⟩ := h2
    have V : ∀ {X : Type} {k : Data.Kind S X} {f : Option X → Nat → Out Str} {x : X}, f (some x) n ≠ .ub → lift k f (some (k.inj x)) n ≠ .ub := fun {X k f x} h => by
      simp only [lift, k.proj_inj]
      exact h
    cases d with
    | relation x => exact V (k := Data.kRelation) (f := fun x n => relation c (NE.elems x) n) (x := x) (relation_defined h2.1 h2.2)
    | dependence x => exact h2.elim
    | symbols s => exact V (k := Data.kSymbols) (f := sym) (x := s) (hS s h2 n)
    | strings x => exact V (k := Data.kStrings) (f := fun x n => .ok (strings x n)) (x := x) (fun e => by cases e)
    | body x => exact V (k := Data.kBody) (f := fun x n => .ok (body x n)) (x := x) (fun e => by cases e)
    | textual x => exact V (k := Data.kTextual) (f := textual) (x := x) (bind_defined (str_defined h2) (fun _ _ e => by cases e))
    | comment x => exact V (k := Data.kComment) (f := comment) (x := x) (bind_defined (str_defined h2) (fun _ _ e => by cases e))
    | null x => exact V (k := Data.kNull) (f := fun x n => .ok (null x n)) (x := x) (fun e => by cases e)
    | scatinfos x => exact V (k := Data.kScatinfos) (f := fun x n => .ok (scatinfos x n)) (x := x) (fun e => by cases e)
    | scatnames x => exact V (k := Data.kScatnames) (f := fun x n => .ok (scatnames x n)) (x := x) (fun e => by cases e)
    | arrays x => exact V (k := Data.kArrays) (f := fun x n => .ok (arrays x n)) (x := x) (fun e => by cases e)
    | coordinates x => exact V (k := Data.kCoordinates) (f := fun x n => .ok (coordinates x n)) (x := x) (fun e => by cases e)
    | clay x => exact V (k := Data.kClay) (f := clay) (x := x) (bind_defined (str_defined h2) (fun _ _ e => by cases e))
    | extbody x => exact V (k := Data.kExtbody) (f := fun x n => .ok (extbody x n)) (x := x) (fun e => by cases e)
    | loop x =>
      refine V (k := Data.kLoop) (f := fun x n => loop (NE.elems x) n) (x := x) (bind_defined (nodes_defined (fun l hl => ?_)) (fun _ _ e => by cases e))
      obtain ⟨ha, hb, hc⟩ := h2 l hl
      exact bind_defined (str_defined ha) (fun _ _ => bind_defined (str_defined hb) (fun _ _ => bind_defined (str_defined hc) (fun _ _ e => by cases e)))
    | unroll x =>
      refine V (k := Data.kUnroll) (f := fun x n => unroll (NE.elems x) n) (x := x) (bind_defined (nodes_defined (fun l hl => ?_)) (fun _ _ e => by cases e))
      exact bind_defined (str_defined (h2 l hl)) (fun _ _ e => by cases e)
    | region x => exact V (k := Data.kRegion) (f := fun x n => region (NE.elems x) n) (x := x) (bind_defined (nodes_defined (fun _ _ e => by cases e)) (fun _ _ e => by cases e))
    | annotation x => exact V (k := Data.kAnnotation) (f := annotation) (x := x) (fun e => by cases e)
  | none =>
    rw [hd] at h2
    have A : ∀ sym : Option S → Nat → Out Str, (∀ k, sym none k ≠ .ub) → ∀ f ∈ (table c sym).take 17, f none n ≠ .ub := by
      intro sym h0
      unfold table
      refine List.forall_mem_cons.mpr ⟨(fun e => by cases e), ?_⟩
      refine List.forall_mem_cons.mpr ⟨(fun e => by cases e), ?_⟩
      refine List.forall_mem_cons.mpr ⟨(fun e => by cases e), ?_⟩
      refine List.forall_mem_cons.mpr ⟨(fun e => by cases e), ?_⟩
      refine List.forall_mem_cons.mpr ⟨(fun e => by cases e), ?_⟩
      refine List.forall_mem_cons.mpr ⟨(fun e => by cases e), ?_⟩
      refine List.forall_mem_cons.mpr ⟨(fun e => by cases e), ?_⟩
      refine List.forall_mem_cons.mpr ⟨(fun e => by cases e), ?_⟩
      refine List.forall_mem_cons.mpr ⟨(fun e => by cases e), ?_⟩
      refine List.forall_mem_cons.mpr ⟨(fun e => by cases e), ?_⟩
      refine List.forall_mem_cons.mpr ⟨(fun e => by cases e), ?_⟩
      refine List.forall_mem_cons.mpr ⟨(fun e => by cases e), ?_⟩
      refine List.forall_mem_cons.mpr ⟨h0 n, ?_⟩
      refine List.forall_mem_cons.mpr ⟨(fun e => by cases e), ?_⟩
      refine List.forall_mem_cons.mpr ⟨(fun e => by cases e), ?_⟩
      refine List.forall_mem_cons.mpr ⟨(fun e => by cases e), ?_⟩
      refine List.forall_mem_cons.mpr ⟨(fun e => by cases e), ?_⟩
      exact fun _ h => by cases h
    have hk : k < 17 := by have := h2.1; omega
    have hL : (table c sym)[k]? = ((table c sym).take 17)[k]? := by rw [List.getElem?_take, if_pos hk]
    by_cases h12 : k = 12
    · rw [hL]
      cases ho : ((table c sym).take 17)[k]? with
      | none => exact absurd (List.getElem?_eq_none_iff.mp ho) (by rw [List.length_take]; show ¬ min 17 18 ≤ k; omega)
      | some f => exact A sym (h0 (h2.2 h12)) f (List.mem_of_getElem? ho)
    · have hT : (table c sym)[k]? = ((table c (fun _ _ => .ok [])).take 17)[k]? := by
        rw [hL, show table c (fun _ _ => .ok []) = (table c sym).set 12 (lift Data.kSymbols (fun _ _ => .ok [])) from rfl, List.getElem?_take, if_pos hk, List.getElem?_take, if_pos hk,
          List.getElem?_set_ne (fun e => h12 e.symm)]
      rw [hT]
      cases ho : ((table (S := S) c (fun _ _ => .ok [])).take 17)[k]? with
      | none => exact absurd (List.getElem?_eq_none_iff.mp ho) (by rw [List.length_take]; show ¬ min 17 18 ≤ k; omega)
      | some f => exact A (fun _ _ => .ok []) (fun _ e => by cases e) f (List.mem_of_getElem? ho)

theorem own_iface {nosym : Prop} {good : Data S → Prop} {g : Generic (Data S)} (h : Own nosym good g) {i : Iface} (hi : g.interface = some i) : i.URI ≠ none := by
  obtain ⟨k, hk, h1, _⟩ := h
  obtain ⟨j, h3, _, h4⟩ := Data.registry_get hk
  rw [hi, h3] at h1
  injection h1 with h1
  rw [h1]
  exact h4

theorem symbols_defined {D : Type} {F : Fn D} {l : List (Symbol D)} {n : Nat}
    (h : ∀ y ∈ l, ∀ k, generic F y.identifier k ≠ .ub ∧ generic F y.datatype k ≠ .ub ∧ generic F y.scope k ≠ .ub ∧ generic F y.extent k ≠ .ub) : symbols F l n ≠ .ub := by
  refine bind_defined (nodes_defined (fun y hy => ?_)) (fun _ _ e => by cases e)
  obtain ⟨h1, h2, h3, h4⟩ := h y hy (n + 1)
  exact bind_defined h1 (fun _ _ => bind_defined h2 (fun _ _ => bind_defined h3 (fun _ _ => bind_defined h4 (fun _ _ e => by cases e))))

/-- Extensions of the library can be displayed. -/
theorem show_defined : ∀ (n : Nat) {l : GList (DataAt n)} {k : Nat}, Showable n l → generic (fnsAt c n) l k ≠ .ub
  | 0, l, k, h => generic_defined (fun g hg i hi => ⟨own_iface (h g hg) hi, fun k => fns_defined (c := c) (sym := fun (_ : Option Empty) _ => .ub) (fun h => h.elim) (fun s => nomatch s) (h g hg) hi k⟩)
  | n + 1, l, k, h => by
    refine generic_defined (fun g hg i hi => ⟨own_iface (h g hg) hi, fun k => fns_defined (c := c) (sym := fun x level => symbols (fnsAt c n) (NE.elems x) level) (fun _ k => ?_) (fun s hs k => ?_) (h g hg) hi k⟩)
    · exact symbols_defined (fun _ h => by cases h)
    · refine symbols_defined (fun y hy k => ?_)
      obtain ⟨h1, h2, h3, h4⟩ := hs y hy
      exact ⟨show_defined n h1, show_defined n h2, show_defined n h3, show_defined n h4⟩

/-! ## Statements and scops -/

theorem statement_defined {D : Type} {F : Fn D} {l : Stmts D} {n : Nat} (h : ∀ s ∈ l, Stmts.Shape (fun l => ∀ k, generic F l k ≠ .ub) s)
    (hs : ∀ s ∈ l, Rel.Short s.domain ∧ Rel.Short s.scattering ∧ ∀ r ∈ s.access, Rel.Short r) : statement c F l n ≠ .ub := by
  refine bind_defined (nodes_defined (fun s hm => ?_)) (fun _ _ e => by cases e)
  have h := h s hm
  have hs := hs s hm
  exact bind_defined (relation_defined h.domain hs.1) (fun _ _ => bind_defined (relation_defined h.scattering hs.2.1) (fun _ _ =>
    bind_defined (relation_list_defined h.access hs.2.2) (fun _ _ => bind_defined (h.extension _) (fun _ _ e => by cases e))))

theorem scop_defined {D : Type} {F : Fn D} {l : Scops D} {n : Nat} (h : ∀ s ∈ l, Scops.Shape (fun l => ∀ k, generic F l k ≠ .ub) s)
    (hs : ∀ s ∈ l, s.language ≠ none ∧ (∀ i, s.registry.head? = some i → i.URI ≠ none) ∧ Rel.Short s.context ∧
      ∀ a ∈ s.statement, Rel.Short a.domain ∧ Rel.Short a.scattering ∧ ∀ r ∈ a.access, Rel.Short r) : scop c F l n ≠ .ub := by
  refine bind_defined (nodes_defined (fun s hm => ?_)) (fun _ _ e => by cases e)
  have h := h s hm
  obtain ⟨h1, h2, h3, h4⟩ := hs s hm
  exact bind_defined (str_defined h1) (fun _ _ => bind_defined (relation_defined h.context h3) (fun _ _ => bind_defined (h.parameters _) (fun _ _ =>
    bind_defined (statement_defined h.statement h4) (fun _ _ => bind_defined (interface_defined h2) (fun _ _ => bind_defined (h.extension _) (fun _ _ e => by cases e))))))

end Dump

namespace RList

/-- A list of relations is printed if each of them is. -/
theorem print_defined {c : Cfg} (hc : c.Valid) (hd : c.ndebug = false) {l : RList} (h : ∀ r ∈ l, Rel.Prints c r) : print c l ≠ .ub := by
  have L : ∀ {l : RList}, (∀ r ∈ l, Rel.Prints c r) → eltsLoop c none l ≠ .ub := by
    intro l
    induction l with
    | nil => intro _ e; cases e
    | cons r l ih =>
      intro h
      have ih := ih (fun x hx => h x (List.mem_cons_of_mem _ hx))
      cases r with
      | nil => exact ih
      | cons p r =>
        have hr := h (p :: r) List.mem_cons_self
        obtain ⟨t, ht⟩ := Rel.relation_sprint_total hc hd hr.parts hr.typed
        refine bind_defined ?_ (fun _ _ => bind_defined ih (fun _ _ e => by cases e))
        show Rel.sprint c (p :: r) ≠ .ub
        rw [ht]
        intro e; cases e
  refine bind_defined ?_ (fun _ _ e => by cases e)
  unfold pprint_elts
  split
  · exact L h
  · intro e; cases e

end RList
end Osl
