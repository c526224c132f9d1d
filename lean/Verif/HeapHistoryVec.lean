import Verif.HeapHistoryCalls
set_option linter.unusedSectionVars false
/-!
# Histories of calls in memory (C81): vectors

A variable which holds a vector, in the calls of source/vector.c and source/relation.c.
-/

namespace Osl.Client

open Osl.Mem Osl.Ext

/-- What a variable which holds a vector or NULL is. -/
theorem vector_ok {v : List Vec} {a : Option Vec} (h : vector v = .ok a) : v = a.toList := by
  match v, h with
  | [], h => cases h; rfl
  | [_], h => cases h; rfl
  | _ :: _ :: _, h => cases h

variable [Allocator] {c : Cfg}

theorem vecsAt_toList (p : Ptr) (a : Option Vec) : vecsAt c p a.toList = optVecAt c p a := by
  cases a <;> rfl

theorem vector_free_spec (p : Ptr) (v : List Vec) : Triple (vecsAt c p v) (vecFree c p) (fun _ => emp) := by
  match v with
  | [] =>
    show Triple (pur (p = 0)) _ _
    refine Triple.fact1 (fun hp => ?_)
    subst hp
    exact vector_free_null_memory
  | [v] => exact vector_free_memory p v
  | _ :: _ :: _ =>
    show Triple (pur False) _ _
    exact Triple.fact1 (fun hp => hp.elim)

/-- A function which makes a vector of a vector; it is not defined on NULL. -/
theorem on_vector_spec {f : Option Vec → Out Vec} {m : Ptr → M Ptr} (h0 : ∀ {z}, f none = .ok z → False)
    (hm : ∀ {x z} (_ : Unit), f (some x) = .ok z → ∀ p, Triple (vecAt c p x) (m p) (fun q => vecAt c p x ∗ vecAt c q z))
    {w r : List Vec} (h : onVector f w = .ok r) (q : Ptr) : Triple (vecsAt c q w) (m q) (fun p => vecsAt c q w ∗ vecsAt c p r) := by
  obtain ⟨a, ha, h⟩ := Out.bind_eq_ok.mp h
  obtain ⟨b, hb, h⟩ := Out.bind_eq_ok.mp h
  cases h
  rw [vector_ok ha]
  cases a with
  | none => exact (h0 hb).elim
  | some x => exact hm () hb q

/-- A function which changes a vector in place. -/
theorem change_vector_spec {f : Option Vec → Out Vec} {m : Ptr → M Unit} (h0 : ∀ {z}, f none = .ok z → False)
    (hm : ∀ {x z} (_ : Unit), f (some x) = .ok z → ∀ p, Triple (vecAt c p x) (m p) (fun _ => vecAt c p z))
    {w r : List Vec} (h : onVector f w = .ok r) (q : Ptr) : Triple (vecsAt c q w) (m q) (fun _ => vecsAt c q r) := by
  obtain ⟨a, ha, h⟩ := Out.bind_eq_ok.mp h
  obtain ⟨b, hb, h⟩ := Out.bind_eq_ok.mp h
  cases h
  rw [vector_ok ha]
  cases a with
  | none => exact (h0 hb).elim
  | some x => exact hm () hb q

/-- A function which makes a vector of two vectors. -/
theorem on_vectors_spec {f : Option Vec → Option Vec → Out Vec} {m : Ptr → Ptr → M Ptr} (h0 : ∀ {a b z}, f a b = .ok z → a.isSome ∧ b.isSome)
    (hm : ∀ {x y z} (_ _ : Unit), f (some x) (some y) = .ok z → ∀ p q, Triple (vecAt c p x ∗ vecAt c q y) (m p q) (fun s => vecAt c p x ∗ vecAt c q y ∗ vecAt c s z))
    {w u r : List Vec} (h : onVectors f w u = .ok r) (q s : Ptr) :
    Triple (vecsAt c q w ∗ vecsAt c s u) (m q s) (fun p => (vecsAt c q w ∗ vecsAt c s u) ∗ vecsAt c p r) := by
  obtain ⟨a, ha, h⟩ := Out.bind_eq_ok.mp h
  obtain ⟨b, hb, h⟩ := Out.bind_eq_ok.mp h
  obtain ⟨z, hz, h⟩ := Out.bind_eq_ok.mp h
  cases h
  rw [vector_ok ha, vector_ok hb]
  obtain ⟨h1, h2⟩ := h0 hz
  match a, b, h1, h2 with
  | some x, some y, _, _ =>
    refine (hm () () hz q s).post (fun p h hh => ?_)
    rw [sep_assoc]
    exact hh

/-- The same of one vector, given twice. -/
theorem on_same_vectors_spec {f : Option Vec → Option Vec → Out Vec} {m : Ptr → Ptr → M Ptr} (h0 : ∀ {z}, f none none = .ok z → False)
    (hm : ∀ {x z} (_ : Unit), f (some x) (some x) = .ok z → ∀ p, Triple (vecAt c p x) (m p p) (fun s => vecAt c p x ∗ vecAt c s z))
    {w r : List Vec} (h : onVectors f w w = .ok r) (q : Ptr) : Triple (vecsAt c q w) (m q q) (fun p => vecsAt c q w ∗ vecsAt c p r) := by
  obtain ⟨a, ha, h⟩ := Out.bind_eq_ok.mp h
  obtain ⟨b, hb, h⟩ := Out.bind_eq_ok.mp h
  obtain ⟨z, hz, h⟩ := Out.bind_eq_ok.mp h
  cases h
  rw [ha] at hb
  cases hb
  rw [vector_ok ha]
  cases a with
  | none => exact (h0 hz).elim
  | some x => exact hm () hz q

/-- A function which changes a relation after a vector, and is not defined on NULL. -/
theorem with_vector_spec {f : Option Vec → Out Rel} {v : Rel} {m : Ptr → Ptr → M Unit} (h0 : ∀ {z}, f none = .ok z → False)
    (hm : ∀ {x z} (_ : Unit), f (some x) = .ok z → ∀ p q, Triple (relAt c p v ∗ vecAt c q x) (m p q) (fun _ => relAt c p z ∗ vecAt c q x))
    {w : List Vec} {r : Rel} (h : (do let a ← vector w; f a) = .ok r) (p q : Ptr) :
    Triple (relAt c p v ∗ vecsAt c q w) (m p q) (fun _ => relAt c p r ∗ vecsAt c q w) := by
  obtain ⟨a, ha, h⟩ := Out.bind_eq_ok.mp h
  rw [vector_ok ha]
  cases a with
  | none => exact (h0 h).elim
  | some x => exact hm () h p q

theorem from_vector_spec {w : List Vec} {r : Rel} (h : (do let a ← vector w; Rel.from_vector c a) = .ok r) (q : Ptr) :
    Triple (vecsAt c q w) (relFromVector c q) (fun p => vecsAt c q w ∗ relAt c p r) := by
  obtain ⟨a, ha, h⟩ := Out.bind_eq_ok.mp h
  rw [vector_ok ha, vecsAt_toList]
  exact relation_from_vector_memory h q

theorem insert_vector_spec {v r : Rel} {w : List Vec} {row : Int} (h : (do let a ← vector w; Rel.insert_vector c v a row) = .ok r) (p q : Ptr) :
    Triple (relAt c p v ∗ vecsAt c q w) (relInsertVector c p q row) (fun _ => relAt c p r ∗ vecsAt c q w) := by
  obtain ⟨a, ha, h⟩ := Out.bind_eq_ok.mp h
  rw [vector_ok ha, vecsAt_toList]
  exact relation_insert_vector_memory h p q

theorem concat_vector_spec {v r : Rel} {w : List Vec} (h : (do let a ← vector w; Rel.concat_vector c v a) = .ok r) (p q : Ptr) :
    Triple (relAt c p v ∗ vecsAt c q w) (relConcatVector c p q) (fun s => (relAt c p v ∗ vecsAt c q w) ∗ relAt c s r) := by
  obtain ⟨a, ha, h⟩ := Out.bind_eq_ok.mp h
  rw [vector_ok ha, vecsAt_toList]
  refine (relation_concat_vector_memory h p q).post (fun s h hh => ?_)
  rw [sep_assoc]
  exact hh

theorem vector_equal_spec {v w : List Vec} {b : Bool} (h : (do let x ← vector v; let y ← vector w; Vec.equal c x y) = .ok b) (p q : Ptr) :
    Triple (vecsAt c p v ∗ vecsAt c q w) (vecEqual c p q) (fun a => pur (a = b) ∗ vecsAt c p v ∗ vecsAt c q w) := by
  obtain ⟨x, hx, h⟩ := Out.bind_eq_ok.mp h
  obtain ⟨y, hy, h⟩ := Out.bind_eq_ok.mp h
  rw [vector_ok hx, vector_ok hy]
  match x, y, h with
  | none, none, h =>
    cases h
    show Triple (pur (p = 0) ∗ pur (q = 0)) _ (fun a => pur (a = true) ∗ pur (p = 0) ∗ pur (q = 0))
    refine Triple.fact (fun hp => Triple.fact1 (fun hq => ?_))
    subst hp hq
    exact Triple.ret (fun h0 hh => pur_sep_iff.mpr ⟨rfl, pur_sep_iff.mpr ⟨rfl, rfl, hh⟩⟩)
  | some x, some y, h =>
    refine (vector_equal_memory h p q).post (fun a h0 hh => ?_)
    exact hh.perm (by show _ = (pur (a = b) ∗ vecAt c p x ∗ vecAt c q y); ac_rfl)
  | none, some _, h => cases h
  | some _, none, h => cases h

theorem vector_equal_self_spec (v : List Vec) (p : Ptr) : Triple (vecsAt c p v) (vecEqual c p p) (fun a => pur (a = true) ∗ vecsAt c p v) := by
  unfold vecEqual
  rw [if_pos rfl]
  exact Triple.ret (fun h0 hh => pur_sep_iff.mpr ⟨rfl, hh⟩)

theorem vector_is_scalar_spec {v : List Vec} {b : Bool} (h : (do let x ← vector v; Vec.is_scalar c x) = .ok b) (p : Ptr) :
    Triple (vecsAt c p v) (vecIsScalar c p) (fun a => pur (a = b) ∗ vecsAt c p v) := by
  obtain ⟨x, hx, h⟩ := Out.bind_eq_ok.mp h
  rw [vector_ok hx]
  cases x with
  | none =>
    cases h
    show Triple (pur (p = 0)) _ (fun a => pur (a = false) ∗ pur (p = 0))
    refine Triple.fact1 (fun hp => ?_)
    subst hp
    exact Triple.ret (fun h0 hh => pur_sep_iff.mpr ⟨rfl, rfl, hh⟩)
  | some x => exact (vector_is_scalar_memory h p).post (fun a h0 hh => hh.perm (sep_comm _ _))

end Osl.Client
