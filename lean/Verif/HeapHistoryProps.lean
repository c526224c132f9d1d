import Verif.HeapHistory
import Verif.HeapTac
set_option linter.unusedSectionVars false
/-!
# Histories of calls in memory (C81): the variables

The memory of the variables of a client, and the rules for calls on one, two, three variables.
-/

namespace Osl.Client

open Osl.Mem Osl.Ext

variable [Allocator] {c : Cfg} {e : Option Str} {release : Str} {n : Nat}

/-- The memory of a variable which holds a vector, or NULL. -/
def vecsAt (c : Cfg) (p : Ptr) : List Vec → Assn
  | [] => pur (p = 0)
  | [v] => vecAt c p v
  | _ => pur False

/-- The pointer `p` holds a value of type `k`. -/
def valueAt (c : Cfg) (e : Option Str) (n : Nat) : (k : Ty) → Ptr → Value n k → Assn
  | .rel, p, r => relAt c p r
  | .list, p, l => rlistAt c p l
  | .stmt, p, l => libStmtsAt c e n p l
  | .scop, p, l => libScopsAt c e n p l
  | .gen, p, l => glistAt (libMem c e n) p l
  | .vec, p, l => vecsAt c p l

/-- The pointers of the client hold the values of its variables, in separate parts of the memory. -/
def varsAt (c : Cfg) (e : Option Str) (n : Nat) : List Ptr → State n → Assn
  | [], [] => emp
  | p :: ps, v :: σ => valueAt c e n v.ty p v.value ∗ varsAt c e n ps σ
  | _, _ => pur False

theorem valueAt_null (k : Ty) (p : Ptr) : valueAt c e n k p [] = pur (p = 0) := by
  cases k
  · exact relAt_nil_eq
  all_goals rfl

theorem valueAt_nil (k : Ty) : valueAt c e n k 0 [] = emp := by
  rw [valueAt_null]
  funext h
  exact propext ⟨fun hh => hh.2, fun hh => ⟨rfl, hh⟩⟩

theorem varsAt_length : ∀ (ps : List Ptr) (σ : State n) (h : PHeap), varsAt c e n ps σ h → ps.length = σ.length
  | [], [], _, _ => rfl
  | [], _ :: _, _, hh => hh.1.elim
  | _ :: _, [], _, hh => hh.1.elim
  | p :: ps, v :: σ, h, hh => by
    obtain ⟨_, b, _, _, _, hb⟩ := hh
    simp only [List.length_cons, varsAt_length ps σ b hb]

/-- One variable is separate from the others. -/
theorem varsAt_split : ∀ {ps : List Ptr} {σ : State n} {x : Nat} {p : Ptr} {k : Ty} {v : Value n k}, ps[x]? = some p → σ[x]? = some ⟨k, v⟩ →
    varsAt c e n ps σ = (valueAt c e n k p v ∗ varsAt c e n (ps.set x 0) (σ.set x ⟨k, []⟩))
  | [], _, x, _, _, _, hp, _ => by simp at hp
  | _ :: _, [], x, _, _, _, _, hv => by simp at hv
  | q :: ps, w :: σ, 0, p, k, v, hp, hv => by
    simp only [List.getElem?_cons_zero, Option.some.injEq] at hp hv
    subst hp hv
    simp only [List.set_cons_zero, varsAt, valueAt_nil, emp_sep]
  | q :: ps, w :: σ, x + 1, p, k, v, hp, hv => by
    simp only [List.getElem?_cons_succ] at hp hv
    simp only [List.set_cons_succ, varsAt]
    rw [varsAt_split hp hv]
    ac_rfl

theorem varsAt_put {ps : List Ptr} {σ : State n} {x : Nat} {p : Ptr} {k : Ty} {v : Value n k} (h1 : x < ps.length) (h2 : x < σ.length) :
    varsAt c e n (ps.set x p) (σ.set x ⟨k, v⟩) = (valueAt c e n k p v ∗ varsAt c e n (ps.set x 0) (σ.set x ⟨k, []⟩)) := by
  rw [varsAt_split (ps := ps.set x p) (x := x) (p := p) (k := k) (v := v) (by simp [h1]) (by simp [h2]), List.set_set, List.set_set]

theorem varsAt_put2 {ps : List Ptr} {σ : State n} {x y : Nat} (hne : x ≠ y) {p q : Ptr} {k j : Ty} {v : Value n k} {w : Value n j}
    (h1 : x < ps.length) (h2 : x < σ.length) (h3 : y < ps.length) (h4 : y < σ.length) :
    varsAt c e n ((ps.set x p).set y q) ((σ.set x ⟨k, v⟩).set y ⟨j, w⟩) =
      ((valueAt c e n k p v ∗ valueAt c e n j q w) ∗ varsAt c e n ((ps.set x 0).set y 0) ((σ.set x ⟨k, []⟩).set y ⟨j, []⟩)) := by
  rw [varsAt_put (by simpa using h3) (by simpa using h4), List.set_comm _ _ hne, List.set_comm (⟨k, v⟩ : Var n) _ hne,
    varsAt_put (by simpa using h1) (by simpa using h2), List.set_comm _ _ hne, List.set_comm (⟨k, []⟩ : Var n) _ hne]
  ac_rfl

theorem get_ok {σ : State n} {k : Ty} {x : Nat} {v : Value n k} (h : get σ k x = .ok v) : σ[x]? = some ⟨k, v⟩ := by
  unfold get at h
  split at h
  · next w hw =>
    split at h
    · next hk =>
      cases w with
      | mk t val =>
        dsimp only at hk
        subst hk
        simp only [Out.ok.injEq] at h
        subst h
        exact hw
    · cases h
  · cases h

theorem null_ok {α : Type} {l : List α} (h : null l = .ok ()) : l = [] := by
  unfold null at h
  split at h
  · next hl => exact List.isEmpty_iff.mp hl
  · cases h

theorem must_ok {p : Prop} (h : must p = .ok ()) : p := by
  unfold must at h
  split at h
  · assumption
  · cases h

theorem slot_spec {P : Assn} {α : Type} {ps : List Ptr} {x : Nat} {p : Ptr} {k : Ptr → M α} {Q : α → Assn} (hp : ps[x]? = some p) (h : Triple P (k p) Q) :
    Triple P (slot ps x >>= k) Q := by
  have : slot ps x = pure p := by unfold slot; rw [hp]
  rw [this]
  exact h

/-- The pointers of the variables of a call. -/
theorem varsAt_pointer {ps : List Ptr} {σ : State n} {x : Nat} {v : Var n} (hv : σ[x]? = some v) :
    ∀ h, varsAt c e n ps σ h → ∃ p, ps[x]? = some p := by
  intro h hh
  have hl := varsAt_length ps σ h hh
  have : x < σ.length := by
    rcases Nat.lt_or_ge x σ.length with hlt | hge
    · exact hlt
    · rw [List.getElem?_eq_none hge] at hv
      cases hv
  exact ⟨_, List.getElem?_eq_getElem (by omega)⟩

theorem lt_of_get {α : Type} {l : List α} {x : Nat} {a : α} (h : l[x]? = some a) : x < l.length := by
  rcases Nat.lt_or_ge x l.length with hlt | hge
  · exact hlt
  · rw [List.getElem?_eq_none hge] at h
    cases h

/-! ## Calls on one variable -/

theorem call1_spec {k : Ty} {x : Nat} {ps : List Ptr} {σ : State n} {f : Value n k → Out (Value n k × Obs)} {m : Ptr → M (Ptr × Obs)} {t : State n × Obs} {L : Assn}
    (hm : ∀ v r, f v = .ok r → ∀ p, Triple (valueAt c e n k p v) (m p) (fun s => pur (s.2 = r.2) ∗ valueAt c e n k s.1 r.1 ∗ L))
    (h : on1 k x f σ = .ok t) :
    Triple (varsAt c e n ps σ) (call1 x m ps) (fun s => pur (s.2 = t.2) ∗ varsAt c e n s.1 t.1 ∗ L) := by
  unfold on1 at h
  obtain ⟨v, hv, h⟩ := Out.bind_eq_ok.mp h
  obtain ⟨r, hr, h⟩ := Out.bind_eq_ok.mp h
  cases h
  have hσ := get_ok hv
  refine Triple.of_fact (varsAt_pointer hσ) ?_
  rintro ⟨p, hp⟩
  unfold call1
  refine slot_spec hp ?_
  rw [varsAt_split hp hσ]
  refine ((hm v r hr p).frame _).bind (fun s => ?_)
  rw [sep_assoc]
  refine Triple.fact (fun hs => Triple.ret (fun h0 hh => pur_sep_iff.mpr ⟨hs, ?_⟩))
  show (varsAt c e n (ps.set x s.1) (σ.set x ⟨k, r.1⟩) ∗ L) h0
  rw [varsAt_put (lt_of_get hp) (lt_of_get hσ)]
  exact hh.perm (by ac_rfl)

/-! ## Calls on two variables -/

theorem call2_spec {k j : Ty} {x y : Nat} {ps : List Ptr} {σ : State n} {f : Value n k → Value n j → Out (Value n k × Value n j × Obs)} {m : Ptr → Ptr → M (Ptr × Ptr × Obs)}
    {t : State n × Obs}
    (hm : ∀ v w r, f v w = .ok r → ∀ p q, Triple (valueAt c e n k p v ∗ valueAt c e n j q w) (m p q)
      (fun s => pur (s.2.2 = r.2.2) ∗ valueAt c e n k s.1 r.1 ∗ valueAt c e n j s.2.1 r.2.1))
    (h : on2 k x j y f σ = .ok t) :
    Triple (varsAt c e n ps σ) (call2 x y m ps) (fun s => pur (s.2 = t.2) ∗ varsAt c e n s.1 t.1) := by
  unfold on2 at h
  split at h
  · cases h
  · next hne =>
    obtain ⟨v, hv, h⟩ := Out.bind_eq_ok.mp h
    obtain ⟨w, hw, h⟩ := Out.bind_eq_ok.mp h
    obtain ⟨r, hr, h⟩ := Out.bind_eq_ok.mp h
    cases h
    have hσ := get_ok hv
    have hτ := get_ok hw
    refine Triple.of_fact (varsAt_pointer hσ) ?_
    rintro ⟨p, hp⟩
    refine Triple.of_fact (varsAt_pointer hτ) ?_
    rintro ⟨q, hq⟩
    unfold call2
    refine slot_spec hp (slot_spec hq ?_)
    have e1 : (ps.set x 0)[y]? = some q := by rw [List.getElem?_set_ne hne, hq]
    have e2 : (σ.set x ⟨k, []⟩)[y]? = some ⟨j, w⟩ := by rw [List.getElem?_set_ne hne, hτ]
    rw [varsAt_split hp hσ, varsAt_split e1 e2, ← sep_assoc]
    refine ((hm v w r hr p q).frame _).bind (fun s => ?_)
    rw [sep_assoc]
    refine Triple.fact (fun hs => Triple.ret (fun h0 hh => pur_sep_iff.mpr ⟨hs, ?_⟩))
    show varsAt c e n ((ps.set x s.1).set y s.2.1) ((σ.set x ⟨k, r.1⟩).set y ⟨j, r.2.1⟩) h0
    rw [varsAt_put2 hne (lt_of_get hp) (lt_of_get hσ) (lt_of_get hq) (lt_of_get hτ)]
    exact hh

/-! ## Calls on three variables -/

theorem call3_spec {k j : Ty} {x y z : Nat} {ps : List Ptr} {σ : State n} {f : Value n k → Value n j → Out (Value n k)} {m : Ptr → Ptr → M Ptr} {t : State n × Obs}
    (hm : ∀ w u r, f w u = .ok r → ∀ q s, Triple (valueAt c e n k q w ∗ valueAt c e n j s u) (m q s)
      (fun p => (valueAt c e n k q w ∗ valueAt c e n j s u) ∗ valueAt c e n k p r))
    (h : on3 k x y j z f σ = .ok t) :
    Triple (varsAt c e n ps σ) (call3 x y z m ps) (fun s => pur (s.2 = t.2) ∗ varsAt c e n s.1 t.1) := by
  unfold on3 at h
  split at h
  · cases h
  · next hne =>
    have hxy : x ≠ y := fun hh => hne (Or.inl hh)
    have hxz : x ≠ z := fun hh => hne (Or.inr (Or.inl hh))
    have hyz : y ≠ z := fun hh => hne (Or.inr (Or.inr hh))
    obtain ⟨v, hv, h⟩ := Out.bind_eq_ok.mp h
    obtain ⟨_, hn, h⟩ := Out.bind_eq_ok.mp h
    rw [null_ok hn] at hv
    obtain ⟨w, hw, h⟩ := Out.bind_eq_ok.mp h
    obtain ⟨u, hu, h⟩ := Out.bind_eq_ok.mp h
    obtain ⟨r, hr, h⟩ := Out.bind_eq_ok.mp h
    cases h
    have hσ := get_ok hv
    have hτ := get_ok hw
    have hυ := get_ok hu
    refine Triple.of_fact (varsAt_pointer hσ) ?_
    rintro ⟨p0, hp⟩
    refine Triple.of_fact (varsAt_pointer hτ) ?_
    rintro ⟨q, hq⟩
    refine Triple.of_fact (varsAt_pointer hυ) ?_
    rintro ⟨s, hs⟩
    unfold call3
    refine slot_spec hq (slot_spec hs ?_)
    have e1 : (ps.set x 0)[y]? = some q := by rw [List.getElem?_set_ne hxy, hq]
    have e2 : (σ.set x ⟨k, []⟩)[y]? = some ⟨k, w⟩ := by rw [List.getElem?_set_ne hxy, hτ]
    have e3 : ((ps.set x 0).set y 0)[z]? = some s := by rw [List.getElem?_set_ne hyz, List.getElem?_set_ne hxz, hs]
    have e4 : ((σ.set x ⟨k, []⟩).set y ⟨k, []⟩)[z]? = some ⟨j, u⟩ := by rw [List.getElem?_set_ne hyz, List.getElem?_set_ne hxz, hυ]
    have hA : varsAt c e n ps σ = ((valueAt c e n k q w ∗ valueAt c e n j s u) ∗ pur (p0 = 0) ∗
        varsAt c e n (((ps.set x 0).set y 0).set z 0) (((σ.set x ⟨k, []⟩).set y ⟨k, []⟩).set z ⟨j, []⟩)) := by
      rw [varsAt_split hp hσ, varsAt_split e1 e2, varsAt_split e3 e4, valueAt_null]
      ac_rfl
    rw [hA]
    refine ((hm w u r hr q s).frame _).bind (fun p => Triple.ret (fun h0 hh => pur_sep_iff.mpr ⟨rfl, ?_⟩))
    show varsAt c e n (ps.set x p) (σ.set x ⟨k, r⟩) h0
    rw [varsAt_put (lt_of_get hp) (lt_of_get hσ), varsAt_split e1 e2, varsAt_split e3 e4]
    have hh' : (pur (p0 = 0) ∗ (valueAt c e n k p r ∗ valueAt c e n k q w ∗ valueAt c e n j s u ∗
      varsAt c e n (((ps.set x 0).set y 0).set z 0) (((σ.set x ⟨k, []⟩).set y ⟨k, []⟩).set z ⟨j, []⟩))) h0 := hh.perm (by ac_rfl)
    exact (pur_sep_iff.mp hh').2

/-- The same for `x = f(y, y)`. -/
theorem call3_same {k : Ty} {x y : Nat} {ps : List Ptr} {σ : State n} {f : Value n k → Out (Value n k)} {m : Ptr → Ptr → M Ptr} {t : State n × Obs}
    (hm : ∀ w r, f w = .ok r → ∀ q, Triple (valueAt c e n k q w) (m q q) (fun p => valueAt c e n k q w ∗ valueAt c e n k p r))
    (h : from_ k x k y f σ = .ok t) :
    Triple (varsAt c e n ps σ) (call3 x y y m ps) (fun s => pur (s.2 = t.2) ∗ varsAt c e n s.1 t.1) := by
  unfold from_ on2 at h
  split at h
  · cases h
  · next hxy =>
    obtain ⟨v, hv, h⟩ := Out.bind_eq_ok.mp h
    obtain ⟨w, hw, h⟩ := Out.bind_eq_ok.mp h
    obtain ⟨r', hr', h⟩ := Out.bind_eq_ok.mp h
    obtain ⟨_, hn, hr'⟩ := Out.bind_eq_ok.mp hr'
    rw [null_ok hn] at hv
    obtain ⟨r, hr, hr'⟩ := Out.bind_eq_ok.mp hr'
    cases hr'
    cases h
    have hσ := get_ok hv
    have hτ := get_ok hw
    refine Triple.of_fact (varsAt_pointer hσ) ?_
    rintro ⟨p0, hp⟩
    refine Triple.of_fact (varsAt_pointer hτ) ?_
    rintro ⟨q, hq⟩
    unfold call3
    refine slot_spec hq (slot_spec hq ?_)
    have e1 : (ps.set x 0)[y]? = some q := by rw [List.getElem?_set_ne hxy, hq]
    have e2 : (σ.set x ⟨k, []⟩)[y]? = some ⟨k, w⟩ := by rw [List.getElem?_set_ne hxy, hτ]
    have hA : varsAt c e n ps σ = (valueAt c e n k q w ∗ pur (p0 = 0) ∗ varsAt c e n ((ps.set x 0).set y 0) ((σ.set x ⟨k, []⟩).set y ⟨k, []⟩)) := by
      rw [varsAt_split hp hσ, varsAt_split e1 e2, valueAt_null]
      ac_rfl
    rw [hA]
    refine ((hm w r hr q).frame _).bind (fun p => Triple.ret (fun h0 hh => pur_sep_iff.mpr ⟨rfl, ?_⟩))
    show varsAt c e n (ps.set x p) ((σ.set x ⟨k, r⟩).set y ⟨k, w⟩) h0
    have e3 : ps.set x p = (ps.set x p).set y q := by
      refine (List.ext_getElem? fun i => ?_)
      by_cases hi : i = y
      · subst hi
        rw [List.getElem?_set_self (by simpa using lt_of_get hq), List.getElem?_set_ne hxy, hq]
      · rw [List.getElem?_set_ne (fun hh => hi hh.symm)]
    rw [e3, varsAt_put2 hxy (lt_of_get hp) (lt_of_get hσ) (lt_of_get hq) (lt_of_get hτ)]
    have hh' : (pur (p0 = 0) ∗ ((valueAt c e n k p r ∗ valueAt c e n k q w) ∗ varsAt c e n ((ps.set x 0).set y 0) ((σ.set x ⟨k, []⟩).set y ⟨k, []⟩))) h0 :=
      hh.perm (by ac_rfl)
    exact (pur_sep_iff.mp hh').2

end Osl.Client
