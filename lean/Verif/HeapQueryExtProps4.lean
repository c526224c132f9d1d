import Verif.HeapQueryExtProps3
/-!
# The comparisons of the extensions only read the memory (C75): unrollings, dependences, symbols
-/

set_option linter.unusedSectionVars false

namespace Osl.Mem

open Osl.Ext

variable [Allocator] {α β : Type}

/-! ## Unrollings -/

theorem unroll_next (p : Ptr) (x : Unroll) (n : Ptr) : Query (unrollChain.at_ p x n) (unrollChain.get p) n := by
  show Query (unrollAt p x n) (getPtr p 1) n
  unfold unrollAt
  qnorm
  quse (getPtr_query (p := p) (i := 1))

theorem uri_null {a : Ptr} {s : Option Str} {h : PHeap} (hh : uriAt a s h) : a = 0 ↔ s = none := by
  cases s with
  | none => exact ⟨fun _ => rfl, fun _ => hh.1⟩
  | some s => exact ⟨fun e => absurd e (pto_ne h hh), fun e => by cases e⟩

theorem Chain.list_own {N : Chain α} {p : Ptr} {x : α} {l : List α} {h : PHeap} (hh : N.list p (x :: l) h) : h p ≠ none := by
  rw [Chain.list_cons] at hh
  obtain ⟨n, _, _, _, rfl, h1, _⟩ := hh
  have := N.own h1
  simp only [join]
  intro e
  exact this (Option.or_eq_none_iff.mp e).1

/-- Whether two iterators are the same, on values. -/
def sameIter (s t : Option Str) : Bool := decide (s = t)

theorem unrollIters_query {p q a b : Ptr} {is js : List Int} {ps qs : List Ptr} {s t : Option Str} (ha : nth ps 0 = .ok a) (hb : nth qs 0 = .ok b) :
    Query ((p ↦ .node is ps ∗ uriAt a s) ∗ (q ↦ .node js qs ∗ uriAt b t)) (unrollIters p q) (sameIter s t) := by
  unfold unrollIters
  qnext (getPtr_query (p := p) ha)
  qnext (getPtr_query (p := q) hb)
  refine Query.of_fact (φ := (a = 0 ↔ s = none) ∧ (b = 0 ↔ t = none)) (fun h0 hh => ?_) (fun hp => ?_)
  · obtain ⟨_, _, _, _, ⟨_, _, _, _, _, h1⟩, ⟨_, _, _, _, _, h2⟩⟩ := hh
    exact ⟨uri_null h1, uri_null h2⟩
  obtain ⟨ha', hb'⟩ := hp
  cases s with
  | none =>
    have ha' := ha'.mpr rfl
    cases t with
    | none =>
      have hb' := hb'.mpr rfl
      rw [if_neg (by simp [hb']), if_neg (by simp [ha']), if_neg (by simp [ha'])]
      exact Query.ret _
    | some t =>
      have hb' : b ≠ 0 := fun e => by cases hb'.mp e
      rw [if_pos ⟨ha', hb'⟩]
      exact Query.ret _
  | some s =>
    have ha' : a ≠ 0 := fun e => by cases ha'.mp e
    cases t with
    | none =>
      have hb' := hb'.mpr rfl
      rw [if_neg (by simp [ha']), if_pos ⟨ha', hb'⟩]
      exact Query.ret _
    | some t =>
      have hb' : b ≠ 0 := fun e => by cases hb'.mp e
      rw [if_neg (by simp [ha']), if_neg (by simp [hb']), if_pos ha']
      show Query ((p ↦ .node is ps ∗ a ↦ .chars s) ∗ (q ↦ .node js qs ∗ b ↦ .chars t)) _ _
      have e : sameIter (some s) (some t) = decide (s = t) := by unfold sameIter; simp
      rw [e]
      quse (strEq_query (a := a) (b := b))

theorem unroll_one {x y : Unroll} : Unroll.equalOne x y =
    (sameIter x.iter y.iter && ([0, 1].all fun i => decide (([Unroll.ofBool x.jam, (x.factor : Int)] : List Int)[i]? = ([Unroll.ofBool y.jam, (y.factor : Int)] : List Int)[i]?))) := by
  obtain ⟨a, b, d⟩ := x
  obtain ⟨a', b', d'⟩ := y
  unfold Unroll.equalOne sameIter
  have hj : (Unroll.ofBool b = Unroll.ofBool b') ↔ b = b' := by cases b <;> cases b' <;> decide
  cases a <;> cases a' <;> simp [hj] <;> by_cases h1 : b = b' <;> by_cases h2 : d = d' <;> simp [h1, h2] <;> omega

theorem unrollEqualOne_query {p q n o : Ptr} {x y : Unroll} : Query (unrollAt p x n ∗ unrollAt q y o) (unrollEqualOne p q) (Unroll.equalOne x y) := by
  rw [unroll_one]
  unfold unrollEqualOne unrollAt
  qnorm
  rename_i a b
  refine andAlso_query ?_ (fun _ => ?_)
  · quse (unrollIters_query (p := p) (q := q) (a := a) (b := b) (s := x.iter) (t := y.iter) rfl rfl)
  · quse (fields_query (p := p) (q := q) 2 rfl rfl [0, 1] (by decide))

theorem unroll_sameAll : ∀ l m : List Unroll, sameAll (fun x y => .ok (Unroll.equalOne x y)) l m = .ok (Unroll.equal l m)
  | [], [] => rfl
  | [], _ :: _ => rfl
  | _ :: _, [] => rfl
  | x :: l, y :: m => by
    simp only [sameAll, Unroll.equal]
    cases Unroll.equalOne x y with
    | false => rfl
    | true => exact unroll_sameAll l m

/-- C75: `osl_pluto_unroll_equal` on two separate lists only reads them. -/
theorem unroll_equal_query {p q : Ptr} {l m : List Unroll} : Query (unrollChain.list p l ∗ unrollChain.list q m) (unrollEqual p q) (Unroll.equal l m) := by
  exact sharedAll_query (N := unrollChain) unroll_next (fun x _ y _ p q n o v hv => by cases hv; exact unrollEqualOne_query) (unroll_sameAll l m)

/-! ## Dependences -/

section

variable {c : Cfg}

theorem dep_next (p : Ptr) (x : Dep) (n : Ptr) : Query ((depChain c).at_ p x n) ((depChain c).get p) n := by
  show Query (depAt c p x n) (getPtr p 6) n
  unfold depAt
  qnorm
  quse (getPtr_query (p := p) (i := 6))

theorem dep_ints {x y : Dep} : Dep.equalInts x y = ([0, 1, 2, 3, 4, 5, 6, 7, 8, 9, 10, 11, 12, 13].all fun i =>
    decide (([x.label_source, x.label_target, x.ref_source, x.ref_target, x.depth, x.type, x.src_out_dom, x.src_out_acc, x.tgt_out_dom, x.tgt_out_acc,
      x.src_loc_dom, x.src_loc_acc, x.tgt_loc_dom, x.tgt_loc_acc] : List Int)[i]? =
     ([y.label_source, y.label_target, y.ref_source, y.ref_target, y.depth, y.type, y.src_out_dom, y.src_out_acc, y.tgt_out_dom, y.tgt_out_acc,
      y.src_loc_dom, y.src_loc_acc, y.tgt_loc_dom, y.tgt_loc_acc] : List Int)[i]?)) := by
  unfold Dep.equalInts
  rw [Bool.eq_iff_iff]
  simp

theorem depEqualOne_query {p q n o : Ptr} {x y : Dep} {v : Bool} (h : Dep.equalOne c x y = .ok v) : Query (depAt c p x n ∗ depAt c q y o) (depEqualOne c p q) v := by
  unfold Dep.equalOne at h
  obtain ⟨e, he, h⟩ := Out.bind_eq_ok.mp h
  have hv : v = (e && Dep.equalInts x y) := by
    cases e <;> simp [Out.pure_eq] at h <;> simp [h]
  rw [hv, dep_ints]
  unfold depEqualOne depAt
  qnorm
  rename_i d s t u a b d' s' t' u' a' b'
  refine andAlso_query ?_ (fun _ => ?_)
  · unfold depDomains
    qnext (getPtr_query (p := p) (i := 0) (x := d) rfl)
    qnext (getPtr_query (p := q) (i := 0) (x := d') rfl)
    quse (relation_equal_query (c := c) (p := d) (q := d') he)
  · quse (fields_query (p := p) (q := q) 14 rfl rfl [0, 1, 2, 3, 4, 5, 6, 7, 8, 9, 10, 11, 12, 13] (by decide))

theorem depEqualLoop_query : ∀ (f : Nat) (l k : List Dep) (p q : Ptr) (v : Bool), l.length ≤ f → Dep.equal c l k = .ok v →
    Query ((depChain c).list p l ∗ (depChain c).list q k) (depEqualLoop c f p q) v
  | f, [], [], p, q, v, _, h => by
    cases h
    rw [Chain.list_null, Chain.list_null]
    refine Query.fact (fun hp => ?_)
    refine Query.of_fact (φ := q = 0) (fun _ hh => hh.1) (fun hq => ?_)
    subst hp hq
    cases f <;> exact Query.ret _
  | f, [], y :: k, p, q, v, _, h => by cases h
  | f, x :: l, [], p, q, v, _, h => by cases h
  | 0, x :: l, y :: k, p, q, v, hf, _ => by simp at hf
  | f + 1, x :: l, y :: k, p, q, v, hf, h => by
    refine Query.of_fact (φ := p ≠ q) (fun h0 hh => own_ne (fun _ h => Chain.list_own h) (fun _ h => Chain.list_own h) h0 hh) (fun hne => ?_)
    rw [Chain.list_cons, Chain.list_cons, ex_sep]
    refine Query.ex (fun n => ?_)
    rw [sep_ex]
    refine Query.ex (fun o => ?_)
    rw [show (((depChain c).at_ p x n ∗ (depChain c).list n l) ∗ (depChain c).at_ q y o ∗ (depChain c).list o k) =
      (((depChain c).at_ p x n ∗ (depChain c).at_ q y o) ∗ (depChain c).list n l ∗ (depChain c).list o k) by ac_rfl]
    unfold depEqualLoop
    rw [if_neg hne]
    refine Query.bind ((dep_next p x n).left.left) ?_
    refine Query.bind ((dep_next q y o).right.left) ?_
    cases l with
    | nil =>
      refine Query.of_fact (φ := n = 0) (fun h0 hh => ?_) (fun hn => ?_)
      · obtain ⟨_, _, _, _, _, hh⟩ := hh
        rw [Chain.list_null] at hh
        exact (pur_sep_iff.mp hh).1
      cases k with
      | nil =>
        refine Query.of_fact (φ := o = 0) (fun h0 hh => ?_) (fun ho => ?_)
        · obtain ⟨_, _, _, _, _, hh⟩ := hh
          obtain ⟨_, _, _, _, _, hh⟩ := hh
          rw [Chain.list_null] at hh
          exact hh.1
        rw [if_neg (by simp [hn, ho]), if_neg (by simp [hn])]
        exact (depEqualOne_query h).left
      | cons y' k =>
        refine Query.of_fact (φ := o ≠ 0) (fun h0 hh => ?_) (fun ho => ?_)
        · obtain ⟨_, _, _, _, _, hh⟩ := hh
          obtain ⟨_, _, _, _, _, hh⟩ := hh
          exact Chain.list_cons_ne hh
        cases h
        rw [if_pos (Or.inr ⟨hn, ho⟩)]
        exact Query.ret _
    | cons x' l =>
      refine Query.of_fact (φ := n ≠ 0) (fun h0 hh => ?_) (fun hn => ?_)
      · obtain ⟨_, _, _, _, _, hh⟩ := hh
        obtain ⟨_, _, _, _, hh, _⟩ := hh
        exact Chain.list_cons_ne hh
      cases k with
      | nil =>
        refine Query.of_fact (φ := o = 0) (fun h0 hh => ?_) (fun ho => ?_)
        · obtain ⟨_, _, _, _, _, hh⟩ := hh
          obtain ⟨_, _, _, _, _, hh⟩ := hh
          rw [Chain.list_null] at hh
          exact hh.1
        cases h
        rw [if_pos (Or.inl ⟨hn, ho⟩)]
        exact Query.ret _
      | cons y' k =>
        refine Query.of_fact (φ := o ≠ 0) (fun h0 hh => ?_) (fun ho => ?_)
        · obtain ⟨_, _, _, _, _, hh⟩ := hh
          obtain ⟨_, _, _, _, _, hh⟩ := hh
          exact Chain.list_cons_ne hh
        rw [if_neg (by simp [hn, ho]), if_pos ⟨hn, ho⟩]
        have h : Dep.andThen (Dep.equal c (x' :: l) (y' :: k)) (Dep.equalOne c x y) = .ok v := h
        unfold Dep.andThen at h
        obtain ⟨b, hb, h⟩ := Out.bind_eq_ok.mp h
        have hrec := depEqualLoop_query f (x' :: l) (y' :: k) n o b (by simpa using hf) hb
        unfold andAlso
        refine Query.bind (hrec.right) ?_
        cases b with
        | false => cases h; exact Query.ret _
        | true =>
          rw [if_pos rfl]
          exact (depEqualOne_query h).left

/-- C75: `osl_dependence_equal` on two separate lists only reads them. -/
theorem dependence_equal_query {p q : Ptr} {l k : List Dep} {v : Bool} (h : Dep.equal c l k = .ok v) :
    Query ((depChain c).list p l ∗ (depChain c).list q k) (depEqual c p q) v := by
  unfold depEqual
  exact Query.heapSize ((Chain.seg_big l p 0).sep (Big.zero _)) (fun f hf => depEqualLoop_query _ l k p q v (by simp at hf; omega) h)

end

/-! ## Symbols -/

section

variable {D : Type} {E : Env D} {O : DataMem D E} (Q : EqMem O)

theorem symFieldEqual_query {p q a b : Ptr} {is js : List Int} {ps qs : List Ptr} {k : Nat} {x y : GList D} {v : Bool} (ha : nth ps k = .ok a) (hb : nth qs k = .ok b)
    (h : GList.equal E x y = .ok v) :
    Query ((p ↦ .node is ps ∗ glistAt O a x) ∗ (q ↦ .node js qs ∗ glistAt O b y)) (symFieldEqual Q.equal p q k) v := by
  unfold symFieldEqual
  qnext (getPtr_query (p := p) ha)
  qnext (getPtr_query (p := q) hb)
  quse (generic_equal_query (Q := Q) (p := a) (q := b) h)

theorem symEqualOne_query {p q n o : Ptr} {x y : Symbol D} {l m : List (Symbol D)} {v : Bool} (h : Symbol.equal E (x :: l) (y :: m) = .ok v) :
    Query (symAt O p x n ∗ symAt O q y o) (andAlso (fieldsEq p q [0, 1, 2]) (andAlso (symFieldEqual Q.equal p q 0) (andAlso (symFieldEqual Q.equal p q 1)
    (andAlso (symFieldEqual Q.equal p q 2) (symFieldEqual Q.equal p q 3))))) v := by
  have h : (if x.type = y.type ∧ x.generated = y.generated ∧ x.nb_dims = y.nb_dims then
      Symbol.andThen (GList.equal E x.identifier y.identifier) (Symbol.andThen (GList.equal E x.datatype y.datatype)
        (Symbol.andThen (GList.equal E x.scope y.scope) (GList.equal E x.extent y.extent)))
    else .ok false) = .ok v := h
  unfold symAt
  qnorm
  rename_i a b d e a' b' d' e'
  have hi := fields_query (p := p) (q := q) (is := [x.type, x.generated, x.nb_dims]) (js := [y.type, y.generated, y.nb_dims]) (ps := [a, b, d, e, n]) (qs := [a', b', d', e', o]) 3 rfl rfl [0, 1, 2] (by decide)
  have hz : ([0, 1, 2].all fun i => decide (([x.type, x.generated, x.nb_dims] : List Int)[i]? = ([y.type, y.generated, y.nb_dims] : List Int)[i]?)) =
      decide (x.type = y.type ∧ x.generated = y.generated ∧ x.nb_dims = y.nb_dims) := by
    rw [Bool.eq_iff_iff]
    simp
  rw [hz] at hi
  by_cases hc : x.type = y.type ∧ x.generated = y.generated ∧ x.nb_dims = y.nb_dims
  · rw [if_pos hc] at h
    rw [decide_eq_true hc] at hi
    have step : ∀ {P : Assn} {m1 m2 : M Bool} {o1 o2 : Out Bool} {w : Bool}, Symbol.andThen o1 o2 = .ok w → (∀ z, o1 = .ok z → Query P m1 z) → (∀ z, o2 = .ok z → Query P m2 z) →
        Query P (andAlso m1 m2) w := by
      intro P m1 m2 o1 o2 w hw h1 h2
      unfold Symbol.andThen at hw
      obtain ⟨z, hz, hw⟩ := Out.bind_eq_ok.mp hw
      unfold andAlso
      refine Query.bind (h1 z hz) ?_
      cases z with
      | false => cases hw; exact Query.ret _
      | true => rw [if_pos rfl]; exact h2 _ hw
    unfold andAlso
    qnext hi
    rw [if_pos rfl]
    refine step h (fun z hz => ?_) (fun z h => step h (fun z hz => ?_) (fun z h => step h (fun z hz => ?_) (fun z hz => ?_)))
    · quse (symFieldEqual_query Q (p := p) (q := q) (k := 0) (a := a) (b := a') rfl rfl hz)
    · quse (symFieldEqual_query Q (p := p) (q := q) (k := 1) (a := b) (b := b') rfl rfl hz)
    · quse (symFieldEqual_query Q (p := p) (q := q) (k := 2) (a := d) (b := d') rfl rfl hz)
    · quse (symFieldEqual_query Q (p := p) (q := q) (k := 3) (a := e) (b := e') rfl rfl hz)
  · rw [if_neg hc] at h
    cases h
    rw [decide_eq_false hc] at hi
    unfold andAlso
    qnext hi
    exact Query.ret _

/-- C75: `osl_symbols_equal` on two separate lists only reads them. -/
theorem symbols_equal_query {p q : Ptr} {l m : List (Symbol D)} {v : Bool} (h : Symbol.equal E l m = .ok v) :
    Query ((symChain O).list p l ∗ (symChain O).list q m) (symEqual Q.equal p q) v := by
  have := eqNodes_query (f := fun p (x : NE (Symbol D)) => (symChain O).list p (NE.elems (some x))) (g := fun a b => Symbol.equal E (NE.elems a) (NE.elems b))
    (hn := fun {p x h} hh => by cases x; exact Chain.list_cons_ne hh)
    (ho := fun {p x h} hh => by
      cases x
      exact Chain.list_own hh) rfl (fun x => by cases x; rfl) (fun x => by cases x; rfl) (p := p) (q := q) (d := NE.ofList l) (e := NE.ofList m)
    (m := andAlso (fieldsEq p q [0, 1, 2]) (andAlso (symFieldEqual Q.equal p q 0) (andAlso (symFieldEqual Q.equal p q 1)
      (andAlso (symFieldEqual Q.equal p q 2) (symFieldEqual Q.equal p q 3))))) (v := v)
    (fun x y h => by
      obtain ⟨x, xs⟩ := x
      obtain ⟨y, ys⟩ := y
      simp only [NE.elems] at h ⊢
      rw [Chain.list_cons, Chain.list_cons, ex_sep]
      refine Query.ex (fun n => ?_)
      rw [sep_ex]
      refine Query.ex (fun o => ?_)
      rw [show (((symChain O).at_ p x n ∗ (symChain O).list n xs) ∗ (symChain O).at_ q y o ∗ (symChain O).list o ys) =
        (((symChain O).at_ p x n ∗ (symChain O).at_ q y o) ∗ (symChain O).list n xs ∗ (symChain O).list o ys) by ac_rfl]
      exact (symEqualOne_query Q h).left) (by simpa only [NE.elems_ofList] using h)
  simp only [optAt_list, NE.elems_ofList] at this
  exact this

end

end Osl.Mem
