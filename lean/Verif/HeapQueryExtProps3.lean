import Verif.HeapQueryExtProps2
/-!
# The comparisons of the extensions only read the memory (C75): the lists
-/

set_option linter.unusedSectionVars false

namespace Osl.Mem

open Osl.Ext

variable [Allocator] {α β : Type}

/-! ## Regions -/

theorem region_next (p : Ptr) (x : Region) (n : Ptr) : Query (regionChain.at_ p x n) (regionChain.get p) n := by
  show Query (regionAt p x n) (getPtr p 8) n
  unfold regionAt
  qnorm
  quse (getPtr_query (p := p) (i := 8))

theorem regionEqualOne_query {p q n o : Ptr} {x y : Region} : Query (regionAt p x n ∗ regionAt q y o) (regionEqualOne p q) (Region.equal_one x y) := by
  refine Query.of_fact (φ := p ≠ 0 ∧ q ≠ 0 ∧ p ≠ q) (fun h0 hh => ?_) (fun hp => ?_)
  · refine ⟨?_, ?_, own_ne (fun _ h => regionChain.own h) (fun _ h => regionChain.own h) h0 hh⟩
    · obtain ⟨_, _, _, _, h1, _⟩ := hh; exact regionAt_ne _ h1
    · obtain ⟨_, _, _, _, _, h2⟩ := hh; exact regionAt_ne _ h2
  · unfold regionEqualOne eqNodes Region.equal_one
    rw [if_neg hp.2.2, if_neg (by simp [hp.1, hp.2.1])]
    unfold regionAt
    qnorm
    rename_i t u v w t' u' v' w'
    simp only [Bool.and_assoc]
    refine andAlso_query ?_ (fun _ => andAlso_query ?_ (fun _ => andAlso_query ?_ (fun _ => andAlso_query ?_ (fun _ => ?_))))
    · quse (field_ints_query (p := p) (q := q) (i := 4) (j := 4) (x := x.location) (y := y.location) rfl rfl)
    · quse (texts_query (p := p) (q := q) (k := 0) (t := t) (u := t') (x := x.pre) (y := y.pre) rfl rfl rfl rfl rfl rfl)
    · quse (texts_query (p := p) (q := q) (k := 1) (t := u) (u := u') (x := x.suf) (y := y.suf) rfl rfl rfl rfl rfl rfl)
    · quse (texts_query (p := p) (q := q) (k := 2) (t := v) (u := v') (x := x.prelude) (y := y.prelude) rfl rfl rfl rfl rfl rfl)
    · quse (texts_query (p := p) (q := q) (k := 3) (t := w) (u := w') (x := x.postlude) (y := y.postlude) rfl rfl rfl rfl rfl rfl)

theorem regionEqualLoop_query : ∀ (f : Nat) (l k : List Region) (p q : Ptr) (v : Bool), l.length < f → Region.equal l k = .ok v →
    Query (regionChain.list p l ∗ regionChain.list q k) (regionEqualLoop f p q) v
  | 0, l, _, _, _, _, h, _ => by omega
  | f + 1, [], [], p, q, v, _, h => by cases h
  | f + 1, [], y :: k, p, q, v, _, h => by
    cases h
    rw [Chain.list_null]
    refine Query.fact (fun hp => ?_)
    subst hp
    refine Query.of_fact (fun _ hh => Chain.list_cons_ne hh) (fun hq => ?_)
    unfold regionEqualLoop
    refine Query.bind (v := false) ?_ (Query.ret _)
    unfold regionEqualOne eqNodes
    rw [if_neg (fun e => hq e.symm), if_pos (Or.inl ⟨rfl, hq⟩)]
    exact Query.ret _
  | f + 1, x :: l, [], p, q, v, _, h => by
    cases h
    rw [sep_comm, Chain.list_null]
    refine Query.fact (fun hp => ?_)
    subst hp
    refine Query.of_fact (fun _ hh => Chain.list_cons_ne hh) (fun hq => ?_)
    unfold regionEqualLoop
    refine Query.bind (v := false) ?_ (Query.ret _)
    unfold regionEqualOne eqNodes
    rw [if_neg hq, if_pos (Or.inr ⟨hq, rfl⟩)]
    exact Query.ret _
  | f + 1, x :: l, y :: k, p, q, v, hf, h => by
    rw [Chain.list_cons, Chain.list_cons, ex_sep]
    refine Query.ex (fun n => ?_)
    rw [sep_ex]
    refine Query.ex (fun o => ?_)
    rw [show ((regionChain.at_ p x n ∗ regionChain.list n l) ∗ regionChain.at_ q y o ∗ regionChain.list o k) =
      ((regionChain.at_ p x n ∗ regionChain.at_ q y o) ∗ regionChain.list n l ∗ regionChain.list o k) by ac_rfl]
    unfold regionEqualLoop
    refine Query.bind (regionEqualOne_query (x := x) (y := y) (n := n) (o := o)).left ?_
    simp only [Region.equal] at h
    cases he : Region.equal_one x y with
    | false =>
      rw [he] at h
      cases h
      exact Query.ret _
    | true =>
      rw [he, if_pos rfl] at h
      rw [if_pos rfl]
      refine Query.bind ((region_next p x n).left.left) ?_
      refine Query.bind ((region_next q y o).right.left) ?_
      exact (regionEqualLoop_query f l k n o v (by simpa using hf) h).right

/-- C75: `osl_region_equal` on two separate lists only reads them (it answers only when the lists differ). -/
theorem region_equal_query {p q : Ptr} {l k : List Region} {v : Bool} (h : Region.equal l k = .ok v) :
    Query (regionChain.list p l ∗ regionChain.list q k) (regionEqual p q) v := by
  unfold regionEqual
  exact Query.heapSize ((Chain.seg_big l p 0).sep (Big.zero _)) (fun f hf => regionEqualLoop_query _ l k p q v (by simp at hf; omega) h)

/-! ## Loops -/

theorem loop_next (p : Ptr) (x : Loop) (n : Ptr) : Query (loopChain.at_ p x n) (loopChain.get p) n := by
  show Query (loopAt p x n) (getPtr p 4) n
  unfold loopAt
  qnorm
  quse (getPtr_query (p := p) (i := 4))

theorem ids_found (i : Int) : ∀ m : List Int, Loop.found i m = m.any fun w => decide (i = w)
  | [] => rfl
  | w :: m => by
    simp only [Loop.found, List.any_cons]
    rw [ids_found i m]
    by_cases h1 : i = w <;> simp [h1]

theorem ids_loop (m : List Int) : ∀ l, Loop.idsLoop m l = l.all fun z => Loop.found z m
  | [] => rfl
  | z :: l => by
    simp only [Loop.idsLoop, List.all_cons]
    rw [ids_loop m l]
    cases Loop.found z m <;> rfl

theorem loopStr_query {p q a b : Ptr} {is js : List Int} {ps qs : List Ptr} {k : Nat} {s t : Option Str} {v : Bool} (ha : nth ps k = .ok a) (hb : nth qs k = .ok b)
    (h : Loop.sameStr s t = .ok v) : Query ((p ↦ .node is ps ∗ uriAt a s) ∗ (q ↦ .node js qs ∗ uriAt b t)) (loopStr p q k) v := by
  unfold loopStr
  qnext (getPtr_query (p := p) ha)
  qnext (getPtr_query (p := q) hb)
  cases s with
  | none =>
    cases t with
    | some t => cases h
    | none =>
      cases h
      show Query ((p ↦ .node is ps ∗ pur (a = 0)) ∗ (q ↦ .node js qs ∗ pur (b = 0))) _ _
      refine Query.of_fact (φ := a = 0 ∧ b = 0) (fun h0 hh => ?_) (fun hp => ?_)
      · have hh : (pur (a = 0) ∗ (pur (b = 0) ∗ (p ↦ .node is ps ∗ q ↦ .node js qs))) h0 := hh.perm (by ac_rfl)
        have hh := pur_sep_iff.mp hh
        exact ⟨hh.1, (pur_sep_iff.mp hh.2).1⟩
      obtain ⟨ha', hb'⟩ := hp
      rw [if_neg (by simp [ha', hb'])]
      exact Query.ret _
  | some s =>
    cases t with
    | none => cases h
    | some t =>
      cases h
      refine Query.of_fact (φ := a ≠ b) (fun h0 hh => ?_) (fun hne => ?_)
      · have hh : ((a ↦ .chars s ∗ b ↦ .chars t) ∗ (p ↦ .node is ps ∗ q ↦ .node js qs)) h0 := hh.perm (by ac_rfl)
        obtain ⟨_, _, _, _, h1, _⟩ := hh
        refine own_ne (fun _ h => ?_) (fun _ h => ?_) _ h1
        · rw [← sep_emp (a ↦ _)] at h; exact own_pto h
        · rw [← sep_emp (b ↦ _)] at h; exact own_pto h
      · rw [if_pos hne]
        show Query ((p ↦ .node is ps ∗ a ↦ .chars s) ∗ (q ↦ .node js qs ∗ b ↦ .chars t)) _ _
        quse (strEq_query (a := a) (b := b))

theorem loopEqualOne_query {p q n o : Ptr} {x y : Loop} {v : Bool} (h : Loop.equalOne x y = .ok v) : Query (loopAt p x n ∗ loopAt q y o) (loopEqualOne p q) v := by
  refine Query.of_fact (φ := p ≠ 0 ∧ q ≠ 0 ∧ p ≠ q) (fun h0 hh => ?_) (fun hp => ?_)
  · refine ⟨?_, ?_, own_ne (fun _ h => loopChain.own h) (fun _ h => loopChain.own h) h0 hh⟩
    · obtain ⟨_, _, _, _, h1, _⟩ := hh; exact loopAt_ne _ h1
    · obtain ⟨_, _, _, _, _, h2⟩ := hh; exact loopAt_ne _ h2
  · unfold loopEqualOne eqNodes
    rw [if_neg hp.2.2, if_neg (by simp [hp.1, hp.2.1])]
    unfold loopAt
    qnorm
    rename_i s a r u s' a' r' u'
    unfold loopOneNodes
    qnext (getInt_query (p := p) (i := 0))
    qnext (getInt_query (p := q) (i := 0))
    unfold Loop.equalOne at h
    by_cases hl : x.stmt_ids.length = y.stmt_ids.length
    · rw [if_neg (by simp [hl])] at h ⊢
      obtain ⟨e, he, h⟩ := Out.bind_eq_ok.mp h
      cases e with
      | false =>
        cases h
        refine andAlso_query (x := false) (y := true) ?_ (fun h => by cases h)
        unfold loopIters
        qnext (getPtr_query (p := p) (i := 0))
        qnext (getPtr_query (p := q) (i := 0))
        quse (uri_query (a := s) (b := s') he)
      | true =>
        rw [if_neg (by simp)] at h
        rw [← Bool.true_and v]
        refine andAlso_query ?_ (fun _ => ?_)
        · unfold loopIters
          qnext (getPtr_query (p := p) (i := 0))
          qnext (getPtr_query (p := q) (i := 0))
          quse (uri_query (a := s) (b := s') he)
        · have hids : Query (p ↦ .node [(x.stmt_ids.length : Int), x.directive] [s, a, r, u, n] ∗ uriAt s x.iter ∗ intsAt a x.stmt_ids ∗ uriAt r x.private_vars ∗
              uriAt u x.user ∗ q ↦ .node [(y.stmt_ids.length : Int), y.directive] [s', a', r', u', o] ∗ uriAt s' y.iter ∗ intsAt a' y.stmt_ids ∗ uriAt r' y.private_vars ∗
              uriAt u' y.user) (allBelow (fun i => anyBelow (itemsEq p q 1 i) (y.stmt_ids.length : Int).toNat 0) (x.stmt_ids.length : Int).toNat 0)
              (Loop.idsLoop y.stmt_ids x.stmt_ids) := by
            rw [ids_loop]
            refine allBelow_query (by simp) (fun i z hz => ?_)
            rw [ids_found]
            refine anyBelow_query (by simp) (fun j w hw => ?_)
            quse (items_query (p := p) (q := q) (a := a) (b := a') rfl rfl hz hw)
          have hids := fun P (e : P = _) => (hids.rearr (P := P) e)
          cases hb : Loop.idsLoop y.stmt_ids x.stmt_ids with
          | false =>
            rw [hb] at h
            cases h
            refine andAlso_query (x := false) (y := true) ?_ (fun h => by cases h)
            have := hids _ rfl
            rw [hb] at this
            quse this
          | true =>
            rw [hb, if_neg (by simp)] at h
            rw [← Bool.true_and v]
            refine andAlso_query ?_ (fun _ => ?_)
            · have := hids _ rfl
              rw [hb] at this
              quse this
            · obtain ⟨e1, h1, h⟩ := Out.bind_eq_ok.mp h
              cases e1 with
              | false =>
                cases h
                refine andAlso_query (x := false) (y := true) ?_ (fun h => by cases h)
                quse (loopStr_query (p := p) (q := q) (k := 2) (a := r) (b := r') rfl rfl h1)
              | true =>
                rw [if_neg (by simp)] at h
                rw [← Bool.true_and v]
                refine andAlso_query ?_ (fun _ => ?_)
                · quse (loopStr_query (p := p) (q := q) (k := 2) (a := r) (b := r') rfl rfl h1)
                · have e2 : v = (decide (x.directive = y.directive) && v) := by
                    by_cases hd : x.directive = y.directive
                    · simp [hd]
                    · rw [if_pos hd] at h; cases h; simp
                  rw [e2]
                  refine andAlso_query ?_ (fun hd => ?_)
                  · quse (field_ints_query (p := p) (q := q) (i := 1) (j := 1) (x := x.directive) (y := y.directive) rfl rfl)
                  · have hd : x.directive = y.directive := by simpa using hd
                    rw [if_neg (by simp [hd])] at h
                    obtain ⟨e3, h3, h⟩ := Out.bind_eq_ok.mp h
                    have : v = e3 := by cases e3 <;> cases h <;> rfl
                    subst this
                    quse (loopStr_query (p := p) (q := q) (k := 3) (a := u) (b := u') rfl rfl h3)
    · rw [if_pos hl] at h
      rw [if_pos (by omega)]
      cases h
      exact Query.ret _

theorem foundLoop_until (a : Loop) : ∀ l : List Loop, Loop.foundLoop a l =
    until_ (fun (b : Loop) (_ : List Loop) (_ : Unit) => match Loop.equalOne a b with
      | .ok true => Out.ok (.inr true) | .ok false => .ok (.inl ()) | .err => .err | .ub => .ub) (fun _ => false) l ()
  | [] => rfl
  | b :: l => by
    simp only [Loop.foundLoop, until_]
    cases Loop.equalOne a b with
    | err => rfl
    | ub => rfl
    | ok e =>
      cases e with
      | true => rfl
      | false => exact foundLoop_until a l

theorem loopEqual_until (m : List Loop) : ∀ l : List Loop, Loop.equalLoop m l =
    until_ (fun (a : Loop) (_ : List Loop) (_ : Unit) => match Loop.foundLoop a m with
      | .ok true => Out.ok (.inl ()) | .ok false => .ok (.inr false) | .err => .err | .ub => .ub) (fun _ => true) l ()
  | [] => rfl
  | a :: l => by
    simp only [Loop.equalLoop, until_]
    cases Loop.foundLoop a m with
    | err => rfl
    | ub => rfl
    | ok e =>
      cases e with
      | false => rfl
      | true => exact loopEqual_until m l

theorem loopFind_query {x q n : Ptr} {a : Loop} {m : List Loop} {v : Bool} (h : Loop.foundLoop a m = .ok v) :
    Query (loopChain.list q m ∗ loopAt x a n) (chase loopNext (loopMeet x) (fun _ => false) q ()) v := by
  rw [foundLoop_until] at h
  refine chase_near (N := loopChain) loop_next (fun y k l1 _ p s r hr => ?_) h
  rw [Chain.list_cons, ex_sep]
  refine Query.ex (fun o => ?_)
  show Query ((loopAt p y o ∗ loopChain.list o k) ∗ loopAt x a n) _ _
  unfold loopMeet
  cases he : Loop.equalOne a y with
  | err => rw [he] at hr; cases hr
  | ub => rw [he] at hr; cases hr
  | ok e =>
    rw [he] at hr
    qnext (loopEqualOne_query (p := x) (q := p) (n := n) (o := o) he)
    cases e <;> cases hr <;> exact Query.ret _

theorem loopNodes_query {p q : Ptr} {l m : List Loop} {v : Bool} (h : (if l.length ≠ m.length then Out.ok false else Loop.equalLoop m l) = .ok v) :
    Query (loopChain.list p l ∗ loopChain.list q m) (loopNodes p q) v := by
  unfold loopNodes
  refine Query.bind (countAll_query (N := loopChain) loop_next).left ?_
  refine Query.bind (countAll_query (N := loopChain) loop_next).right ?_
  by_cases hl : l.length ≠ m.length
  · rw [if_pos hl] at h ⊢
    cases h
    exact Query.ret _
  · rw [if_neg hl] at h ⊢
    rw [loopEqual_until] at h
    refine chase_near (N := loopChain) loop_next (fun a k l1 _ x s r hr => ?_) h
    rw [Chain.list_cons, ex_sep]
    refine Query.ex (fun o => ?_)
    show Query ((loopAt x a o ∗ loopChain.list o k) ∗ loopChain.list q m) _ _
    unfold loopTurn
    cases he : Loop.foundLoop a m with
    | err => rw [he] at hr; cases hr
    | ub => rw [he] at hr; cases hr
    | ok e =>
      rw [he] at hr
      qnext (loopFind_query (x := x) (q := q) (n := o) he)
      cases e <;> cases hr <;> exact Query.ret _

/-- C75: `osl_loop_equal` on two separate lists only reads them. -/
theorem loop_equal_query {p q : Ptr} {l m : List Loop} {v : Bool} (h : Loop.equal l m = .ok v) :
    Query (loopChain.list p l ∗ loopChain.list q m) (loopEqual p q) v := by
  have := eqNodes_query (f := fun p (x : NE Loop) => loopChain.list p (NE.elems (some x))) (g := fun a b => Loop.equal (NE.elems a) (NE.elems b))
    (hn := fun {p x h} hh => by cases x; exact Chain.list_cons_ne hh)
    (ho := fun {p x h} hh => by
      cases x
      simp only [NE.elems, Chain.list_cons] at hh
      obtain ⟨n, _, _, _, rfl, h1, _⟩ := hh
      have := loopChain.own h1
      simp only [join]
      intro e
      exact this (Option.or_eq_none_iff.mp e).1) rfl (fun x => by cases x; rfl) (fun x => by cases x; rfl) (p := p) (q := q) (d := NE.ofList l) (e := NE.ofList m) (m := loopNodes p q) (v := v)
    (fun x y h => by cases x; cases y; exact loopNodes_query h) (by simpa only [NE.elems_ofList] using h)
  simp only [optAt_list, NE.elems_ofList] at this
  exact this

end Osl.Mem
