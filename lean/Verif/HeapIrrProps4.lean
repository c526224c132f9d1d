import Verif.HeapIrrProps3
import Verif.HeapQueryExtProps2
/-!
# The irregular extension in memory (C78): comparison
-/

set_option linter.unusedSectionVars false

namespace Osl.Mem

open Osl.Ext

variable [Allocator] {K X Y α : Type}

theorem slotPtr_query {p : Ptr} {l : List Ptr} {i : Int} {x : Ptr} (h : nth l i = .ok x) : Query (p ↦ .ptrs l) (slotPtr p i) x := by
  unfold slotPtr
  refine Query.bind loadPtrs_query ?_
  exact Query.lift h

theorem ints_slot_query {a : Ptr} {l : List Int} {i : Nat} {x : Int} (hx : l[i]? = some x) : Query (intsAt a l) (slotInt a i) x := by
  refine Query.of_fact (φ := a ≠ 0) (fun h hh => ?_) (fun hp => ?_)
  · intro e
    subst e
    rw [intsAt_null] at hh
    rw [hh.1] at hx
    cases hx
  · rw [intsAt_ne hp]
    unfold slotInt
    refine Query.bind loadNode_query ?_
    exact Query.lift (nth_of_get hx)

/-- What can be asked about the thing number `i` can be asked through the table. -/
theorem table_query {f : Ptr → X → Assn} {a : Ptr} {l : List X} {i : Nat} {x : X} (hx : l[i]? = some x) {m : Ptr → M α} {F : Assn} {v : α}
    (hm : ∀ p, Query (f p x ∗ F) (m p) v) : Query (tableAt f a l ∗ F) (slotPtr a i >>= m) v := by
  refine Query.opened (fun h0 hh => ?_)
  obtain ⟨h1, h2, d, e, ht, hF⟩ := hh
  by_cases ha : a = 0
  · subst ha
    rw [tableAt_null] at ht
    rw [ht.1] at hx
    cases hx
  · rw [tableAt_ne ha] at ht
    obtain ⟨ps, ht⟩ := ht
    have he := ht
    obtain ⟨_, _, _, _, _, he⟩ := he
    obtain ⟨p, hp⟩ := each_some hx he
    rw [eachAt_take hp hx] at ht
    refine ⟨(a ↦ .ptrs ps ∗ f p x ∗ eachAt f (ps.eraseIdx i) (l.eraseIdx i)) ∗ F, ⟨h1, h2, d, e, ht, hF⟩, ?_⟩
    refine Query.bind ((slotPtr_query (nth_of_some hp)).left.left) ?_
    refine (hm p).mono (fun h hh => ?_)
    have hh : ((f p x ∗ F) ∗ (a ↦ .ptrs ps ∗ eachAt f (ps.eraseIdx i) (l.eraseIdx i))) h := hh.perm (by ac_rfl)
    exact sep_mono (fun _ h => h) (fun _ _ => trivial) hh

theorem loadChars_query {p : Ptr} {w : Str} : Query (p ↦ .chars w) (loadChars p) w := by
  unfold loadChars
  qstep Query.load
  exact Query.lift rfl

theorem strCmpAt_query {cmp : Str → Str → Int} {a b : Ptr} {s t : Option Str} {v : Int} (h : Irregular.strCmp cmp s t = .ok v) :
    Query (uriAt a s ∗ uriAt b t) (strCmpAt cmp a b) v := by
  cases s with
  | none => cases h
  | some s =>
    cases t with
    | none => cases h
    | some t =>
      have h : Out.ok (cmp s t) = .ok v := h
      cases h
      unfold strCmpAt
      refine Query.bind (Query.left ?_) (Query.bind (Query.right ?_) (Query.ret _))
      · exact loadChars_query
      · exact loadChars_query

theorem irrEqualIter_query {cmp : Str → Str → Int} {it it' : Ptr} {L L' : List (List (Option Str))} {l m : List (Option Str)} {i j : Nat} {a b : Option Str} {v : Int}
    (hl : L[i]? = some l) (hm : L'[i]? = some m) (ha : l[j]? = some a) (hb : m[j]? = some b) (h : Irregular.strCmp cmp a b = .ok v) :
    Query (tableAt (tableAt uriAt) it L ∗ tableAt (tableAt uriAt) it' L') (irrEqualIter cmp it it' i j) (decide (v = 0)) := by
  unfold irrEqualIter
  refine table_query hl (fun s => table_query ha (fun w => ?_))
  rw [sep_comm]
  refine table_query hm (fun s' => table_query hb (fun w' => ?_))
  rw [sep_comm]
  exact Query.bind (strCmpAt_query h) (Query.ret _)

theorem irrEqualIters_query {cmp : Str → Str → Int} {it it' : Ptr} {L L' : List (List (Option Str))} {l m : List (Option Str)} {i : Nat}
    (hl : L[i]? = some l) (hm : L'[i]? = some m) : ∀ (u v l' m' : List (Option Str)) (k : Nat), l = u ++ l' → m = v ++ m' → u.length = k → v.length = k → ∀ {r : Bool}, Irregular.equalIters cmp l' m' = .ok r →
    Query (tableAt (tableAt uriAt) it L ∗ tableAt (tableAt uriAt) it' L') (allBelow (irrEqualIter cmp it it' i) l'.length k) r
  | _, _, [], _, _, _, _, _, _, r, h => by
    have h : Out.ok true = .ok r := h
    cases h
    exact Query.ret _
  | _, _, _ :: _, [], _, _, _, _, _, _, h => by cases h
  | u, v, a :: l', b :: m', k, e1, e2, h1, h2, r, h => by
    have h : (Irregular.strCmp cmp a b >>= fun v => if v ≠ 0 then pure false else Irregular.equalIters cmp l' m') = .ok r := h
    obtain ⟨z, hz, h⟩ := Out.bind_eq_ok.mp h
    have q := irrEqualIter_query (it := it) (it' := it') (j := k) hl hm (a := a) (b := b) (by rw [e1]; simp [← h1]) (by rw [e2]; simp [← h2]) hz
    show Query _ (irrEqualIter cmp it it' i k >>= fun b => if b then allBelow (irrEqualIter cmp it it' i) l'.length (k + 1) else pure false) r
    refine Query.bind q ?_
    by_cases hz0 : z = 0
    · rw [if_neg (by simp [hz0])] at h
      rw [if_pos (by simp [hz0])]
      exact irrEqualIters_query hl hm (u ++ [a]) (v ++ [b]) l' m' (k + 1) (by simp [e1]) (by simp [e2]) (by simp [h1]) (by simp [h2]) h
    · rw [if_pos hz0] at h
      rw [if_neg (by simp [hz0])]
      cases h
      exact Query.ret _

theorem irrEqualStmts_query {np np' : Ptr} {L L' : List (List Int)} : ∀ (u v l m : List (List Int)) (k : Nat), L = u ++ l → L' = v ++ m → u.length = k → v.length = k → l.length = m.length →
    Query (intsAt np (L.map fun x => (x.length : Int)) ∗ intsAt np' (L'.map fun x => (x.length : Int))) (allBelow (irrEqualStmt np np') l.length k) (Irregular.equalStmts l m)
  | _, _, [], [], _, _, _, _, _, _ => Query.ret _
  | _, _, [], _ :: _, _, _, _, _, _, h => by simp at h
  | _, _, _ :: _, [], _, _, _, _, _, h => by simp at h
  | u, v, a :: l, b :: m, k, e1, e2, h1, h2, h => by
    show Query _ (irrEqualStmt np np' k >>= fun b => if b then allBelow (irrEqualStmt np np') l.length (k + 1) else pure false) _
    have q : Query (intsAt np (L.map fun x => (x.length : Int)) ∗ intsAt np' (L'.map fun x => (x.length : Int))) (irrEqualStmt np np' k) (decide ((a.length : Int) = b.length)) := by
      unfold irrEqualStmt
      refine Query.bind (Query.left (ints_slot_query (x := (a.length : Int)) ?_)) (Query.bind (Query.right (ints_slot_query (x := (b.length : Int)) ?_)) (Query.ret _))
      · rw [e1]; simp [← h1]
      · rw [e2]; simp [← h2]
    refine Query.bind q ?_
    by_cases hz : a.length = b.length
    · rw [if_pos (by simp [hz])]
      rw [show Irregular.equalStmts (a :: l) (b :: m) = Irregular.equalStmts l m by simp [Irregular.equalStmts, hz]]
      exact irrEqualStmts_query (u ++ [a]) (v ++ [b]) l m (k + 1) (by simp [e1]) (by simp [e2]) (by simp [h1]) (by simp [h2]) (by simpa using h)
    · rw [if_neg (by simp; omega)]
      rw [show Irregular.equalStmts (a :: l) (b :: m) = false by simp [Irregular.equalStmts, hz]]
      exact Query.ret _

/-- One turn of the loop over the predicates. -/
def predEq (cmp : Str → Str → Int) (p q : Pred) : Out Bool := do
  let v ← Irregular.strCmp cmp p.body q.body
  if (if p.iters.length ≠ q.iters.length then 1 else 0) + v ≠ 0 then return false else Irregular.equalIters cmp p.iters q.iters

theorem predEq_step {cmp : Str → Str → Int} {n : Nat} {p q : Pred} {ps qs : List Pred} {r : Bool} (h : Irregular.equalPreds cmp (n + 1) (p :: ps) (q :: qs) = .ok r) :
    ∃ b, predEq cmp p q = .ok b ∧ (if b = true then Irregular.equalPreds cmp n ps qs = .ok r else r = false) := by
  simp only [Irregular.equalPreds] at h
  obtain ⟨v, hv, h⟩ := Out.bind_eq_ok.mp h
  unfold predEq
  rw [hv, Out.ok_bind]
  by_cases hc : (if p.iters.length ≠ q.iters.length then 1 else 0) + v ≠ 0
  · rw [if_pos hc] at h ⊢
    exact ⟨false, rfl, by cases h; rfl⟩
  · rw [if_neg hc] at h ⊢
    obtain ⟨b, hb, h⟩ := Out.bind_eq_ok.mp h
    refine ⟨b, hb, ?_⟩
    cases b with
    | true => rw [if_pos rfl] at h ⊢; exact h
    | false => rw [if_neg (by simp)] at h ⊢; cases h; rfl

theorem irrEqualPred_query {cmp : Str → Str → Int} {o o' : Ptr × Ptr × Ptr} {L L' : List Pred} {x y : Pred} {i : Nat} (hx : L[i]? = some x) (hy : L'[i]? = some y) {r : Bool}
    (h : predEq cmp x y = .ok r) : Query (predsAt o.1 o.2.1 o.2.2 L ∗ predsAt o'.1 o'.2.1 o'.2.2 L') (irrEqualPred cmp o o' i) r := by
  unfold predEq at h
  obtain ⟨v, hv, h⟩ := Out.bind_eq_ok.mp h
  unfold irrEqualPred predsAt
  qnext (ints_slot_query (a := o.1) (i := i) (map_getQ hx))
  qnext (ints_slot_query (a := o'.1) (i := i) (map_getQ hy))
  have hsep : Query (tableAt uriAt o.2.2 (L.map Pred.body) ∗ tableAt uriAt o'.2.2 (L'.map Pred.body)) (slotCmp cmp o.2.2 o'.2.2 i) v := by
    refine table_query (map_getQ hx) (fun b => ?_)
    rw [sep_comm]
    refine table_query (map_getQ hy) (fun b' => ?_)
    rw [sep_comm]
    exact strCmpAt_query hv
  qnext hsep
  by_cases hc : (if x.iters.length ≠ y.iters.length then 1 else 0) + v ≠ 0
  · rw [if_pos hc] at h
    rw [if_pos (by simpa [Int.natCast_inj] using hc)]
    cases h
    exact Query.ret _
  · rw [if_neg hc] at h
    rw [if_neg (by simpa [Int.natCast_inj] using hc)]
    rw [Int.toNat_natCast]
    have q := irrEqualIters_query (it := o.2.1) (it' := o'.2.1) (L := L.map Pred.iters) (L' := L'.map Pred.iters) (map_getQ hx) (map_getQ hy) [] [] x.iters y.iters 0 rfl rfl rfl rfl h
    quse q

theorem irrEqualPreds_loop {cmp : Str → Str → Int} {o o' : Ptr × Ptr × Ptr} {L L' : List Pred} : ∀ (n : Nat) (u v l m : List Pred) (k : Nat), L = u ++ l → L' = v ++ m → u.length = k → v.length = k →
    ∀ {r : Bool}, Irregular.equalPreds cmp n l m = .ok r → Query (predsAt o.1 o.2.1 o.2.2 L ∗ predsAt o'.1 o'.2.1 o'.2.2 L') (allBelow (irrEqualPred cmp o o') n k) r
  | 0, _, _, _, _, _, _, _, _, _, r, h => by
    have h : Out.ok true = .ok r := by simpa [Irregular.equalPreds] using h
    cases h
    exact Query.ret _
  | _ + 1, _, _, [], _, _, _, _, _, _, r, h => by simp [Irregular.equalPreds] at h
  | _ + 1, _, _, _ :: _, [], _, _, _, _, _, r, h => by simp [Irregular.equalPreds] at h
  | n + 1, u, v, a :: l, b :: m, k, e1, e2, h1, h2, r, h => by
    obtain ⟨z, hz, h⟩ := predEq_step h
    show Query _ (irrEqualPred cmp o o' k >>= fun b => if b then allBelow (irrEqualPred cmp o o') n (k + 1) else pure false) _
    refine Query.bind (irrEqualPred_query (x := a) (y := b) (by rw [e1]; simp [← h1]) (by rw [e2]; simp [← h2]) hz) ?_
    cases z with
    | true =>
      rw [if_pos rfl] at h ⊢
      exact irrEqualPreds_loop n (u ++ [a]) (v ++ [b]) l m (k + 1) (by simp [e1]) (by simp [e2]) (by simp [h1]) (by simp [h2]) h
    | false =>
      rw [if_neg (by simp)] at h ⊢
      rw [h]
      exact Query.ret _

theorem irrPreds_query {p nb it bo np pr : Ptr} {is : List Int} : Query (p ↦ .node is [nb, it, bo, np, pr]) (irrPreds p) (nb, it, bo) := by
  unfold irrPreds
  qnext (getPtr_query (p := p) (i := 0) (x := nb))
  qnext (getPtr_query (p := p) (i := 1) (x := it))
  qnext (getPtr_query (p := p) (i := 2) (x := bo))
  exact Query.ret _

theorem irrEqualNodes_query {cmp : Str → Str → Int} {p q : Ptr} {x y : Irregular} {v : Bool} (hw : x.WF) (hlt : x.nbControl + x.nbExit < 2 ^ 31)
    (h : Irregular.equal cmp (some x) (some y) = .ok v) : Query (irrAt p x ∗ irrAt q y) (irrEqualNodes cmp p q) v := by
  simp only [Irregular.equal] at h
  unfold irrAt stmtListsAt
  qnorm
  rename_i nb it bo np pr nb' it' bo' np' pr'
  unfold irrEqualNodes
  qnext (getInt_query (p := p) (i := 2))
  qnext (getInt_query (p := q) (i := 2))
  qnext (getInt_query (p := p) (i := 0))
  qnext (getInt_query (p := q) (i := 0))
  qnext (getInt_query (p := p) (i := 1))
  qnext (getInt_query (p := q) (i := 1))
  by_cases hc : x.stmts.length ≠ y.stmts.length ∨ x.nbControl ≠ y.nbControl ∨ x.nbExit ≠ y.nbExit
  · rw [if_pos hc] at h
    rw [if_pos (by omega)]
    cases h
    exact Query.ret _
  · rw [if_neg hc] at h
    rw [if_neg (by omega)]
    unfold irrEqualArrays
    qnext (getPtr_query (p := p) (i := 3))
    qnext (getPtr_query (p := q) (i := 3))
    rw [Int.toNat_natCast]
    qnext (irrEqualStmts_query (np := np) (np' := np') (L := x.stmts) (L' := y.stmts) [] [] x.stmts y.stmts 0 rfl rfl rfl rfl (by omega))
    cases he : Irregular.equalStmts x.stmts y.stmts with
    | false =>
      rw [he, if_pos rfl] at h
      cases h
      exact Query.ret _
    | true =>
      rw [he, if_neg (by simp)] at h
      rw [if_pos rfl]
      unfold irrEqualPreds
      qnext (getInt_query (p := p) (i := 0))
      qnext (getInt_query (p := p) (i := 1))
      refine Query.bind (Query.lift (Irregular.addI_ok hw.control hw.exit hlt)) ?_
      qnext (irrPreds_query (p := p))
      qnext (irrPreds_query (p := q))
      quse (irrEqualPreds_loop (o := (nb, it, bo)) (o' := (nb', it', bo')) (x.nbControl + x.nbExit).toNat [] [] x.preds y.preds 0 rfl rfl rfl rfl h)

open Classical in
/-- The comparison, on structures whose number of predicates fits in an `int`. -/
noncomputable def equalIf (cmp : Str → Str → Int) (d e : Option Irregular) : Out Bool :=
  match d, e with
  | some x, some y => if x.WF ∧ x.nbControl + x.nbExit < 2 ^ 31 then Irregular.equal cmp (some x) (some y) else .ub
  | d, e => Irregular.equal cmp d e

theorem equalIf_some {cmp : Str → Str → Int} {x y : Irregular} (hx : x.WF ∧ x.nbControl + x.nbExit < 2 ^ 31) : equalIf cmp (some x) (some y) = Irregular.equal cmp (some x) (some y) :=
  if_pos hx

/-- C78: `osl_irregular_equal` on two separate structures only reads them, and gives the value. -/
theorem irregular_equal_query {cmp : Str → Str → Int} {p q : Ptr} {d e : Option Irregular} {v : Bool} (hw : ∀ x, d = some x → x.WF ∧ x.nbControl + x.nbExit < 2 ^ 31)
    (h : Irregular.equal cmp d e = .ok v) : Query (optAt irrAt p d ∗ optAt irrAt q e) (irrEqual cmp p q) v := by
  refine eqNodes_query (g := equalIf cmp) (hn := fun h => irrAt_ne _ h) (ho := ?_) rfl (fun _ => rfl) (fun _ => rfl) (fun x y h => ?_) ?_
  · rintro p x h ⟨a, b, c, d, e, hh⟩
    exact own_pto hh
  · have hx : x.WF ∧ x.nbControl + x.nbExit < 2 ^ 31 := Classical.byContradiction (fun hn => by
      simp only [equalIf] at h
      rw [if_neg hn] at h
      cases h)
    rw [equalIf_some hx] at h
    exact irrEqualNodes_query hx.1 hx.2 h
  · cases d with
    | none => cases e <;> exact h
    | some x =>
      cases e with
      | none => exact h
      | some y => rw [equalIf_some (hw x rfl)]; exact h

/-- C78: a structure is equal to itself, whatever its content. -/
theorem irregular_equal_self_memory {cmp : Str → Str → Int} {p : Ptr} {x : Irregular} : Query (irrAt p x) (irrEqual cmp p p) true := by
  unfold irrEqual eqNodes
  rw [if_pos rfl]
  exact Query.ret _

end Osl.Mem
