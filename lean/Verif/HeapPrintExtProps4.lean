import Verif.HeapPrintExtProps3
/-!
# Printing extensions in memory (C74): annotations and lists
-/

set_option linter.unusedSectionVars false

namespace Osl.Mem

open Osl.Ext

variable [Allocator]

/-! ## Walking along a list, writing a text -/

/-- The text written along a list; the nodes are numbered, and the last argument of `g` tells whether the node is the last one. -/
def foldText {α : Type} (g : Nat → α → Bool → Out Str) : Nat → List α → Out Str
  | _, [] => .ok []
  | k, a :: l => do
    let u ← g k a l.isEmpty
    let v ← foldText g (k + 1) l
    return u ++ v

theorem foldText_fold {α : Type} {g : Nat → α → Bool → Out Str} : ∀ {l : List α} {k : Nat} {u t : Str}, foldText g k l = .ok u →
    foldOut (fun a last (s : Nat × Str) => g s.1 a last >>= fun u => .ok (s.1 + 1, s.2 ++ u)) l (k, t) = .ok (k + l.length, t ++ u)
  | [], k, u, t, h => by
    cases h
    simp [foldOut]
  | a :: l, k, u, t, h => by
    obtain ⟨v, h1, h⟩ := Out.bind_eq_ok.mp h
    obtain ⟨w, h2, h⟩ := Out.bind_eq_ok.mp h
    cases h
    refine Out.bind_eq_ok.mpr ⟨(k + 1, t ++ v), ?_, ?_⟩
    · dsimp only
      rw [h1]
      rfl
    · rw [foldText_fold h2, List.length_cons, List.append_assoc, Nat.add_assoc, Nat.add_comm 1]

/-- A numbered walk which writes a text. -/
theorem walkText_spec {α : Type} {N : Chain α} {act : Ptr → Nat × StrBuf → M (Nat × StrBuf)} {g : Nat → α → Bool → Out Str} {l : List α} {p : Ptr} {k : Nat} {b : StrBuf} {t u : Str}
    (hact : ∀ a ∈ l, ∀ p n k b t u, g k a (decide (n = 0)) = .ok u →
      Triple (N.at_ p a n ∗ bufAt b t) (act p (k, b)) (fun s => pur (s.1 = k + 1) ∗ N.at_ p a n ∗ bufAt s.2 (t ++ u)))
    (h : foldText g k l = .ok u) : Triple (N.list p l ∗ bufAt b t) (walk N.toNext act p (k, b)) (fun s => N.list p l ∗ bufAt s.2 (t ++ u)) := by
  have := walk_spec (N := N) (act := act) (A := fun (s : Nat × StrBuf) (t : Nat × Str) => pur (s.1 = t.1) ∗ bufAt s.2 t.2) (p := p) (s := (k, b)) (fun a ha p n s t t' hg => by
    obtain ⟨k1, b1⟩ := s
    obtain ⟨k2, t1⟩ := t
    obtain ⟨v, h1, hg⟩ := Out.bind_eq_ok.mp hg
    cases hg
    dsimp only
    refine Triple.pre (P := pur (k1 = k2) ∗ N.at_ p a n ∗ bufAt b1 t1) (Triple.fact (fun hk => ?_)) (fun h hh => hh.perm (by ac_rfl))
    subst hk
    exact (hact a ha p n k1 b1 t1 v h1).post (fun s h hh => hh.perm (by ac_rfl))) (foldText_fold (t := t) h)
  refine this.conseq (fun h hh => ?_) (fun s h hh => ?_)
  · rw [pur_true rfl, emp_sep]
    exact hh
  · have hh : (pur (s.1 = k + l.length) ∗ N.list p l ∗ bufAt s.2 (t ++ u)) h := hh.perm (by ac_rfl)
    exact (pur_sep_iff.mp hh).2

/-- A walk which writes a text. -/
theorem walkPlain_spec {α : Type} {N : Chain α} {act : Ptr → StrBuf → M StrBuf} {g : Nat → α → Bool → Out Str} {l : List α} {p : Ptr} {b : StrBuf} {t u : Str}
    (hact : ∀ a ∈ l, ∀ p n k b t u, g k a (decide (n = 0)) = .ok u → Triple (N.at_ p a n ∗ bufAt b t) (act p b) (fun b' => N.at_ p a n ∗ bufAt b' (t ++ u)))
    (h : foldText g 0 l = .ok u) : Triple (N.list p l ∗ bufAt b t) (walk N.toNext act p b) (fun b' => N.list p l ∗ bufAt b' (t ++ u)) := by
  exact walk_spec (N := N) (act := act) (A := fun (s : StrBuf) (t : Nat × Str) => bufAt s t.2) (p := p) (s := b) (fun a ha p n s t t' hg => by
    obtain ⟨k2, t1⟩ := t
    obtain ⟨v, h1, hg⟩ := Out.bind_eq_ok.mp hg
    cases hg
    exact hact a ha p n k2 s t1 v h1) (foldText_fold (t := t) h)

/-! ## Annotations -/

/-- C74: `osl_annotation_sprint`. -/
theorem annotation_sprint_memory {p : Ptr} {d : Option Annotation} {t : Option Str} (h : Annotation.sprint d = .ok t) :
    Triple (optAt annAt p d) (annSprint p) (fun q => optAt annAt p d ∗ uriAt q t) := by
  cases d with
  | none => cases h
  | some x =>
    simp only [Annotation.sprint] at h
    obtain ⟨p1, h1, h⟩ := Out.bind_eq_ok.mp h
    obtain ⟨p2, h2, h⟩ := Out.bind_eq_ok.mp h
    have h := some_of_emit h
    subst h
    simp only [optAt_some, uriAt]
    unfold annSprint
    hstep bufNew_spec
    hstep safe_strcat_memory
    unfold annAt
    rw [sep_comm, ex_sep]
    refine Triple.exi (fun r1 => ?_)
    rw [ex_sep]
    refine Triple.exi (fun r2 => ?_)
    hstep (textSprint_spec (p := p) (k := 0) (r := r1) rfl rfl rfl h1)
    hstep (textSprint_spec (p := p) (k := 1) (r := r2) rfl rfl rfl h2)
    hlast bufDone_spec
    simp only [List.flatten_cons, List.flatten_append, List.flatten_nil, List.append_nil, List.nil_append, List.append_assoc]
    refine Triple.ret (fun h hh => ?_)
    refine sep_mono (P := p ↦ .node [r1.count, r2.count] [r1.types, r1.lines, r2.types, r2.lines] ∗ textAt r1 x.pre ∗ textAt r2 x.suf)
      (fun _ hx => ⟨r1, r2, hx⟩) (fun _ h => h) ?_
    exact hh.perm (by ac_rfl)

/-! ## Regions -/

theorem region_fold {n : Nat} {l : List Region} {k : Nat} {ps : List Str} (h : Region.piecesLoop n k l = .ok ps) :
    foldText (fun k x _ => Region.pieces n k x >>= fun u => .ok u.flatten) k l = .ok ps.flatten := by
  induction l generalizing k ps with
  | nil => cases h; rfl
  | cons x l ih =>
    unfold Region.piecesLoop at h
    obtain ⟨u, h1, h⟩ := Out.bind_eq_ok.mp h
    obtain ⟨v, h2, h⟩ := Out.bind_eq_ok.mp h
    cases h
    unfold foldText
    rw [h1, Out.ok_bind, Out.ok_bind, ih h2, Out.ok_bind, List.flatten_append]
    rfl

theorem regionStep_spec {p n : Ptr} {x : Region} {cnt k : Nat} {b : StrBuf} {t : Str} {ps : List Str} (h : Region.pieces cnt k x = .ok ps) :
    Triple (regionAt p x n ∗ bufAt b t) (regionStep cnt p (k, b)) (fun s => pur (s.1 = k + 1) ∗ regionAt p x n ∗ bufAt s.2 (t ++ ps.flatten)) := by
  unfold Region.pieces at h
  obtain ⟨v1, h1, h⟩ := Out.bind_eq_ok.mp h
  obtain ⟨v2, h2, h⟩ := Out.bind_eq_ok.mp h
  obtain ⟨v3, h3, h⟩ := Out.bind_eq_ok.mp h
  obtain ⟨v4, h4, h⟩ := Out.bind_eq_ok.mp h
  obtain ⟨v5, h5, h⟩ := Out.bind_eq_ok.mp h
  obtain ⟨v6, h6, h⟩ := Out.bind_eq_ok.mp h
  cases h
  unfold regionStep
  unfold regionAt
  rw [ex_sep]
  refine Triple.exi (fun r1 => ?_)
  rw [ex_sep]
  refine Triple.exi (fun r2 => ?_)
  rw [ex_sep]
  refine Triple.exi (fun r3 => ?_)
  rw [ex_sep]
  refine Triple.exi (fun r4 => ?_)
  hstep safe_strcat_memory
  hstep (bufPrint_spec h1)
  hstep safe_strcat_memory
  hstep (getInt_spec (p := p) (i := 4) (x := x.location) rfl)
  hstep (bufPrint_spec h2)
  hstep (textSprint_spec (p := p) (k := 0) (r := r1) rfl rfl rfl h3)
  hstep (textSprint_spec (p := p) (k := 1) (r := r2) rfl rfl rfl h4)
  hstep (textSprint_spec (p := p) (k := 2) (r := r3) rfl rfl rfl h5)
  hstep (textSprint_spec (p := p) (k := 3) (r := r4) rfl rfl rfl h6)
  simp only [List.flatten_cons, List.flatten_append, List.flatten_nil, List.append_nil, List.append_assoc]
  refine Triple.ret (fun h hh => pur_sep_iff.mpr ⟨rfl, ?_⟩)
  refine sep_mono (P := p ↦ .node [r1.count, r2.count, r3.count, r4.count, x.location] [r1.types, r1.lines, r2.types, r2.lines, r3.types, r3.lines, r4.types, r4.lines, n] ∗
      textAt r1 x.pre ∗ textAt r2 x.suf ∗ textAt r3 x.prelude ∗ textAt r4 x.postlude)
    (fun _ hx => ⟨r1, r2, r3, r4, hx⟩) (fun _ h => h) ?_
  exact hh.perm (by ac_rfl)

/-- C74: `osl_region_sprint`. -/
theorem region_sprint_memory {p : Ptr} {l : List Region} {t : Option Str} (h : Region.sprint l = .ok t) :
    Triple (regionChain.list p l) (regionSprint p) (fun q => regionChain.list p l ∗ uriAt q t) := by
  unfold Region.sprint Region.count at h
  obtain ⟨v1, h1, h⟩ := Out.bind_eq_ok.mp h
  obtain ⟨v2, h2, h⟩ := Out.bind_eq_ok.mp h
  have h := some_of_emit h
  subst h
  unfold regionSprint
  hstep (regionChain.countAll_spec l p)
  hstep bufNew_spec
  hstep (bufPrint_spec h1)
  hstep (walkText_spec (N := regionChain) (act := regionStep l.length) (p := p) (k := 0) (fun x _ p n k b t u hu => by
    obtain ⟨us, h3, hu⟩ := Out.bind_eq_ok.mp hu
    cases hu
    exact regionStep_spec h3) (region_fold h2))
  hlast bufDone_spec
  simp only [uriAt, List.flatten_cons, List.nil_append, List.cons_append]
  hret

/-! ## Loops -/

theorem loop_fold {l : List Loop} {k : Nat} {ps : List Str} (h : Loop.pieces (k + 1) l = .ok ps) :
    foldText (fun k x _ => Loop.piece (k + 1) x) k l = .ok ps.flatten := by
  induction l generalizing k ps with
  | nil => cases h; rfl
  | cons x l ih =>
    unfold Loop.pieces at h
    obtain ⟨u, h1, h⟩ := Out.bind_eq_ok.mp h
    obtain ⟨v, h2, h⟩ := Out.bind_eq_ok.mp h
    cases h
    unfold foldText
    rw [h1, Out.ok_bind, ih h2, Out.ok_bind, List.flatten_cons]
    rfl

/-- The text after the directive (specification). -/
def userText (x : Loop) : Out Str := if Loop.isUser x.directive then buf (" ".toList ++ Loop.percentS x.user) else .ok []

theorem directiveText_user {x : Loop} {dt : Str} (h : Loop.directiveText x = .ok dt) : ∃ u, userText x = .ok u ∧ dt = showInt x.directive ++ (u ++ "\n".toList) := by
  unfold Loop.directiveText at h
  unfold userText
  by_cases hu : Loop.isUser x.directive
  · rw [if_pos hu] at h ⊢
    obtain ⟨v1, h1, h⟩ := Out.bind_eq_ok.mp h
    cases h
    exact ⟨v1, h1, by rw [List.append_assoc]⟩
  · rw [if_neg hu] at h ⊢
    cases h
    exact ⟨[], rfl, rfl⟩

theorem loopPrintUser_spec {p : Ptr} {is : List Int} {l : List Ptr} {s : Ptr} {x : Loop} {b : StrBuf} {t u : Str} (hs : nth l 3 = .ok s) (h : userText x = .ok u) :
    Triple (p ↦ .node is l ∗ uriAt s x.user ∗ bufAt b t) (loopPrintUser p x.directive b) (fun b' => p ↦ .node is l ∗ uriAt s x.user ∗ bufAt b' (t ++ u)) := by
  unfold userText at h
  unfold loopPrintUser
  by_cases hu : Loop.isUser x.directive
  · rw [if_pos hu] at h ⊢
    hstep (getPtr_spec (p := p) (i := 3) (x := s) hs)
    hstep (loadOpt_spec (p := s) (o := x.user))
    hlast (bufPrint_spec h)
    hret
  · rw [if_neg hu] at h ⊢
    cases h
    rw [List.append_nil]
    hret

theorem loopStep_spec {p n : Ptr} {x : Loop} {k : Nat} {b : StrBuf} {t u : Str} (h : Loop.piece (k + 1) x = .ok u) :
    Triple (loopAt p x n ∗ bufAt b t) (loopStep p (k, b)) (fun s => pur (s.1 = k + 1) ∗ loopAt p x n ∗ bufAt s.2 (t ++ u)) := by
  unfold Loop.piece at h
  obtain ⟨v1, h1, h⟩ := Out.bind_eq_ok.mp h
  obtain ⟨v2, h2, h⟩ := Out.bind_eq_ok.mp h
  obtain ⟨v3, h3, h⟩ := Out.bind_eq_ok.mp h
  cases h
  unfold loopStep
  unfold loopAt
  rw [ex_sep]
  refine Triple.exi (fun p1 => ?_)
  rw [ex_sep]
  refine Triple.exi (fun p2 => ?_)
  rw [ex_sep]
  refine Triple.exi (fun p3 => ?_)
  rw [ex_sep]
  refine Triple.exi (fun p4 => ?_)
  hstep bufCats_spec
  hstep (getPtr_spec (p := p) (i := 0) (x := p1) rfl)
  hstep (loadOpt_spec (p := p1) (o := x.iter))
  hstep (bufPrint_spec h1)
  hstep (getInt_spec (p := p) (i := 0) (x := (x.stmt_ids.length : Int)) rfl)
  hstep bufCats_spec
  hstep bufCats_spec
  hstep (getPtr_spec (p := p) (i := 1) (x := p2) rfl)
  hstep (printInts_spec (l := x.stmt_ids) (n := (x.stmt_ids.length : Int)) rfl)
  hstep safe_strcat_memory
  hstep (getPtr_spec (p := p) (i := 2) (x := p3) rfl)
  hstep (loadOpt_spec (p := p3) (o := x.private_vars))
  hstep (bufPrint_spec h2)
  hstep (getInt_spec (p := p) (i := 1) (x := x.directive) rfl)
  hstep bufCats_spec
  obtain ⟨v4, h4, rfl⟩ := directiveText_user h3
  hstep (loopPrintUser_spec (p := p) (s := p4) rfl h4)
  hstep safe_strcat_memory
  have e : (if (x.stmt_ids.length : Int) ≠ 0 then ["# Statement identifiers\n".toList] else []).flatten =
      (if x.stmt_ids.length ≠ 0 then "# Statement identifiers\n".toList else []) := by
    by_cases h : x.stmt_ids.length ≠ 0
    · rw [if_pos h, if_pos (by omega), List.flatten_cons, List.flatten_nil, List.append_nil]
    · rw [if_neg h, if_neg (by omega), List.flatten_nil]
  rw [e]
  simp only [List.flatten_cons, List.flatten_append, List.flatten_nil, List.append_nil, List.append_assoc]
  refine Triple.ret (fun h hh => pur_sep_iff.mpr ⟨rfl, ?_⟩)
  refine sep_mono (P := p ↦ .node [(x.stmt_ids.length : Int), x.directive] [p1, p2, p3, p4, n] ∗ uriAt p1 x.iter ∗ intsAt p2 x.stmt_ids ∗
    uriAt p3 x.private_vars ∗ uriAt p4 x.user) (fun _ hx => ⟨p1, p2, p3, p4, hx⟩) (fun _ h => h) ?_
  exact hh.perm (by simp only [showInt]; ac_rfl)

/-- C74: `osl_loop_sprint`. -/
theorem loop_sprint_memory {p : Ptr} {l : List Loop} {t : Option Str} (h : Loop.sprint l = .ok t) :
    Triple (loopChain.list p l) (loopSprint p) (fun q => loopChain.list p l ∗ uriAt q t) := by
  unfold Loop.sprint at h
  obtain ⟨v2, h2, h⟩ := Out.bind_eq_ok.mp h
  have h := some_of_emit h
  subst h
  unfold loopSprint
  hstep bufNew_spec
  hstep (loopChain.countAll_spec l p)
  hstep safe_strcat_memory
  hstep (walkText_spec (N := loopChain) (act := loopStep) (p := p) (k := 0) (fun x _ p n k b t u hu => loopStep_spec hu) (loop_fold h2))
  hlast bufDone_spec
  simp only [uriAt, List.flatten_cons, List.nil_append]
  hret

/-! ## Unrollings -/

/-- The text of one unrolling (specification). -/
def unrollText (x : Unroll) (last : Bool) : Out Str := do
  let n ← str x.iter
  return "# Iterator name\n".toList ++ n ++ "\n".toList ++ "# Jam\n".toList ++ showInt (Unroll.ofBool x.jam) ++ "\n".toList ++ "# Factor\n".toList ++ showNat x.factor ++ "\n".toList ++
    "# Next\n".toList ++ (if last then "0\n".toList else "1\n".toList)

theorem unroll_fold {l : List Unroll} {k : Nat} {u : Str} (h : Unroll.textLoop l = .ok u) : foldText (fun _ x last => unrollText x last) k l = .ok u := by
  induction l generalizing k u with
  | nil => cases h; rfl
  | cons x l ih =>
    unfold Unroll.textLoop at h
    obtain ⟨w, h1, h⟩ := Out.bind_eq_ok.mp h
    obtain ⟨v, h2, h⟩ := Out.bind_eq_ok.mp h
    cases h
    unfold foldText
    rw [ih h2]
    unfold unrollText
    rw [h1, Out.ok_bind]
    simp only [Out.pure_eq, Out.ok_bind]

theorem unrollStep_spec {p n : Ptr} {x : Unroll} {s u : Str} (h : unrollText x (decide (n = 0)) = .ok u) :
    Triple (unrollAt p x n) (unrollStep p s) (fun s' => pur (s' = s ++ u) ∗ unrollAt p x n) := by
  unfold unrollText at h
  obtain ⟨w, h1, h⟩ := Out.bind_eq_ok.mp h
  cases h
  unfold unrollStep
  unfold unrollAt
  refine Triple.exi (fun p1 => ?_)
  hstep (getPtr_spec (p := p) (i := 0) (x := p1) rfl)
  cases hn : x.iter with
  | none => rw [hn] at h1; cases h1
  | some w' =>
    rw [hn] at h1
    cases h1
    simp only [uriAt]
    hstep (loadChars_spec (p := p1) (w := w))
    hstep (getInt_spec (p := p) (i := 0) (x := Unroll.ofBool x.jam) rfl)
    hstep (getInt_spec (p := p) (i := 1) (x := (x.factor : Int)) rfl)
    hstep (getPtr_spec (p := p) (i := 1) (x := n) rfl)
    refine Triple.ret (fun h hh => pur_sep_iff.mpr ⟨?_, p1, hh⟩)
    by_cases h0 : n = 0
    · simp [h0, showInt]
    · simp [h0, showInt]

/-- C74: `osl_pluto_unroll_sprint`. -/
theorem unroll_sprint_memory {p : Ptr} {l : List Unroll} {t : Option Str} (h : Unroll.sprint l = .ok t) :
    Triple (unrollChain.list p l) (unrollSprint p) (fun q => unrollChain.list p l ∗ uriAt q t) := by
  unfold Unroll.sprint at h
  obtain ⟨v, h1, h⟩ := Out.bind_eq_ok.mp h
  obtain ⟨w, h2, h⟩ := Out.bind_eq_ok.mp h
  cases h
  have e : Triple (unrollChain.list p l) (unrollSprint p) (fun q => unrollChain.list p l ∗ q ↦ .chars w) := by
    refine Triple.of_fact (P := unrollChain.list p l) (φ := (p ≠ 0) ↔ (l.isEmpty = false)) (fun h hh => ?_) (fun hp => ?_)
    · cases l with
      | nil =>
        rw [Chain.list_null] at hh
        simp [hh.1]
      | cons x l => simp [Chain.list_cons_ne hh]
    unfold unrollSprint
    have e1 : (if p ≠ 0 then "1\n".toList else "0\n".toList) = (if l.isEmpty then "0\n".toList else "1\n".toList) := by
      cases hl : l.isEmpty with
      | true =>
        rw [hl] at hp
        rw [if_neg (by simpa using hp), if_pos rfl]
      | false =>
        rw [hl] at hp
        rw [if_pos (by simpa using hp), if_neg (by simp)]
    rw [e1]
    generalize hs : "# Pluto unroll\n".toList ++ (if l.isEmpty then "0\n".toList else "1\n".toList) = s at h2 ⊢
    have := walk_spec (N := unrollChain) (act := unrollStep) (A := fun (s : Str) (t : Nat × Str) => pur (s = t.2)) (p := p) (s := s) (fun a ha p n s t t' hg => by
      obtain ⟨k2, t1⟩ := t
      obtain ⟨v, h1, hg⟩ := Out.bind_eq_ok.mp hg
      cases hg
      dsimp only
      refine Triple.pre (P := pur (s = t1) ∗ unrollAt p a n) (Triple.fact (fun hk => ?_)) (fun h hh => hh.perm (by ac_rfl))
      subst hk
      exact (unrollStep_spec h1).post (fun s h hh => hh.perm (by ac_rfl))) (foldText_fold (t := s) (unroll_fold (k := 0) h1))
    dsimp only at this
    refine Triple.bind (this.conseq (Q' := fun s' => pur (s' = s ++ v) ∗ unrollChain.list p l) (fun h hh => ?_) (fun s h hh => hh.perm (by ac_rfl))) (fun s' => Triple.fact (fun hs' => ?_))
    · rw [pur_true rfl, sep_emp]
      exact hh
    subst hs'
    hstep (lift_spec h2)
    hlast Triple.alloc
    hret
  exact e

/-! ## Dependences -/

/-- The text of one dependence (specification). -/
def depText (c : Cfg) (k : Nat) (x : Dep) : Out Str := do
  let ty ← Dep.typeText x.type
  let dom ← Rel.sprint c x.domain
  return Dep.infoText k ty x ++ (Dep.dimsText x ++ dom)

theorem dep_fold {c : Cfg} {l : List Dep} {k : Nat} {ps : List Str} (h : Dep.pieces c k l = .ok ps) : foldText (fun k x _ => depText c k x) k l = .ok ps.flatten := by
  induction l generalizing k ps with
  | nil => cases h; rfl
  | cons x l ih =>
    unfold Dep.pieces at h
    obtain ⟨u, h1, h⟩ := Out.bind_eq_ok.mp h
    obtain ⟨v, h2, h⟩ := Out.bind_eq_ok.mp h
    obtain ⟨w, h3, h⟩ := Out.bind_eq_ok.mp h
    cases h
    unfold foldText
    rw [ih h3]
    unfold depText
    rw [h1, Out.ok_bind, h2]
    simp only [Out.pure_eq, Out.ok_bind, List.flatten_cons, List.append_assoc]

theorem infoText_domain {k : Nat} {ty : Str} {x : Dep} {r : Rel} : Dep.infoText k ty { x with domain := r } = Dep.infoText k ty x := rfl

theorem dimsText_domain {x : Dep} {r : Rel} : Dep.dimsText { x with domain := r } = Dep.dimsText x := rfl

theorem depStep_spec {c : Cfg} (hc : c.Valid) {p n : Ptr} {x : Dep} (hx : RelFits c x.domain) {k : Nat} {b : StrBuf} {t u : Str} (h : depText c k x = .ok u) :
    Triple (depAt c p x n ∗ bufAt b t) (depStep c p (k, b)) (fun s => pur (s.1 = k + 1) ∗ depAt c p x n ∗ bufAt s.2 (t ++ u)) := by
  unfold depText at h
  obtain ⟨v1, h1, h⟩ := Out.bind_eq_ok.mp h
  obtain ⟨v2, h2, h⟩ := Out.bind_eq_ok.mp h
  simp only [Out.pure_eq, Out.ok.injEq] at h
  subst h
  unfold depStep
  unfold depAt
  rw [ex_sep]
  refine Triple.exi (fun p1 => ?_)
  rw [ex_sep]
  refine Triple.exi (fun p2 => ?_)
  rw [ex_sep]
  refine Triple.exi (fun p3 => ?_)
  rw [ex_sep]
  refine Triple.exi (fun p4 => ?_)
  rw [ex_sep]
  refine Triple.exi (fun p5 => ?_)
  rw [ex_sep]
  refine Triple.exi (fun p6 => ?_)
  hstep (loadNode_spec (p := p))
  refine Triple.liftStep (a := { x with domain := [] }) rfl ?_
  dsimp only
  hstep (lift_spec h1)
  rw [infoText_domain, dimsText_domain]
  generalize Dep.infoText k v1 x = w1
  generalize Dep.dimsText x = w2
  hstep safe_strcat_memory
  hstep safe_strcat_memory
  hstep (getPtr_spec (p := p) (i := 0) (x := p1) rfl)
  hstep (relation_sprint_memory hc hx h2)
  hstep bufTake_spec
  simp only [List.append_assoc]
  refine Triple.ret (fun h hh => pur_sep_iff.mpr ⟨rfl, ?_⟩)
  refine sep_mono (P := p ↦ .node [x.label_source, x.label_target, x.ref_source, x.ref_target, x.depth, x.type, x.src_out_dom, x.src_out_acc, x.tgt_out_dom, x.tgt_out_acc,
      x.src_loc_dom, x.src_loc_acc, x.tgt_loc_dom, x.tgt_loc_acc] [p1, p2, p3, p4, p5, p6, n] ∗ relAt c p1 x.domain) (fun _ hx => ⟨p1, p2, p3, p4, p5, p6, hx⟩) (fun _ h => h) ?_
  exact hh.perm (by ac_rfl)

/-- C74: `osl_dependence_sprint`. -/
theorem dependence_sprint_memory {c : Cfg} (hc : c.Valid) {p : Ptr} {l : List Dep} {t : Option Str} (hl : ∀ x ∈ l, RelFits c x.domain) (h : Dep.sprint c l = .ok t) :
    Triple ((depChain c).list p l) (depSprint c p) (fun q => (depChain c).list p l ∗ uriAt q t) := by
  unfold Dep.sprint at h
  obtain ⟨v2, h2, h⟩ := Out.bind_eq_ok.mp h
  have h := some_of_emit h
  subst h
  unfold depSprint
  hstep bufNew_spec
  hstep ((depChain c).countAll_spec l p)
  hstep safe_strcat_memory
  hstep (walkText_spec (N := depChain c) (act := depStep c) (p := p) (k := 1) (fun x hx p n k b t u hu => depStep_spec hc (hl x hx) hu) (dep_fold h2))
  simp only [uriAt, List.flatten_cons, List.nil_append]
  hconv bufAt_text
  hret

/-- C74: `osl_dependence_print`. -/
theorem dependence_print_memory {c : Cfg} (hc : c.Valid) {p : Ptr} {l : List Dep} {t : Str} (hl : ∀ x ∈ l, RelFits c x.domain) (h : Dep.sprint c l = .ok (some t)) :
    Triple ((depChain c).list p l) (depPrint c p) (fun s => pur (s = t ++ "\n".toList) ∗ (depChain c).list p l) := by
  unfold depPrint
  hstep (dependence_sprint_memory hc hl h)
  simp only [uriAt]
  hstep writeFree_spec
  hret

end Osl.Mem
