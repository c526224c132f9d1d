import Verif.HeapScoplibProps2
/-!
# Printing in the SCoPLib format in memory (C79): accesses, bodies, statements
-/

set_option linter.unusedSectionVars false

namespace Osl.Mem

open Osl.Ext

variable [Allocator]

/-! ## Accesses -/

/-- The three sizes, on values. -/
def sizesOf (l : RList) (s : AccessSizes) : AccessSizes :=
  ⟨RList.accessSize TYPE_READ l s.read, RList.accessSize TYPE_WRITE l s.write, RList.accessSize TYPE_MAY_WRITE l s.may⟩

/-- One turn of the loop, on values. -/
def sizeStep (e : Rel) (_ : Bool) (s : AccessSizes) : Out AccessSizes :=
  match e with
  | [] => .ok s
  | p :: _ => .ok (accessCount (hdr p) s)

theorem sizes_fold : ∀ {l : RList} {s : AccessSizes}, foldOut sizeStep l s = .ok (sizesOf l s)
  | [], s => rfl
  | [] :: l, s => by
    show foldOut sizeStep l s = _
    exact sizes_fold (l := l)
  | (p :: r) :: l, s => by
    show foldOut sizeStep l (accessCount (hdr p) s) = _
    rw [sizes_fold (l := l)]
    congr 1
    unfold sizesOf accessCount accessAdd
    simp only [RList.accessSize]
    have d1 : TYPE_READ ≠ TYPE_WRITE := by decide
    have d2 : TYPE_READ ≠ TYPE_MAY_WRITE := by decide
    have d3 : TYPE_WRITE ≠ TYPE_MAY_WRITE := by decide
    by_cases h1 : p.type = TYPE_READ
    · have h1' : (hdr p).type = TYPE_READ := h1
      have h2 : p.type ≠ TYPE_WRITE := by rw [h1]; exact d1
      have h3 : p.type ≠ TYPE_MAY_WRITE := by rw [h1]; exact d2
      simp only [if_pos h1', if_pos h1, if_neg h2, if_neg h3]
      rfl
    · have h1' : ¬ (hdr p).type = TYPE_READ := h1
      rw [if_neg h1', if_neg h1]
      by_cases h2 : p.type = TYPE_WRITE
      · have h2' : (hdr p).type = TYPE_WRITE := h2
        have h3 : p.type ≠ TYPE_MAY_WRITE := by rw [h2]; exact d3
        simp only [if_pos h2', if_pos h2, if_neg h3]
        rfl
      · have h2' : ¬ (hdr p).type = TYPE_WRITE := h2
        rw [if_neg h2', if_neg h2]
        by_cases h3 : p.type = TYPE_MAY_WRITE
        · have h3' : (hdr p).type = TYPE_MAY_WRITE := h3
          simp only [if_pos h3', if_pos h3]
          rfl
        · have h3' : ¬ (hdr p).type = TYPE_MAY_WRITE := h3
          simp only [if_neg h3', if_neg h3]

theorem accessSizeStep_spec {c : Cfg} {p n : Ptr} {e : Rel} {s t t' : AccessSizes} {F : Assn} (h : sizeStep e (decide (n = 0)) t = .ok t') :
    Triple (nodeAt c p e n ∗ pur (s = t) ∗ F) (accessSizeStep p s) (fun s' => nodeAt c p e n ∗ pur (s' = t') ∗ F) := by
  unfold accessSizeStep
  refine Triple.pre (P := pur (s = t) ∗ nodeAt c p e n ∗ F) (Triple.fact (fun hst => ?_)) (fun h hh => hh.perm (by ac_rfl))
  subst hst
  hopen nodeAt
  hstep (getField_spec (p := p) (i := 0) (x := x) rfl)
  cases e with
  | nil =>
    cases h
    hfact (fun h (hh : relAt c x [] h) => ((relAt_nil_eq (c := c) (p := x)) ▸ hh : pur (x = 0) h).1)
    intro hx
    subst hx
    rw [if_neg (by simp)]
    hret
  | cons a e =>
    cases h
    hfact (fun h (hh : relAt c x (a :: e) h) => relAt_cons_ne h hh)
    intro hx
    rw [if_pos hx]
    hstep (relFirst_spec (c := c) (p := x) (x := a) (r := e))
    rename_i hr
    rw [hr]
    hret

/-- One turn of the loop printing the accesses of a type, on values. -/
def accessStep (c : Cfg) (names : Option Names) (fake : Bool) (type : Int) (e : Rel) (_ : Bool) (t : Str) : Out Str :=
  match e with
  | [] => .ok t
  | p :: r =>
    if p.type = type then do
      let u ← Rel.spprint_scoplib c (p :: r) names false fake
      return t ++ u
    else .ok t

theorem accessLoop_fold {c : Cfg} {names : Option Names} {fake : Bool} {type : Int} : ∀ {l : RList} {u t : Str}, RList.accessLoop c names fake type l = .ok u →
    foldOut (accessStep c names fake type) l t = .ok (t ++ u)
  | [], u, t, h => by
    cases h
    simp [foldOut]
  | [] :: l, u, t, h => by
    have h : RList.accessLoop c names fake type l = .ok u := h
    show foldOut (accessStep c names fake type) l t = _
    exact accessLoop_fold (l := l) h
  | (a :: e) :: l, u, t, h => by
    unfold RList.accessLoop at h
    by_cases ht : a.type = type
    · rw [if_pos ht] at h
      obtain ⟨v, h1, h⟩ := Out.bind_eq_ok.mp h
      obtain ⟨w, h2, h⟩ := Out.bind_eq_ok.mp h
      cases h
      have ih := accessLoop_fold (l := l) (t := t ++ v) h2
      refine Out.bind_eq_ok.mpr ⟨t ++ v, ?_, ?_⟩
      · unfold accessStep
        dsimp only
        rw [if_pos ht, h1]
        rfl
      · rw [ih, List.append_assoc]
    · rw [if_neg ht] at h
      refine Out.bind_eq_ok.mpr ⟨t, ?_, accessLoop_fold (l := l) h⟩
      unfold accessStep
      dsimp only
      rw [if_neg ht]

theorem accessPrintStep_spec {c : Cfg} (hc : c.Valid) {v : Nat → Ptr} {names : Option Names} {fake : Bool} {type : Int} {q p n : Ptr} {e : Rel} (he : RelFits c e) {s t t' : Str}
    (h : accessStep c names fake type e (decide (n = 0)) t = .ok t') :
    Triple (nodeAt c p e n ∗ pur (s = t) ∗ namesOpt v q names) (accessPrintStep c q fake type p s) (fun s' => nodeAt c p e n ∗ pur (s' = t') ∗ namesOpt v q names) := by
  unfold accessPrintStep
  refine Triple.pre (P := pur (s = t) ∗ nodeAt c p e n ∗ namesOpt v q names) (Triple.fact (fun hst => ?_)) (fun h hh => hh.perm (by ac_rfl))
  subst hst
  hopen nodeAt
  hstep (getField_spec (p := p) (i := 0) (x := x) rfl)
  cases e with
  | nil =>
    cases h
    hfact (fun h (hh : relAt c x [] h) => ((relAt_nil_eq (c := c) (p := x)) ▸ hh : pur (x = 0) h).1)
    intro hx
    subst hx
    rw [if_neg (by simp)]
    hret
  | cons a e =>
    hfact (fun h (hh : relAt c x (a :: e) h) => relAt_cons_ne h hh)
    intro hx
    rw [if_pos hx]
    hstep (relFirst_spec (c := c) (p := x) (x := a) (r := e))
    rename_i hr
    rw [hr]
    unfold accessStep at h
    dsimp only at h
    by_cases ht : a.type = type
    · have ht' : (hdr a).type = type := ht
      rw [if_pos ht] at h
      rw [if_pos ht']
      obtain ⟨u, h1, h⟩ := Out.bind_eq_ok.mp h
      cases h
      hstep (relation_pprint_scoplib_pin hc he h1)
      hret
    · have ht' : ¬ (hdr a).type = type := ht
      rw [if_neg ht] at h
      rw [if_neg ht']
      cases h
      hret

theorem accessPrint_spec {c : Cfg} (hc : c.Valid) {p q : Ptr} {l : RList} {v : Nat → Ptr} {names : Option Names} {fake : Bool} {title : Str} {type : Int} {t : Str}
    (hl : ∀ e ∈ l, RelFits c e) (h : RList.accessBlock c names fake title type l = .ok t) :
    Triple (rlistAt c p l ∗ namesOpt v q names) (accessPrint c p q fake title type (RList.accessSize type l (0, 0))) (fun s => pur (s = t) ∗ rlistAt c p l ∗ namesOpt v q names) := by
  unfold RList.accessBlock at h
  obtain ⟨u, h1, h⟩ := Out.bind_eq_ok.mp h
  simp only [Out.pure_eq, Out.ok.injEq] at h
  subst h
  unfold accessPrint
  have hw := walk_spec (N := listChain c) (act := accessPrintStep c q fake type) (g := accessStep c names fake type) (A := fun (s t : Str) => pur (s = t) ∗ namesOpt v q names) (p := p) (s := [])
    (t := []) (fun e he p n s t t' h => accessPrintStep_spec hc (hl e he) h) (accessLoop_fold h1)
  have hw : Triple (rlistAt c p l ∗ namesOpt v q names) (walk listNext (accessPrintStep c q fake type) p []) (fun s => pur (s = u) ∗ rlistAt c p l ∗ namesOpt v q names) := by
    refine (hw.pre (fun h hh => ?_)).post (fun s h hh => ?_)
    · rw [pur_true rfl, emp_sep]
      exact hh
    · exact hh.perm (by ac_rfl)
  refine Triple.bind hw (fun s => Triple.fact (fun hs => ?_))
  subst hs
  exact Triple.ret (fun h hh => pur_sep_iff.mpr ⟨rfl, hh⟩)

/-- `osl_relation_list_pprint_access_array_scoplib`, the names being kept at their places. -/
theorem list_pprint_access_pin {c : Cfg} (hc : c.Valid) {p q : Ptr} {l : RList} {v : Nat → Ptr} {names : Option Names} {fake : Bool} {t : Str} (hl : ∀ e ∈ l, RelFits c e)
    (h : RList.pprint_access_array_scoplib c l names fake = .ok t) :
    Triple (rlistAt c p l ∗ namesOpt v q names) (listPprintAccess c p q fake) (fun s => pur (s = t) ∗ rlistAt c p l ∗ namesOpt v q names) := by
  unfold listPprintAccess
  hstep (list_count_memory l p)
  unfold RList.pprint_access_array_scoplib at h
  split at h
  · rename_i h0
    rw [if_pos h0]
    obtain ⟨ta, h1, h⟩ := Out.bind_eq_ok.mp h
    obtain ⟨tb, h2, h⟩ := Out.bind_eq_ok.mp h
    obtain ⟨td, h3, h⟩ := Out.bind_eq_ok.mp h
    simp only [Out.pure_eq, Out.ok.injEq] at h
    have hw := walk_spec (N := listChain c) (act := accessSizeStep) (g := sizeStep) (A := fun (s t : AccessSizes) => pur (s = t) ∗ namesOpt v q names) (p := p) (s := ⟨(0, 0), (0, 0), (0, 0)⟩)
      (t := ⟨(0, 0), (0, 0), (0, 0)⟩) (fun e _ p n s t t' h => accessSizeStep_spec h) (sizes_fold (l := l))
    have hw : Triple (rlistAt c p l ∗ namesOpt v q names) (walk listNext accessSizeStep p ⟨(0, 0), (0, 0), (0, 0)⟩)
        (fun s => pur (s = sizesOf l ⟨(0, 0), (0, 0), (0, 0)⟩) ∗ rlistAt c p l ∗ namesOpt v q names) := by
      refine (hw.pre (fun h hh => ?_)).post (fun s h hh => ?_)
      · rw [pur_true rfl, emp_sep]
        exact hh
      · exact hh.perm (by ac_rfl)
    refine Triple.bind hw (fun s => Triple.fact (fun hs => ?_))
    subst hs
    refine Triple.bind (accessPrint_spec hc hl h1) (fun a => Triple.fact (fun ha => ?_))
    refine Triple.bind (accessPrint_spec hc hl h2) (fun b => Triple.fact (fun hb => ?_))
    have may : Triple (rlistAt c p l ∗ namesOpt v q names) (accessMay c p q fake (RList.accessSize TYPE_MAY_WRITE l (0, 0))) (fun s => pur (s = td) ∗ rlistAt c p l ∗ namesOpt v q names) := by
      unfold accessMay
      unfold RList.mayBlock at h3
      by_cases hg : (RList.accessSize TYPE_MAY_WRITE l (0, 0)).1 > 0
      · rw [if_pos hg] at h3
        rw [if_pos hg]
        exact accessPrint_spec hc hl h3
      · rw [if_neg hg] at h3
        rw [if_neg hg]
        cases h3
        exact Triple.ret (fun h hh => pur_sep_iff.mpr ⟨rfl, hh⟩)
    refine Triple.bind may (fun d => Triple.fact (fun hd => ?_))
    subst ha hb hd
    exact Triple.ret (fun _ hh => pur_sep_iff.mpr ⟨h, hh⟩)
  · rename_i h0
    rw [if_neg h0]
    cases h
    hret

/-- C79: `osl_relation_list_pprint_access_array_scoplib` writes its text, and the memory is the same before and after. -/
theorem list_pprint_access_memory {c : Cfg} (hc : c.Valid) {p q : Ptr} {l : RList} {names : Option Names} {fake : Bool} {t : Str} (hl : ∀ e ∈ l, RelFits c e)
    (h : RList.pprint_access_array_scoplib c l names fake = .ok t) :
    Triple (rlistAt c p l ∗ namesAt q names) (listPprintAccess c p q fake) (fun s => pur (s = t) ∗ rlistAt c p l ∗ namesAt q names) :=
  (Triple.unpin (Q := fun s => pur (s = t) ∗ rlistAt c p l) (fun v => (list_pprint_access_pin (v := v) hc hl h).post (fun _ _ hh => hh.perm (by ac_rfl)))).post
    (fun _ _ hh => hh.perm (by ac_rfl))

/-! ## Bodies -/

/-- C79: `osl_body_print_scoplib` writes its text, and the memory is the same before and after. -/
theorem body_print_scoplib_memory {p : Ptr} {d : Option Body} {t : Str} (h : Body.print_scoplib d = .ok t) :
    Triple (optAt bodyAt p d) (bodyPrintScoplib p) (fun u => pur (u = t) ∗ optAt bodyAt p d) := by
  unfold bodyPrintScoplib
  cases d with
  | none =>
    simp only [Body.print_scoplib, Out.ok.injEq] at h
    subst h
    refine Triple.fact1 (fun hp => ?_)
    subst hp
    rw [if_neg (by simp)]
    refine Triple.ret (fun h hh => pur_sep_iff.mpr ⟨rfl, ?_⟩)
    rw [optAt_none, pur_true rfl]
    exact hh
  | some d =>
    simp only [Body.print_scoplib] at h
    obtain ⟨l, h1, h⟩ := Out.bind_eq_ok.mp h
    obtain ⟨u, h2, h⟩ := Out.bind_eq_ok.mp h
    simp only [Out.pure_eq, Out.ok.injEq] at h
    subst h
    refine Triple.of_fact (fun h hh => bodyAt_ne h hh) (fun hp => ?_)
    rw [if_pos hp]
    simp only [optAt_some]
    generalize "# Statement body expression\n".toList = lit
    hopen bodyAt
    hstep (getField_spec (p := p) (i := 0) (x := x) rfl)
    hstep (strings_size_memory x d.iterators)
    have hit : Triple (stringsAt x d.iterators) (bodyItersScoplib x (Strings.size d.iterators)) (fun r => pur (r = l) ∗ stringsAt x d.iterators) := by
      unfold bodyItersScoplib
      unfold Body.iteratorsScoplib at h1
      by_cases hs : Strings.size d.iterators > 0
      · rw [if_pos hs] at h1
        rw [if_pos hs]
        obtain ⟨v, h3, h1⟩ := Out.bind_eq_ok.mp h1
        simp only [Out.pure_eq, Out.ok.injEq] at h1
        refine Triple.bind (strings_print_memory h3) (fun r => Triple.fact (fun hr => ?_))
        subst hr
        exact Triple.ret (fun h hh => pur_sep_iff.mpr ⟨h1, hh⟩)
      · rw [if_neg hs] at h1
        rw [if_neg hs]
        simp only [Out.ok.injEq] at h1
        exact Triple.ret (fun h hh => pur_sep_iff.mpr ⟨h1.symm ▸ rfl, hh⟩)
    hstep hit
    hstep (getField_spec (p := p) (i := 1) (x := y) rfl)
    hstep (strings_print_memory h2)
    hret

end Osl.Mem
