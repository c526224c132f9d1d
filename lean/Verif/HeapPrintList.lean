import Verif.HeapPrintProps4
import Verif.StatementText
/-!
# Printing relation lists in memory (source/relation_list.c; C74)

Simplification: printing to a file gives the text which is written.
-/

set_option linter.unusedSectionVars false

namespace Osl.Mem

/-! ## Walking along a list -/

/-- A `while` loop on the nodes of a list, with a state. -/
def walkLoop {σ : Type} (N : Next) (act : Ptr → σ → M σ) : Nat → Ptr → σ → M σ
  | 0, p, s => if p = 0 then pure s else undef
  | f + 1, p, s =>
    if p = 0 then pure s
    else do
      let s ← act p s
      let n ← N.get p
      walkLoop N act f n s

/-- A `while` loop on the nodes of a list (for instance source/relation_list.c:163-170). -/
def walk {σ : Type} (N : Next) (act : Ptr → σ → M σ) (p : Ptr) (s : σ) : M σ := do
  let f ← heapSize
  walkLoop N act f p s

/-- One turn of the loop of `osl_relation_list_pprint_elts` (source/relation_list.c:164-168): the text written. -/
def listPrintElt [Allocator] (c : Cfg) (names head : Ptr) (text : Str) : M Str := do
  let elt ← getField head 0
  if elt ≠ 0 then do
    let t ← relPprint c elt names
    let n ← getField head 1
    pure (text ++ t ++ (if n ≠ 0 then ['\n'] else []))
  else pure text

/-- `osl_relation_list_pprint_elts` (source/relation_list.c:152-176). -/
def listPprintElts [Allocator] (c : Cfg) (list names : Ptr) : M Str := do
  let i ← listCount list
  if i > 0 then walk listNext (listPrintElt c names) list []
  else pure "# NULL relation list\n".toList

/-- `osl_relation_list_pprint` (source/relation_list.c:287-303). -/
def listPprint [Allocator] (c : Cfg) (list names : Ptr) : M Str := do
  let i ← listCount list
  let t ← listPprintElts c list names
  pure ((if i > 1 then "# List of ".toList ++ showNat i ++ " elements\n".toList else "# List of ".toList ++ showNat i ++ " element \n".toList) ++ (showNat i ++ ("\n".toList ++ t)))

/-- `osl_relation_list_print` (source/relation_list.c:313-316). -/
def listPrint [Allocator] (c : Cfg) (list : Ptr) : M Str := listPprint c list 0

/-! ## Specification -/

/-- A computation along a list; the second argument of `g` tells whether the node is the last one. -/
def foldOut {α τ : Type} (g : α → Bool → τ → Out τ) : List α → τ → Out τ
  | [], t => .ok t
  | a :: l, t => do
    let t ← g a l.isEmpty t
    foldOut g l t

theorem walkLoop_spec {α σ τ : Type} {N : Chain α} {act : Ptr → σ → M σ} {g : α → Bool → τ → Out τ} {A : σ → τ → Assn} : ∀ (f : Nat) (l : List α) (p : Ptr) (s : σ) (t t' : τ),
    l.length ≤ f → (∀ a ∈ l, ∀ p n s t t', g a (decide (n = 0)) t = .ok t' → Triple (N.at_ p a n ∗ A s t) (act p s) (fun s' => N.at_ p a n ∗ A s' t')) →
    foldOut g l t = .ok t' → Triple (N.list p l ∗ A s t) (walkLoop N.toNext act f p s) (fun s' => N.list p l ∗ A s' t')
  | f, [], p, s, t, t', _, _, h => by
    cases h
    rw [Chain.list_null]
    refine Triple.fact (fun hp => ?_)
    subst hp
    cases f <;> exact Triple.ret (fun h hh => pur_sep_iff.mpr ⟨rfl, hh⟩)
  | 0, a :: l, p, s, t, t', h, _, _ => by simp at h
  | f + 1, y :: l, p, s, t, t', hf, hact, h => by
    obtain ⟨t1, h1, h2⟩ := Out.bind_eq_ok.mp h
    refine Triple.frame_fact (fun _ hh => Chain.list_cons_ne hh) (fun hp => ?_)
    unfold walkLoop
    rw [if_neg hp]
    rw [Chain.list_cons]
    refine Triple.opened (fun h0 hh => ?_)
    obtain ⟨n, hh⟩ := hh
    refine ⟨pur (decide (n = 0) = l.isEmpty) ∗ N.at_ p y n ∗ N.list n l, ?_, ?_⟩
    · refine pur_sep_iff.mpr ⟨?_, hh⟩
      obtain ⟨_, h2, _, _, _, hl⟩ := hh
      cases l with
      | nil =>
        rw [Chain.list_null] at hl
        simp [hl.1]
      | cons b l => simp [Chain.list_cons_ne hl]
    rw [sep_assoc]
    refine Triple.fact (fun hn => ?_)
    rw [← hn] at h1
    have b1 := hact y (List.mem_cons_self ..) p n s t t1 h1
    refine Triple.bind (Q := fun s' => N.at_ p y n ∗ N.list n l ∗ A s' t1) ?_ (fun s1 => ?_)
    · hlast b1
      hret
    hstep (N.get_spec p y n)
    have ih := walkLoop_spec (N := N) (A := A) f l n s1 t1 t' (by simpa using hf) (fun b hb => hact b (List.mem_cons_of_mem _ hb)) h2
    hlast ih
    refine Triple.ret (fun h hh => ?_)
    exact sep_mono (P := N.at_ p y n ∗ N.list n l) (fun _ hx => ⟨n, hx⟩) (fun _ h => h) (hh.perm (by ac_rfl))

theorem walk_spec {α σ τ : Type} {N : Chain α} {act : Ptr → σ → M σ} {g : α → Bool → τ → Out τ} {A : σ → τ → Assn} {l : List α} {p : Ptr} {s : σ} {t t' : τ}
    (hact : ∀ a ∈ l, ∀ p n s t t', g a (decide (n = 0)) t = .ok t' → Triple (N.at_ p a n ∗ A s t) (act p s) (fun s' => N.at_ p a n ∗ A s' t'))
    (h : foldOut g l t = .ok t') : Triple (N.list p l ∗ A s t) (walk N.toNext act p s) (fun s' => N.list p l ∗ A s' t') := by
  unfold walk
  have hb : Big (N.list p l ∗ A s t) (l.length + 0) := (Chain.seg_big l p 0).sep (Big.zero _)
  refine Triple.bind (Triple.heapSize hb) (fun f => Triple.fact (fun hf => ?_))
  exact walkLoop_spec f l p s t t' (by omega) hact h

variable [Allocator]

/-- The values of the relations of a list can be stored in their precisions (specification). -/
def RelFits (c : Cfg) (r : Rel) : Prop := ∀ a ∈ r, MatFits c a.precision a.m

/-- What one turn of the loop writes. -/
def eltText (c : Cfg) (names : Option Names) (e : Rel) (last : Bool) (t : Str) : Out Str :=
  match e with
  | [] => .ok t
  | e => do
    let u ← Rel.spprint c e names
    return t ++ u ++ (if last then [] else ['\n'])

theorem eltsLoop_fold {c : Cfg} {names : Option Names} : ∀ {l : RList} {u t : Str}, RList.eltsLoop c names l = .ok u → foldOut (eltText c names) l t = .ok (t ++ u)
  | [], u, t, h => by
    cases h
    simp [foldOut]
  | [] :: l, u, t, h => by
    have h : RList.eltsLoop c names l = .ok u := h
    show foldOut (eltText c names) l t = _
    exact eltsLoop_fold (l := l) h
  | (a :: e) :: l, u, t, h => by
    obtain ⟨v, h1, h⟩ := Out.bind_eq_ok.mp h
    obtain ⟨w, h2, h⟩ := Out.bind_eq_ok.mp h
    cases h
    have ih := eltsLoop_fold (l := l) (t := t ++ v ++ (if l.isEmpty then [] else ['\n'])) h2
    refine Out.bind_eq_ok.mpr ⟨t ++ v ++ (if l.isEmpty then [] else ['\n']), ?_, ?_⟩
    · show (Rel.spprint c (a :: e) names >>= fun u => _) = _
      rw [h1]
      rfl
    · rw [ih]
      simp only [List.append_assoc]
      rfl

theorem listPrintElt_spec {c : Cfg} (hc : c.Valid) {v : Nat → Ptr} {names : Option Names} {q p n : Ptr} {e : Rel} (he : RelFits c e) {s t t' : Str} (h : eltText c names e (decide (n = 0)) t = .ok t') :
    Triple (nodeAt c p e n ∗ pur (s = t) ∗ namesOpt v q names) (listPrintElt c q p s) (fun s' => nodeAt c p e n ∗ pur (s' = t') ∗ namesOpt v q names) := by
  unfold listPrintElt
  refine Triple.pre (P := pur (s = t) ∗ nodeAt c p e n ∗ namesOpt v q names) (Triple.fact (fun hst => ?_)) (fun h hh => hh.perm (by ac_rfl))
  subst hst
  hopen nodeAt
  hstep (getField_spec (p := p) (i := 0) (x := x) rfl)
  cases e with
  | nil =>
    cases h
    hfact (fun h (hh : relAt c x [] h) => ((relAt_nil_eq (c := c) (p := x)) ▸ hh : pur (x = 0) h).1)
    intro hx
    subst hx
    rw [if_neg (by simp)]
    hret
  | cons a e =>
    obtain ⟨u, h1, h⟩ := Out.bind_eq_ok.mp h
    cases h
    hfact (fun h (hh : relAt c x (a :: e) h) => relAt_cons_ne h hh)
    intro hx
    rw [if_pos hx]
    hstep (relation_pprint_pin hc he h1)
    hstep (getField_spec (p := p) (i := 1) (x := n) rfl)
    by_cases hn : n = 0
    · subst hn
      hret
    · simp only [hn, ne_eq, not_false_eq_true, if_true, decide_false, Bool.false_eq_true, if_false]
      hret

/-- `osl_relation_list_pprint_elts`, the names being kept at their places. -/
theorem list_pprint_elts_pin {c : Cfg} (hc : c.Valid) {p q : Ptr} {l : RList} {v : Nat → Ptr} {names : Option Names} {t : Str} (hl : ∀ e ∈ l, RelFits c e) (h : RList.pprint_elts c l names = .ok t) :
    Triple (rlistAt c p l ∗ namesOpt v q names) (listPprintElts c p q) (fun s => pur (s = t) ∗ rlistAt c p l ∗ namesOpt v q names) := by
  unfold listPprintElts
  hstep (list_count_memory l p)
  unfold RList.pprint_elts at h
  split at h
  · rename_i h0
    rw [if_pos h0]
    have hw := walk_spec (N := listChain c) (act := listPrintElt c q) (g := eltText c names) (A := fun (s t : Str) => pur (s = t) ∗ namesOpt v q names) (p := p) (s := []) (t := [])
      (fun e he p n s t t' h => listPrintElt_spec hc (hl e he) h) (eltsLoop_fold h)
    refine (hw.pre (fun h hh => ?_)).post (fun s h hh => ?_)
    · rw [pur_true rfl, emp_sep]
      exact hh
    · exact hh.perm (by ac_rfl)
  · rename_i h0
    rw [if_neg h0]
    cases h
    hret

/-- C74: `osl_relation_list_pprint_elts`. -/
theorem list_pprint_elts_memory {c : Cfg} (hc : c.Valid) {p q : Ptr} {l : RList} {names : Option Names} {t : Str} (hl : ∀ e ∈ l, RelFits c e) (h : RList.pprint_elts c l names = .ok t) :
    Triple (rlistAt c p l ∗ namesAt q names) (listPprintElts c p q) (fun s => pur (s = t) ∗ rlistAt c p l ∗ namesAt q names) :=
  (Triple.unpin (Q := fun s => pur (s = t) ∗ rlistAt c p l) (fun v => (list_pprint_elts_pin (v := v) hc hl h).post (fun _ _ hh => hh.perm (by ac_rfl)))).post
    (fun _ _ hh => hh.perm (by ac_rfl))

/-- C74: `osl_relation_list_pprint`. -/
theorem list_pprint_memory {c : Cfg} (hc : c.Valid) {p q : Ptr} {l : RList} {names : Option Names} {t : Str} (hl : ∀ e ∈ l, RelFits c e) (h : RList.pprint c l names = .ok t) :
    Triple (rlistAt c p l ∗ namesAt q names) (listPprint c p q) (fun s => pur (s = t) ∗ rlistAt c p l ∗ namesAt q names) := by
  unfold RList.pprint at h
  obtain ⟨u, h1, h⟩ := Out.bind_eq_ok.mp h
  cases h
  unfold listPprint
  hstep (list_count_memory l p)
  hstep (list_pprint_elts_memory hc hl h1)
  hret

/-- C74: `osl_relation_list_print`. -/
theorem list_print_memory {c : Cfg} (hc : c.Valid) {p : Ptr} {l : RList} {t : Str} (hl : ∀ e ∈ l, RelFits c e) (h : RList.print c l = .ok t) :
    Triple (rlistAt c p l) (listPrint c p) (fun s => pur (s = t) ∗ rlistAt c p l) := by
  have := list_pprint_memory hc (p := p) (q := 0) hl h
  simp only [namesAt, pur_true, sep_emp, emp_sep] at this
  exact this

end Osl.Mem
