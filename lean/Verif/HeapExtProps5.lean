import Verif.HeapExtProps4
/-!
# The data of the extensions in memory: dependences, unrollings, symbols (C56)
-/

set_option linter.unusedSectionVars false

namespace Osl.Mem

open Osl.Ext

variable [Allocator]

/-! ## Dependences -/

/-- The memory of a dependence, with its `next` pointer: the structure and its domain; the statements and the accesses it refers to belong to
the scop. -/
def depAt (c : Cfg) (p : Ptr) (x : Dep) (n : Ptr) : Assn :=
  ex fun d => ex fun s => ex fun t => ex fun u => ex fun a => ex fun b =>
    p ↦ .node [x.label_source, x.label_target, x.ref_source, x.ref_target, x.depth, x.type, x.src_out_dom, x.src_out_acc, x.tgt_out_dom, x.tgt_out_acc,
      x.src_loc_dom, x.src_loc_acc, x.tgt_loc_dom, x.tgt_loc_acc] [d, s, t, u, a, b, n] ∗ relAt c d x.domain

theorem depAt_ne {c : Cfg} {p n : Ptr} {x : Dep} : ∀ h, depAt c p x n h → p ≠ 0 := by
  rintro h ⟨a, b, c, d, e, f, hh⟩
  exact pto_ne_sep h hh

/-- The chain of the dependences. -/
def depChain (c : Cfg) : Chain Dep where
  toNext := depNext
  at_ := depAt c
  nonnull := fun h => depAt_ne _ h
  own := by
    rintro p s n h ⟨a, b, c, d, e, f, hh⟩
    exact own_pto hh
  big := fun p s n => Big.ex (fun _ => Big.ex (fun _ => Big.ex (fun _ => Big.ex (fun _ => Big.ex (fun _ => Big.ex (fun _ => (Big.pto _ _).sep (Big.zero _)))))))
  get_spec := by
    intro p s n
    unfold depNext
    hopen depAt
    hlast getPtr_spec
    hret
  set_spec := by
    intro p s n n'
    unfold depNext
    hopen depAt
    hlast setPtr_spec
    hret

theorem depFreeStep_spec {c : Cfg} (p : Ptr) (x : Dep) (n : Ptr) : Triple (depAt c p x n) (depFreeStep c p) (fun r => pur (r = n)) := by
  unfold depFreeStep depNext
  hopen depAt
  hstep getPtr_spec
  hstep getPtr_spec
  hstep relation_free_memory
  hstep Triple.free
  hret

/-- C56: `osl_dependence_free` frees exactly the dependences and their domains. -/
theorem dependence_free_memory {c : Cfg} (p : Ptr) (l : List Dep) : Triple ((depChain c).list p l) (depFree c p) (fun _ => emp) :=
  Chain.freeAll_spec (N := depChain c) depFreeStep_spec l p

theorem depCopy_spec {c : Cfg} (p : Ptr) (x : Dep) (n : Ptr) (x' : Dep) (h : Dep.cloneOne c x = .ok x') :
    Triple (depAt c p x n) (depCopy c p) (fun q => depAt c p x n ∗ depAt c q x' 0) := by
  obtain ⟨dom, hd, h⟩ := Out.bind_eq_ok.mp h
  injection h with h
  subst h
  unfold depCopy depMalloc depNext
  hopen depAt
  hstep Triple.alloc
  hstep getPtr_spec
  hstep setPtr_spec
  hstep getPtr_spec
  hstep setPtr_spec
  hstep copyInt_spec
  hstep copyInt_spec
  hstep copyInt_spec
  hstep copyInt_spec
  hstep copyInt_spec
  hstep copyInt_spec
  hstep getPtr_spec
  hstep (relation_clone_memory hd)
  hstep setPtr_spec
  hstep copyInt_spec
  hstep copyInt_spec
  hstep copyInt_spec
  hstep copyInt_spec
  hstep copyInt_spec
  hstep copyInt_spec
  hstep copyInt_spec
  hstep copyInt_spec
  hstep setPtr_spec
  hstep setPtr_spec
  hret

/-- C56: `osl_dependence_clone` is a copy in a separate memory. -/
theorem dependence_clone_memory {c : Cfg} {l l' : List Dep} (h : Dep.clone c l = .ok l') (p : Ptr) :
    Triple ((depChain c).list p l) (depClone c p) (fun q => (depChain c).list p l ∗ (depChain c).list q l') :=
  Chain.copyAll_spec (N := depChain c) (f := Dep.cloneOne c) depCopy_spec h p

/-- C56: `osl_nb_dependences` only reads. -/
theorem dependence_count_memory {c : Cfg} (p : Ptr) (l : List Dep) :
    Triple ((depChain c).list p l) (depCount p) (fun n => pur (n = l.length) ∗ (depChain c).list p l) := Chain.countAll_spec (N := depChain c) l p

/-- The dependences (source/extensions/dependence.c:665-678). -/
def dependenceMem (c : Cfg) (e : Option Str) : KindMem (NE Dep) (Dep.ops c e) :=
  listMem (depChain c) (depFree c) (depClone c) _ (Dep.clone c) (fun _ => rfl) (fun h => mapOut_nil h) dependence_free_memory
    (fun p _ _ h => dependence_clone_memory h p)

/-! ## Unrollings -/

/-- The memory of an unrolling, with its `next` pointer. -/
def unrollAt (p : Ptr) (x : Unroll) (n : Ptr) : Assn := ex fun s => p ↦ .node [Unroll.ofBool x.jam, (x.factor : Int)] [s, n] ∗ uriAt s x.iter

theorem unrollAt_ne {p n : Ptr} {x : Unroll} : ∀ h, unrollAt p x n h → p ≠ 0 := by
  rintro h ⟨a, hh⟩
  exact pto_ne_sep h hh

/-- The chain of the unrollings. -/
def unrollChain : Chain Unroll where
  toNext := unrollNext
  at_ := unrollAt
  nonnull := fun h => unrollAt_ne _ h
  own := by
    rintro p s n h ⟨a, hh⟩
    exact own_pto hh
  big := fun p s n => Big.ex (fun _ => (Big.pto _ _).sep (Big.zero _))
  get_spec := by
    intro p s n
    unfold unrollNext
    hopen unrollAt
    hlast getPtr_spec
    hret
  set_spec := by
    intro p s n n'
    unfold unrollNext
    hopen unrollAt
    hlast setPtr_spec
    hret

theorem unrollFreeLoop_spec : ∀ (f : Nat) (l : List Unroll) (p : Ptr), l.length ≤ f → Triple (unrollChain.list p l) (unrollFreeLoop f p) (fun _ => emp)
  | f, [], p, _ => by
    rw [Chain.list_null]
    refine Triple.fact1 (fun hp => ?_)
    have e : unrollFreeLoop f p = pure () := by cases f <;> simp [unrollFreeLoop, hp]
    rw [e]
    exact Triple.ret (fun h hh => hh)
  | 0, _ :: _, _, h => by simp at h
  | f + 1, x :: l, p, h => by
    refine Triple.of_fact (φ := p ≠ 0) (fun h hh => Chain.list_cons_ne hh) (fun hp => ?_)
    rw [Chain.list_cons]
    unfold unrollFreeLoop
    rw [if_pos hp]
    hnorm
    rename_i n
    hstep (unrollChain.get_spec p x n)
    hstep (unrollFreeLoop_spec f l n (by simpa using h))
    show Triple (unrollAt p x n) _ _
    hopen unrollAt
    hstep getPtr_spec
    hstep free_str
    hlast Triple.free
    hret

/-- C56: `osl_pluto_unroll_free` frees exactly the unrollings. -/
theorem unroll_free_memory (p : Ptr) (l : List Unroll) : Triple (unrollChain.list p l) (unrollFree p) (fun _ => emp) := by
  unfold unrollFree
  refine Triple.bind (Triple.heapSize (Chain.seg_big l p 0)) (fun fuel => Triple.fact (fun hf => ?_))
  exact unrollFreeLoop_spec fuel l p hf

theorem reallocStr_spec {p name : Ptr} {o : Option Str} {w : Str} : Triple (uriAt p o ∗ name ↦ .chars w) (reallocStr p name) (fun q => q ↦ .chars w ∗ name ↦ .chars w) := by
  unfold reallocStr
  refine Triple.loadStep (F := uriAt p o) (p := name) (b := .chars w) (by rw [sep_comm]) ?_
  refine Triple.liftStep (a := w) rfl ?_
  hstep (free_str (o := o))
  hlast Triple.alloc
  hret

theorem uriAt_none {p : Ptr} : uriAt p none = pur (p = 0) := rfl

theorem uriAt_null_none : uriAt 0 none = emp := pur_true rfl

theorem unrollIter_spec {p name s0 n : Ptr} {is : List Int} {o o' : Option Str} :
    Triple (p ↦ .node is [s0, n] ∗ uriAt s0 o ∗ uriAt name o') (unrollIter p name)
      (fun _ => ex fun s' => p ↦ .node is [s', n] ∗ uriAt s' (match o' with | some w => some w | none => o) ∗ uriAt name o') := by
  unfold unrollIter
  cases o' with
  | none =>
    hfact (fun h (hh : uriAt name none h) => hh.1)
    intro hn
    refine Triple.of_if_neg (by simp [hn]) ?_
    exact Triple.ret (fun h hh => ⟨s0, hh⟩)
  | some w =>
    have e : uriAt name (some w) = name ↦ .chars w := rfl
    rw [e]
    hfact (pto_ne (p := name) (b := .chars w))
    intro hn
    rw [if_pos hn]
    hstep getPtr_spec
    hstep (reallocStr_spec (o := o) (w := w))
    hlast setPtr_spec
    refine Triple.ret (fun h hh => ⟨s', ?_⟩)
    exact hh.perm (by ac_rfl)

theorem unrollCopyTo_spec {p q n m : Ptr} {x y : Unroll} :
    Triple (unrollAt q x n ∗ unrollAt p y m) (unrollCopyTo p q) (fun _ => unrollAt q x n ∗ unrollAt p (Unroll.fill y x.iter x.jam x.factor) m) := by
  unfold unrollCopyTo unrollFill
  hfact (unrollAt_ne (p := p))
  intro hp
  hopen unrollAt
  hstep getPtr_spec
  hstep getInt_spec
  hstep getInt_spec
  rw [if_pos hp]
  hstep (unrollIter_spec (o := y.iter) (o' := x.iter))
  hstep setInt_spec
  hlast setInt_spec
  hret

/-- The node which is to be filled: none at the end of the list. -/
def freshAt (p : Ptr) : List Unroll → Assn
  | [] => pur (p = 0)
  | _ :: _ => unrollAt p Unroll.malloc 0

theorem freshMalloc_spec : Triple emp unrollMalloc (fun m => unrollAt m Unroll.malloc 0) := by
  unfold unrollMalloc
  refine (Triple.alloc _).post (fun m h hh => ⟨0, ?_⟩)
  show (m ↦ .node [0, 0] [0, 0] ∗ uriAt 0 none) h
  rw [uriAt_null_none, sep_emp]
  exact hh

theorem unrollMore_spec {p q : Ptr} {x : Unroll} {l : List Unroll} :
    Triple (unrollChain.list q l ∗ unrollAt p x 0) (unrollMore p q) (fun _ => unrollChain.list q l ∗ ex fun m => unrollAt p x m ∗ freshAt m l) := by
  unfold unrollMore
  cases l with
  | nil =>
    rw [Chain.list_null]
    refine Triple.fact (fun hq => ?_)
    refine Triple.of_if_neg (by simp [hq]) ?_
    refine Triple.ret (fun h hh => pur_sep_iff.mpr ⟨hq, 0, ?_⟩)
    show (unrollAt p x 0 ∗ pur (0 = 0)) h
    rw [pur_true rfl, sep_emp]
    exact hh
  | cons y l =>
    hfact (fun h (hh : unrollChain.list q (y :: l) h) => Chain.list_cons_ne hh)
    intro hq
    rw [if_pos hq]
    hstep freshMalloc_spec
    hlast (unrollChain.set_spec p x 0 m)
    refine Triple.ret (fun h hh => ?_)
    have hh' : (unrollChain.list q (y :: l) ∗ (unrollAt p x m ∗ unrollAt m Unroll.malloc 0)) h := hh.perm (by
      show (unrollAt p x m ∗ _) = _
      ac_rfl)
    exact sep_mono (fun _ h => h) (fun h hh => ⟨m, hh⟩) hh'

theorem unrollCloneLoop_spec : ∀ (f : Nat) (l : List Unroll) (q p : Ptr), l.length ≤ f →
    Triple (unrollChain.list q l ∗ freshAt p l) (unrollCloneLoop f q p) (fun _ => unrollChain.list q l ∗ unrollChain.list p (Unroll.clone l))
  | f, [], q, p, _ => by
    rw [Chain.list_null]
    refine Triple.fact (fun hq => ?_)
    have e : unrollCloneLoop f q p = pure () := by cases f <;> simp [unrollCloneLoop, hq]
    rw [e]
    exact Triple.ret (fun h hh => pur_sep_iff.mpr ⟨hq, hh⟩)
  | 0, _ :: _, _, _, h => by simp at h
  | f + 1, x :: l, q, p, h => by
    show Triple (_ ∗ unrollAt p Unroll.malloc 0) _ (fun _ => _ ∗ unrollChain.list p (Unroll.fill Unroll.malloc x.iter x.jam x.factor :: Unroll.clone l))
    hfact (fun h (hh : unrollChain.list q (x :: l) h) => Chain.list_cons_ne hh)
    intro hq
    rw [Chain.list_cons, Chain.list_cons]
    unfold unrollCloneLoop
    rw [if_pos hq]
    hnorm
    rename_i n
    have e1 : unrollChain.at_ q x n = unrollAt q x n := rfl
    rw [e1]
    hstep unrollCopyTo_spec
    hstep (unrollChain.get_spec q x n)
    hstep (unrollMore_spec (l := l))
    rename_i m
    hstep (unrollChain.get_spec p _ m)
    hlast (unrollCloneLoop_spec f l n m (by simpa using h))
    refine Triple.ret (fun h hh => ?_)
    have hh' : ((unrollChain.at_ q x n ∗ unrollChain.list n l) ∗
      (unrollChain.at_ p (Unroll.fill Unroll.malloc x.iter x.jam x.factor) m ∗ unrollChain.list m (Unroll.clone l))) h := hh.perm (by ac_rfl)
    exact sep_mono (fun h hh => ⟨n, hh⟩) (fun h hh => ⟨m, hh⟩) hh'

theorem unrollFirst_spec {q : Ptr} {l : List Unroll} : Triple (unrollChain.list q l) (unrollFirst q) (fun r => unrollChain.list q l ∗ freshAt r l) := by
  unfold unrollFirst
  cases l with
  | nil =>
    rw [Chain.list_null]
    refine Triple.fact1 (fun hq => ?_)
    refine Triple.of_if_neg (by simp [hq]) ?_
    refine Triple.ret (fun h hh => pur_sep_iff.mpr ⟨hq, ?_⟩)
    show pur (0 = 0) h
    rw [pur_true rfl]
    exact hh
  | cons y l =>
    hfact (fun h (hh : unrollChain.list q (y :: l) h) => Chain.list_cons_ne hh)
    intro hq
    rw [if_pos hq]
    hlast freshMalloc_spec
    refine Triple.ret (fun h hh => ?_)
    exact hh.perm (by rw [sep_comm]; rfl)

/-- C56: `osl_pluto_unroll_clone` is a copy in a separate memory. -/
theorem unroll_clone_memory (p : Ptr) (l : List Unroll) :
    Triple (unrollChain.list p l) (unrollClone p) (fun q => unrollChain.list p l ∗ unrollChain.list q (Unroll.clone l)) := by
  unfold unrollClone
  hstep unrollFirst_spec
  refine Triple.bind (Triple.heapSize (((Chain.seg_big l p 0).sep (Big.zero _)))) (fun fuel => Triple.fact (fun hf => ?_))
  hstep (unrollCloneLoop_spec fuel l p r hf)
  hret

theorem unroll_clone_nil {l : List Unroll} (h : Unroll.clone l = []) : l = [] := by
  cases l with
  | nil => rfl
  | cons x l => cases h

/-- The unrollings (source/extensions/pluto_unroll.c:421-434). -/
def unrollMem : KindMem (NE Unroll) Unroll.ops :=
  listMem unrollChain unrollFree unrollClone _ (fun l => .ok (Unroll.clone l)) (fun _ => rfl) (fun h => unroll_clone_nil (by injection h))
    unroll_free_memory (fun p l l' h => by injection h with h; subst h; exact unroll_clone_memory p l)

/-! ## Adding a dependence -/

theorem depLast_spec {c : Cfg} : ∀ (f : Nat) (l : List Dep) (x : Dep) (p : Ptr), l.length < f →
    Triple ((depChain c).list p (x :: l)) (depLast f p) (fun r => (depChain c).seg p (x :: l).dropLast r ∗ (depChain c).at_ r ((x :: l).getLast (by simp)) 0)
  | 0, _, _, _, h => by simp at h
  | f + 1, [], x, p, _ => by
    rw [Chain.list_one]
    show Triple _ (depNext.get p >>= fun n => if n ≠ 0 then depLast f n else pure p) (fun r => pur (p = r) ∗ (depChain c).at_ r x 0)
    hstep ((depChain c).get_spec p x 0)
    refine Triple.of_if_neg (by simp) ?_
    exact Triple.ret (fun h hh => pur_sep_iff.mpr ⟨rfl, hh⟩)
  | f + 1, y :: l, x, p, h => by
    rw [Chain.list_cons]
    show Triple _ (depNext.get p >>= fun n => if n ≠ 0 then depLast f n else pure p)
      (fun r => (ex fun n => (depChain c).at_ p x n ∗ (depChain c).seg n (y :: l).dropLast r) ∗ (depChain c).at_ r ((y :: l).getLast (by simp)) 0)
    hnorm
    rename_i n
    hstep ((depChain c).get_spec p x n)
    hfact (fun h (hh : (depChain c).list n (y :: l) h) => Chain.list_cons_ne hh)
    intro hn
    rw [if_pos hn]
    hlast (depLast_spec f l y n (by simpa using h))
    refine Triple.ret (fun h hh => ?_)
    have hh' : (((depChain c).at_ p x n ∗ (depChain c).seg n (y :: l).dropLast a) ∗ (depChain c).at_ a ((y :: l).getLast (by simp)) 0) h := hh.perm (by ac_rfl)
    exact sep_mono (fun h hh => ⟨n, hh⟩) (fun _ h => h) hh'

theorem depLink_spec {c : Cfg} {start now p : Ptr} {d : List Dep} :
    Triple ((depChain c).done start now d) (depLink start now p) (fun s => (depChain c).seg s d p) := by
  unfold depLink
  cases hd : d.getLast? with
  | none =>
    have : d = [] := List.getLast?_eq_none_iff.mp hd
    subst this
    rw [Chain.done_nil]
    refine Triple.fact1 (fun ⟨_, hs⟩ => ?_)
    rw [if_pos hs]
    exact Triple.ret (fun h hh => ⟨rfl, hh⟩)
  | some a =>
    refine Triple.of_fact (φ := start ≠ 0) (fun h hh => ?_) (fun hs => ?_)
    · have := Chain.done_list h hh
      cases d with
      | nil => cases hd
      | cons x d => exact Chain.list_cons_ne this
    · rw [if_neg hs]
      have e : (depChain c).done start now d = ((depChain c).seg start d.dropLast now ∗ (depChain c).at_ now a 0) := by unfold Chain.done; rw [hd]
      obtain ⟨hne, ha⟩ : ∃ hne : d ≠ [], d.getLast hne = a := by
        have hne : d ≠ [] := by rintro rfl; cases hd
        refine ⟨hne, ?_⟩
        rw [List.getLast?_eq_some_getLast hne] at hd
        injection hd
      rw [e]
      hstep ((depChain c).set_spec now a 0 p)
      refine Triple.ret (fun h hh => ?_)
      have hh' : ((depChain c).seg start d.dropLast now ∗ (depChain c).at_ now a p) h := hh.perm (by ac_rfl)
      have := Chain.seg_at h hh'
      rw [← ha, List.dropLast_concat_getLast hne] at this
      exact this

/-- C56: `osl_dependence_add`: `*start` is the list of the dependences and `*now` its last one; both are NULL when it is empty. -/
theorem dependence_add_memory {c : Cfg} (start now p : Ptr) (d l : List Dep) :
    Triple ((depChain c).done start now d ∗ (depChain c).list p l) (depAdd start now p) (fun r => (depChain c).done r.1 r.2 (d ++ l)) := by
  unfold depAdd
  cases l with
  | nil =>
    rw [Chain.list_null, sep_comm]
    refine Triple.fact (fun hp => ?_)
    refine Triple.of_if_neg (by simp [hp]) ?_
    rw [List.append_nil]
    exact Triple.ret (fun h hh => hh)
  | cons x l2 =>
    hfact (fun h (hh : (depChain c).list p (x :: l2) h) => Chain.list_cons_ne hh)
    intro hp
    rw [if_pos hp]
    unfold depAddTo
    hstep depLink_spec
    refine Triple.pre (P := (depChain c).list p (x :: l2) ∗ (depChain c).seg s d p) ?_ (fun h hh => hh.perm (by ac_rfl))
    refine Triple.bind (Triple.heapSize ((Chain.seg_big (N := depChain c) (x :: l2) p 0).sep (Big.zero _))) (fun fuel => Triple.fact (fun hf => ?_))
    hstep (depLast_spec (c := c) fuel l2 x p (by simp at hf; omega))
    refine Triple.ret (fun h hh => ?_)
    have hh' : (((depChain c).seg s d p ∗ (depChain c).seg p (x :: l2).dropLast l) ∗ (depChain c).at_ l ((x :: l2).getLast (by simp)) 0) h := hh.perm (by ac_rfl)
    have := sep_mono Chain.seg_append (fun _ h => h) hh'
    unfold Chain.done
    have e : (d ++ x :: l2).getLast? = some ((x :: l2).getLast (by simp)) := by
      rw [List.getLast?_append, List.getLast?_eq_some_getLast (by simp)]
      rfl
    rw [e, List.dropLast_append_of_ne_nil (by simp)]
    exact this

end Osl.Mem
