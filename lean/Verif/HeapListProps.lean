import Verif.HeapList
/-!
# Relation lists in memory: theorems (C51)
-/

namespace Osl.Mem

variable {α β : Type}

theorem loadPtrs_spec {p : Ptr} {l : List Ptr} : Triple (p ↦ .ptrs l) (loadPtrs p) (fun r => pur (r = l) ∗ p ↦ .ptrs l) := by
  unfold loadPtrs
  refine Triple.loadStep (F := emp) (by rw [sep_emp]) ?_
  exact Triple.liftLast rfl

theorem getField_spec {p : Ptr} {l : List Ptr} {i : Nat} {x : Ptr} (h : nth l i = .ok x) :
    Triple (p ↦ .ptrs l) (getField p i) (fun r => pur (r = x) ∗ p ↦ .ptrs l) := by
  unfold getField
  refine Triple.stepEq (F := emp) loadPtrs_spec (by rw [sep_emp]) ?_
  exact Triple.liftLast h

theorem setField_spec {p : Ptr} {l l' : List Ptr} {i : Nat} {x : Ptr} (h : setNth l i x = .ok l') :
    Triple (p ↦ .ptrs l) (setField p i x) (fun _ => p ↦ .ptrs l') := by
  unfold setField
  refine Triple.stepEq (F := emp) loadPtrs_spec (by rw [sep_emp]) ?_
  refine Triple.liftStep h ?_
  exact Triple.store p _ _

/-! ## Assertions (specification) -/

/-- The memory of a node with the relation `e`, and the `next` pointer `n`. -/
def nodeAt (c : Cfg) (p : Ptr) (e : Rel) (n : Ptr) : Assn := ex fun x => p ↦ .ptrs [x, n] ∗ relAt c x e

theorem nodeAt_ne {c : Cfg} {p : Ptr} {e : Rel} {n : Ptr} : ∀ h, nodeAt c p e n h → p ≠ 0 := by
  rintro h ⟨x, hh⟩
  exact pto_ne_sep h hh

/-- The chain of the nodes of a list. -/
def listChain (c : Cfg) : Chain Rel where
  toNext := listNext
  at_ := nodeAt c
  nonnull := fun h => nodeAt_ne _ h
  own := by
    rintro p a n h ⟨m, hh⟩
    exact own_pto hh
  big := fun p e n => Big.ex (fun x => (Big.pto _ _).sep (Big.zero _))
  get_spec := by
    intro p e n
    refine Triple.exi (fun x => ?_)
    refine Triple.last (F := relAt c x e) (getField_spec (l := [x, n]) (x := n) rfl) rfl (fun r h hh => ?_)
    rw [sep_assoc] at hh
    obtain ⟨hr, hh⟩ := pur_sep_iff.mp hh
    exact pur_sep_iff.mpr ⟨hr, x, hh⟩
  set_spec := by
    intro p e n n'
    refine Triple.exi (fun x => ?_)
    exact Triple.last (F := relAt c x e) (setField_spec (l' := [x, n']) rfl) rfl (fun _ h hh => ⟨x, hh⟩)

/-- The memory of the relation list `l` at the address `p`. -/
def rlistAt (c : Cfg) (p : Ptr) (l : RList) : Assn := (listChain c).list p l

theorem rlistAt_nil {c : Cfg} {p : Ptr} : rlistAt c p [] = pur (p = 0) := rfl

theorem rlistAt_cons {c : Cfg} {p : Ptr} {e : Rel} {l : RList} : rlistAt c p (e :: l) = ex fun n => nodeAt c p e n ∗ rlistAt c n l := rfl

theorem rlistAt_one {c : Cfg} {p : Ptr} {e : Rel} : rlistAt c p [e] = nodeAt c p e 0 := Chain.list_one

/-! ## Deallocation -/

theorem freeElt_spec {c : Cfg} {x : Ptr} {e : Rel} : Triple (relAt c x e) (freeElt c x) (fun _ => emp) := by
  unfold freeElt
  split
  · exact relFree_spec x e
  · rename_i hx
    have hx : x = 0 := by
      by_cases h : x = 0
      · exact h
      · exact absurd h hx
    subst hx
    exact Triple.ret (fun h hh => (relAt_null h hh).2)

theorem listFreeStep_spec {c : Cfg} (p : Ptr) (e : Rel) (n : Ptr) : Triple (nodeAt c p e n) (listFreeStep c p) (fun r => pur (r = n)) := by
  unfold listFreeStep
  refine Triple.exi (fun x => ?_)
  refine Triple.stepEq (F := relAt c x e) (getField_spec (l := [x, n]) (x := x) rfl) rfl ?_
  refine Triple.step (F := p ↦ .ptrs [x, n]) freeElt_spec (by ac_rfl) (fun _ => ?_)
  rw [emp_sep]
  refine Triple.stepEq (F := emp) (getField_spec (l := [x, n]) (x := n) rfl) (by rw [sep_emp]) ?_
  refine Triple.bind (Triple.free p _) (fun _ => ?_)
  exact Triple.ret (fun h hh => ⟨rfl, hh⟩)

/-- C51: `osl_relation_list_free` frees the nodes and their relations, all of them and nothing else. -/
theorem list_free_memory {c : Cfg} (p : Ptr) (l : RList) : Triple (rlistAt c p l) (listFree c p) (fun _ => emp) :=
  Chain.freeAll_spec (N := listChain c) listFreeStep_spec l p

/-! ## Copies -/

theorem newNode_spec [Allocator] {c : Cfg} {r r' : Rel} (h : Rel.clone c r = .ok r') (x : Ptr) :
    Triple (relAt c x r) (newNode c x) (fun q => relAt c x r ∗ nodeAt c q r' 0) := by
  unfold newNode listMalloc
  refine Triple.step (P := emp) (Triple.alloc _) (by rw [emp_sep]) (fun q => ?_)
  refine Triple.step (F := q ↦ .ptrs [0, 0]) (relClone_spec h x) (by ac_rfl) (fun y => ?_)
  refine Triple.step (F := relAt c x r ∗ relAt c y r') (setField_spec (l := [0, 0]) (l' := [y, 0]) rfl) (by ac_rfl) (fun _ => ?_)
  refine Triple.ret (fun h hh => ?_)
  have hh' : (relAt c x r ∗ q ↦ .ptrs [y, 0] ∗ relAt c y r') h := hh.perm (by ac_rfl)
  exact sep_mono (fun _ h => h) (fun h hh => ⟨y, hh⟩) hh'

/-- C51: `osl_relation_list_node` makes a node with a copy of the relation, and nothing for NULL. -/
theorem list_node_memory [Allocator] {c : Cfg} {r : Rel} {l : RList} (h : RList.node c r = .ok l) (x : Ptr) :
    Triple (relAt c x r) (listNode c x) (fun q => relAt c x r ∗ rlistAt c q l) := by
  unfold listNode
  cases r with
  | nil =>
    injection h with h
    subst h
    refine Triple.of_fact (φ := x = 0) (fun h hh => hh.1) (fun hx => ?_)
    rw [if_neg (by simp [hx])]
    exact Triple.ret (fun h hh => by rw [rlistAt_nil, pur_true rfl, sep_emp]; exact hh)
  | cons a r =>
    obtain ⟨e, h1, h⟩ := Out.bind_eq_ok.mp h
    injection h with h
    subst h
    refine Triple.of_fact (φ := x ≠ 0) (fun h hh => relAt_cons_ne h hh) (fun hx => ?_)
    rw [if_pos hx]
    refine (newNode_spec h1 x).post (fun q h hh => ?_)
    rw [rlistAt_one]
    exact hh

/-- C51: a copy of a list is in new memory, nodes and relations. -/
theorem list_clone_memory [Allocator] {c : Cfg} {l l' : RList} (h : RList.clone c l = .ok l') (p : Ptr) :
    Triple (rlistAt c p l) (listClone c p) (fun q => rlistAt c p l ∗ rlistAt c q l') := by
  refine Chain.copyAll_spec (N := listChain c) (copy := listCopyNode c) (fun p e n e' he => ?_) h p
  unfold listCopyNode
  refine Triple.exi (fun x => ?_)
  refine Triple.stepEq (F := relAt c x e) (getField_spec (l := [x, n]) (x := x) rfl) rfl ?_
  refine Triple.last (F := p ↦ .ptrs [x, n]) (newNode_spec he x) (by ac_rfl) (fun q h hh => ?_)
  have hh' : ((p ↦ .ptrs [x, n] ∗ relAt c x e) ∗ nodeAt c q e' 0) h := hh.perm (by ac_rfl)
  exact sep_mono (fun h hh => ⟨x, hh⟩) (fun _ h => h) hh'

/-- C51: `osl_relation_list_add` links the two lists. -/
theorem list_add_memory {c : Cfg} (l1 l2 : RList) (p1 p2 : Ptr) :
    Triple (rlistAt c p1 l1 ∗ rlistAt c p2 l2) (listAdd p1 p2) (fun p => rlistAt c p (RList.add l1 l2)) :=
  Chain.append_spec (N := listChain c) l1 l2 p1 p2

theorem rlist_null_iff {c : Cfg} {p : Ptr} {l : RList} : ∀ h, rlistAt c p l h → (p = 0 ↔ l = []) := by
  intro h hh
  constructor
  · intro hp; exact (Chain.seg_nil hh hp).1
  · intro hr; subst hr; exact hh.1

theorem listConcat_core [Allocator] {c : Cfg} {l1 l2 l' : RList} (h : RList.concat c l1 l2 = .ok l') {P F1 F2 : Assn} {p1 p2 : Ptr}
    (e1 : P = (rlistAt c p1 l1 ∗ F1)) (e2 : P = (rlistAt c p2 l2 ∗ F2)) : Triple P (listConcat c p1 p2) (fun q => P ∗ rlistAt c q l') := by
  refine Triple.of_fact (φ := (p1 = 0 ↔ l1 = []) ∧ (p2 = 0 ↔ l2 = [])) ?_ (fun hn => ?_)
  · intro h hh
    constructor
    · rw [e1] at hh
      obtain ⟨_, _, _, _, hh, _⟩ := hh
      exact rlist_null_iff _ hh
    · rw [e2] at hh
      obtain ⟨_, _, _, _, hh, _⟩ := hh
      exact rlist_null_iff _ hh
  unfold listConcat
  by_cases h1 : p1 = 0
  · rw [if_pos h1]
    have := hn.1.mp h1
    subst this
    refine Triple.last (list_clone_memory h p2) e2 (fun q h hh => ?_)
    rw [e2]
    exact hh.perm (by ac_rfl)
  · rw [if_neg h1]
    have n1 : l1 ≠ [] := fun hl => h1 (hn.1.mpr hl)
    by_cases h2 : p2 = 0
    · rw [if_pos h2]
      have := hn.2.mp h2
      subst this
      have h' : RList.clone c l1 = .ok l' := by
        cases l1 with
        | nil => exact absurd rfl n1
        | cons _ _ => simpa only [RList.concat] using h
      refine Triple.last (list_clone_memory h' p1) e1 (fun q h hh => ?_)
      rw [e1]
      exact hh.perm (by ac_rfl)
    · rw [if_neg h2]
      have n2 : l2 ≠ [] := fun hl => h2 (hn.2.mpr hl)
      obtain ⟨c1, c2, k1, k2, rfl⟩ : ∃ c1 c2, RList.clone c l1 = .ok c1 ∧ RList.clone c l2 = .ok c2 ∧ l' = c1 ++ c2 := by
        cases l1 with
        | nil => exact absurd rfl n1
        | cons _ _ =>
          cases l2 with
          | nil => exact absurd rfl n2
          | cons _ _ =>
            obtain ⟨c1, k1, h⟩ := Out.bind_eq_ok.mp h
            obtain ⟨c2, k2, h⟩ := Out.bind_eq_ok.mp h
            injection h with h
            exact ⟨c1, c2, k1, k2, h.symm⟩
      refine Triple.step (list_clone_memory k1 p1) e1 (fun q1 => ?_)
      have e3 : ((rlistAt c p1 l1 ∗ rlistAt c q1 c1) ∗ F1) = (rlistAt c p2 l2 ∗ F2 ∗ rlistAt c q1 c1) := by
        have : ((rlistAt c p1 l1 ∗ rlistAt c q1 c1) ∗ F1) = ((rlistAt c p1 l1 ∗ F1) ∗ rlistAt c q1 c1) := by ac_rfl
        rw [this, ← e1, e2]; ac_rfl
      refine Triple.step (list_clone_memory k2 p2) e3 (fun q2 => ?_)
      refine Triple.last (F := rlistAt c p2 l2 ∗ F2) (list_add_memory c1 c2 q1 q2) (by ac_rfl) ?_
      intro q h hh
      rw [e2]
      exact hh.perm (by unfold RList.add; ac_rfl)

/-- C51: the concatenation is in new memory. -/
theorem list_concat_memory [Allocator] {c : Cfg} {l1 l2 l' : RList} (h : RList.concat c l1 l2 = .ok l') (p1 p2 : Ptr) :
    Triple (rlistAt c p1 l1 ∗ rlistAt c p2 l2) (listConcat c p1 p2) (fun q => (rlistAt c p1 l1 ∗ rlistAt c p2 l2) ∗ rlistAt c q l') :=
  listConcat_core h rfl (sep_comm _ _)

/-- C51: also for a list with itself. -/
theorem list_concat_same_memory [Allocator] {c : Cfg} {l l' : RList} (h : RList.concat c l l = .ok l') (p : Ptr) :
    Triple (rlistAt c p l) (listConcat c p p) (fun q => rlistAt c p l ∗ rlistAt c q l') :=
  listConcat_core (F1 := emp) (F2 := emp) h (by rw [sep_emp]) (by rw [sep_emp])

/-! ## Stack -/

/-- C51: a node is pushed; the stack is made of its memory and of that of the old one. -/
theorem list_push_memory {c : Cfg} (e : Rel) (l : RList) (node head : Ptr) :
    Triple (rlistAt c node [e] ∗ rlistAt c head l) (listPush head node) (fun q => rlistAt c q (e :: l)) := by
  rw [rlistAt_one]
  refine Triple.frame_fact (φ := node ≠ 0) (fun h hh => nodeAt_ne _ hh) (fun hn => ?_)
  unfold listPush
  rw [if_pos hn]
  refine Triple.step ((listChain c).set_spec node e 0 head) rfl (fun _ => ?_)
  exact Triple.ret (fun h hh => ⟨head, hh⟩)

/-- Finding (C51): when a list of several nodes is pushed, the nodes after the first one stay allocated but are not in the stack, and no
pointer to them is left. -/
theorem list_push_leaks {c : Cfg} (e : Rel) (t l : RList) (node head : Ptr) :
    Triple (rlistAt c node (e :: t) ∗ rlistAt c head l) (listPush head node) (fun q => rlistAt c q (e :: l) ∗ ex fun n => rlistAt c n t) := by
  rw [rlistAt_cons, ex_sep]
  refine Triple.exi (fun n => ?_)
  rw [sep_assoc]
  refine Triple.frame_fact (φ := node ≠ 0) (fun h hh => nodeAt_ne _ hh) (fun hn => ?_)
  unfold listPush
  rw [if_pos hn]
  refine Triple.step ((listChain c).set_spec node e n head) rfl (fun _ => ?_)
  refine Triple.ret (fun h hh => ?_)
  have hh' : (((listChain c).at_ node e head ∗ rlistAt c head l) ∗ rlistAt c n t) h := hh.perm (by ac_rfl)
  exact sep_mono (fun h hh => ⟨head, hh⟩) (fun h hh => ⟨n, hh⟩) hh'

/-- C51: pushing NULL does nothing. -/
theorem list_push_null_memory {c : Cfg} (l : RList) (head : Ptr) :
    Triple (rlistAt c head l) (listPush head 0) (fun q => pur (q = head) ∗ rlistAt c head l) := by
  unfold listPush
  rw [if_neg (by simp)]
  exact Triple.ret (fun h hh => pur_sep_iff.mpr ⟨rfl, hh⟩)

/-- C51: pop separates the first node from the others. -/
theorem list_pop_memory {c : Cfg} (l : RList) (head : Ptr) :
    Triple (rlistAt c head l) (listPop head) (fun t => rlistAt c t.1 (RList.pop l).1 ∗ rlistAt c t.2 (RList.pop l).2) := by
  unfold listPop
  cases l with
  | nil =>
    refine Triple.of_fact (φ := head = 0) (fun h hh => hh.1) (fun hp => ?_)
    rw [if_neg (by simp [hp])]
    subst hp
    refine Triple.ret (fun h hh => ?_)
    show (rlistAt c 0 [] ∗ rlistAt c 0 []) h
    rw [show rlistAt c 0 [] = emp from pur_true rfl, sep_emp]
    exact hh.2
  | cons e l =>
    rw [rlistAt_cons]
    refine Triple.exi (fun n => ?_)
    refine Triple.frame_fact (φ := head ≠ 0) (fun h hh => nodeAt_ne _ hh) (fun hn => ?_)
    rw [if_pos hn]
    refine Triple.stepEq ((listChain c).get_spec head e n) rfl ?_
    refine Triple.step ((listChain c).set_spec head e n 0) rfl (fun _ => ?_)
    refine Triple.ret (fun h hh => ?_)
    show (rlistAt c head [e] ∗ rlistAt c n l) h
    rw [rlistAt_one]
    exact hh

/-- C51: the top is duplicated in new memory. -/
theorem list_dup_memory [Allocator] {c : Cfg} {l l' : RList} (h : RList.dup c l = .ok l') (head : Ptr) :
    Triple (rlistAt c head l) (listDup c head) (fun q => rlistAt c q l') := by
  unfold RList.dup at h
  obtain ⟨cp, h1, h⟩ := Out.bind_eq_ok.mp h
  injection h with h
  subst h
  unfold listDup
  refine Triple.bind (list_pop_memory l head) (fun t => ?_)
  refine Triple.step (list_clone_memory h1 t.1) rfl (fun q => ?_)
  cases l with
  | nil =>
    injection h1 with h1
    subst h1
    have e : ((rlistAt c t.1 (RList.pop []).1 ∗ rlistAt c q []) ∗ rlistAt c t.2 (RList.pop []).2) =
        (pur (t.1 = 0) ∗ pur (q = 0) ∗ rlistAt c t.2 []) := by
      show (pur (t.1 = 0) ∗ pur (q = 0)) ∗ _ = _
      ac_rfl
    rw [e]
    refine Triple.fact (fun ht => Triple.fact (fun hq => ?_))
    rw [hq, ht]
    refine Triple.bind (list_push_null_memory [] t.2) (fun x => Triple.fact (fun hx => ?_))
    subst hx
    refine (list_push_null_memory [] t.2).post (fun x h hh => ?_)
    obtain ⟨hx, hh2⟩ := pur_sep_iff.mp hh
    rw [hx]
    exact hh2
  | cons e l =>
    obtain ⟨e', l2, he, hl2, rfl⟩ := Out.mapOut_cons_eq_ok.mp h1
    injection hl2 with hl2
    subst hl2
    refine Triple.step (F := rlistAt c t.1 [e]) (list_push_memory (c := c) e' l q t.2) (by show (rlistAt c t.1 [e] ∗ _) ∗ rlistAt c t.2 l = _; ac_rfl) (fun x => ?_)
    rw [sep_comm]
    exact list_push_memory e (e' :: l) t.1 x

/-- C51: drop frees the top and its relation. -/
theorem list_drop_memory {c : Cfg} (l : RList) (head : Ptr) :
    Triple (rlistAt c head l) (listDrop c head) (fun q => rlistAt c q (RList.drop l)) := by
  unfold listDrop
  refine Triple.bind (list_pop_memory l head) (fun t => ?_)
  refine Triple.step (list_free_memory t.1 _) rfl (fun _ => ?_)
  rw [emp_sep]
  exact Triple.ret (fun h hh => hh)

/-- C51: destroy frees everything and leaves a NULL stack. -/
theorem list_destroy_memory {c : Cfg} (l : RList) (head : Ptr) :
    Triple (rlistAt c head l) (listDestroy c head) (fun q => pur (q = 0)) := by
  have loop : ∀ (f : Nat) (l : RList) (head : Ptr), l.length ≤ f → Triple (rlistAt c head l) (listDestroyLoop c f head) (fun q => pur (q = 0)) := by
    intro f
    induction f with
    | zero =>
      intro l head hl
      have : l = [] := List.length_eq_zero_iff.mp (by omega)
      subst this
      refine Triple.of_fact (φ := head = 0) (fun h hh => hh.1) (fun hp => ?_)
      subst hp
      exact Triple.ret (fun h hh => hh)
    | succ f ih =>
      intro l head hl
      unfold listDestroyLoop
      by_cases hp : head = 0
      · rw [if_pos hp]
        exact Triple.ret (fun h hh => ⟨hp, (Chain.seg_nil hh hp).2⟩)
      · rw [if_neg hp]
        refine Triple.bind (list_drop_memory l head) (fun q => ?_)
        refine ih (RList.drop l) q ?_
        cases l with
        | nil => simp [RList.drop, RList.pop]
        | cons e l => simpa [RList.drop, RList.pop] using hl
  unfold listDestroy
  exact Triple.bind (Triple.heapSize (Chain.seg_big (N := listChain c) l head 0)) (fun f => Triple.fact (fun hf => loop f l head hf))

theorem rlist_cons_ne {c : Cfg} {p : Ptr} {e : Rel} {l : RList} : ∀ h, rlistAt c p (e :: l) h → p ≠ 0 := fun _ hh => Chain.list_cons_ne hh

/-! ## Types, selection and number of elements -/

theorem setEltType_spec {c : Cfg} {x : Ptr} {e : Rel} (type : Int) :
    Triple (relAt c x e) (setEltType x type) (fun _ => relAt c x ((RList.set_type [e] type).headD [])) := by
  unfold setEltType
  cases e with
  | nil =>
    refine Triple.of_fact (φ := x = 0) (fun h hh => hh.1) (fun hx => ?_)
    rw [if_neg (by simp [hx])]
    exact Triple.ret (fun h hh => hh)
  | cons a l =>
    refine Triple.of_fact (φ := x ≠ 0) (fun h hh => relAt_cons_ne h hh) (fun hx => ?_)
    rw [if_pos hx]
    refine Triple.exi (fun n => ?_)
    rw [show (relChain c).at_ x a n = partAt c x a n from rfl]
    unfold partAt
    rw [ex_sep]
    refine Triple.exi (fun m => ?_)
    refine Triple.stepEq (F := matAt (kind c a.precision) m a.nb_rows a.nb_columns a.m ∗ (relChain c).seg n l 0) loadRel_spec (by rw [sep_assoc]) ?_
    refine Triple.last (F := matAt (kind c a.precision) m a.nb_rows a.nb_columns a.m ∗ (relChain c).seg n l 0)
      (Triple.store x (.rel (hdr a) m n) (.rel { hdr a with type := type } m n)) (by rw [sep_assoc]) (fun _ h hh => ?_)
    rw [← sep_assoc] at hh
    exact ⟨n, sep_mono (fun h hh => ⟨m, hh⟩) (fun _ h => h) hh⟩

/-- C51: the types are written in place; nothing is allocated or freed. -/
theorem list_set_type_memory {c : Cfg} (l : RList) (p : Ptr) (type : Int) :
    Triple (rlistAt c p l) (listSetType p type) (fun _ => rlistAt c p (RList.set_type l type)) := by
  have loop : ∀ (f : Nat) (l : RList) (p : Ptr), l.length ≤ f →
      Triple (rlistAt c p l) (listSetTypeLoop type f p) (fun _ => rlistAt c p (RList.set_type l type)) := by
    intro f l
    induction l generalizing f with
    | nil =>
      intro p _
      refine Triple.of_fact (φ := p = 0) (fun h hh => hh.1) (fun hp => ?_)
      cases f <;> simp only [listSetTypeLoop, if_pos hp] <;> exact Triple.ret (fun h hh => hh)
    | cons e l ih =>
      intro p hl
      refine Triple.of_fact (φ := p ≠ 0) rlist_cons_ne (fun hp => ?_)
      cases f with
      | zero => simp at hl
      | succ f =>
        unfold listSetTypeLoop
        rw [if_neg hp, rlistAt_cons]
        refine Triple.exi (fun n => ?_)
        unfold nodeAt
        rw [ex_sep]
        refine Triple.exi (fun x => ?_)
        refine Triple.stepEq (F := relAt c x e ∗ rlistAt c n l) (getField_spec (l := [x, n]) (x := x) rfl) (by rw [sep_assoc]) ?_
        refine Triple.step (F := p ↦ .ptrs [x, n] ∗ rlistAt c n l) (setEltType_spec (c := c) (x := x) (e := e) type) (by ac_rfl) (fun _ => ?_)
        generalize hE : (RList.set_type [e] type).headD [] = e'
        refine Triple.stepEq (F := relAt c x e' ∗ rlistAt c n l) (getField_spec (p := p) (l := [x, n]) (i := 1) (x := n) rfl) (by ac_rfl) ?_
        refine Triple.last (F := p ↦ .ptrs [x, n] ∗ relAt c x e') (ih f n (by simpa using hl)) (by ac_rfl) (fun _ h hh => ?_)
        have hh' : ((p ↦ .ptrs [x, n] ∗ relAt c x e') ∗ rlistAt c n (RList.set_type l type)) h := hh.perm (by ac_rfl)
        have : RList.set_type (e :: l) type = e' :: RList.set_type l type := by rw [← hE]; rfl
        rw [this]
        exact ⟨n, sep_mono (fun h hh => ⟨x, hh⟩) (fun _ h => h) hh'⟩
  unfold listSetType
  exact Triple.bind (Triple.heapSize (Chain.seg_big (N := listChain c) l p 0)) (fun f => Triple.fact (fun hf => loop f l p hf))

theorem keepsElt_spec {c : Cfg} {x : Ptr} {e : Rel} (type : Int) :
    Triple (relAt c x e) (keepsElt type x) (fun b => pur (b = RList.keeps type e) ∗ relAt c x e) := by
  unfold keepsElt
  cases e with
  | nil =>
    refine Triple.of_fact (φ := x = 0) (fun h hh => hh.1) (fun hx => ?_)
    rw [if_neg (by simp [hx])]
    exact Triple.ret (fun h hh => pur_sep_iff.mpr ⟨rfl, hh⟩)
  | cons a l =>
    refine Triple.of_fact (φ := x ≠ 0) (fun h hh => relAt_cons_ne h hh) (fun hx => ?_)
    rw [if_pos hx]
    have e1 : relAt c x (a :: l) = ex fun n => ex fun m => x ↦ .rel (hdr a) m n ∗ matAt (kind c a.precision) m a.nb_rows a.nb_columns a.m ∗ (relChain c).seg n l 0 := by
      show (ex fun n => partAt c x a n ∗ (relChain c).seg n l 0) = _
      congr 1
      funext n
      unfold partAt
      rw [ex_sep]
      congr 1
      funext m
      rw [sep_assoc]
    rw [e1]
    refine Triple.exi (fun n => Triple.exi (fun m => ?_))
    refine Triple.stepEq loadRel_spec rfl ?_
    exact Triple.ret (fun h hh => pur_sep_iff.mpr ⟨rfl, n, m, hh⟩)

theorem eltKeeps_step {c : Cfg} {p n : Ptr} {e : Rel} {type : Int} {F : Assn} {β : Type} {f : Bool → M β} {S : β → Assn}
    (h : Triple (nodeAt c p e n ∗ F) (f (RList.keeps type e)) S) :
    Triple (nodeAt c p e n ∗ F) (do let elt ← getField p 0; let b ← keepsElt type elt; f b) S := by
  have e1 : (nodeAt c p e n ∗ F) = ex fun x => (p ↦ .ptrs [x, n] ∗ relAt c x e) ∗ F := by unfold nodeAt; rw [ex_sep]
  rw [e1]
  refine Triple.exi (fun x => ?_)
  refine Triple.stepEq (F := relAt c x e ∗ F) (getField_spec (l := [x, n]) (x := x) rfl) (by rw [sep_assoc]) ?_
  refine Triple.stepEq (F := p ↦ .ptrs [x, n] ∗ F) (keepsElt_spec (c := c) (x := x) (e := e) type) (by ac_rfl) ?_
  refine h.pre (fun h hh => ?_)
  exact sep_mono (fun h hh => ⟨x, hh⟩) (fun _ h => h) hh

/-- The memory in the loop of the filter: the nodes kept so far and the others. -/
def filterInv (c : Cfg) (kept l : RList) (copy filtered previous : Ptr) (first : Bool) : Assn :=
  if first then pur (kept = [] ∧ filtered = 0) ∗ rlistAt c copy l
  else ex fun k => ex fun e => pur (kept = k ++ [e]) ∗ (listChain c).seg filtered k previous ∗ nodeAt c previous e copy ∗ rlistAt c copy l

theorem listFilterLoop_spec {c : Cfg} (type : Int) : ∀ (l : RList) (f : Nat) (kept : RList) (copy filtered previous : Ptr) (first : Bool), l.length ≤ f →
    Triple (filterInv c kept l copy filtered previous first) (listFilterLoop c type f copy filtered previous first)
      (fun q => rlistAt c q (RList.filterLoop type kept l)) := by
  intro l
  induction l with
  | nil =>
    intro f kept copy filtered previous first _
    refine Triple.of_fact (φ := copy = 0) ?_ (fun hc => ?_)
    · intro h hh
      unfold filterInv at hh
      split at hh
      · exact (pur_sep_iff.mp hh).2.1
      · obtain ⟨k, e, hh⟩ := hh
        have hh' : (rlistAt c copy [] ∗ pur (kept = k ++ [e]) ∗ (listChain c).seg filtered k previous ∗ nodeAt c previous e copy) h := hh.perm (by ac_rfl)
        obtain ⟨_, _, _, _, hh, _⟩ := hh'
        exact hh.1
    · have : listFilterLoop c type f copy filtered previous first = pure filtered := by cases f <;> simp only [listFilterLoop, if_pos hc]
      rw [this]
      refine Triple.ret (fun h hh => ?_)
      unfold filterInv at hh
      cases first with
      | true =>
        obtain ⟨⟨h1, h2⟩, h3⟩ := pur_sep_iff.mp hh
        subst h1 h2
        exact ⟨rfl, h3.2⟩
      | false =>
        obtain ⟨k, e, hh⟩ := hh
        obtain ⟨h1, h2⟩ := pur_sep_iff.mp hh
        subst h1 hc
        rw [rlistAt_nil, pur_true rfl, sep_emp] at h2
        exact Chain.seg_at h h2
  | cons e l ih =>
    intro f kept copy filtered previous first hl
    cases f with
    | zero => simp at hl
    | succ f =>
      have hl : l.length ≤ f := by simpa using hl
      cases first with
      | true =>
        show Triple (pur (kept = [] ∧ filtered = 0) ∗ rlistAt c copy (e :: l)) _ _
        refine Triple.fact (fun hk => ?_)
        obtain ⟨rfl, rfl⟩ := hk
        refine Triple.of_fact (φ := copy ≠ 0) rlist_cons_ne (fun hc => ?_)
        unfold listFilterLoop
        rw [if_neg hc, rlistAt_cons]
        refine Triple.exi (fun n => ?_)
        refine eltKeeps_step ?_
        by_cases hk : RList.keeps type e
        · rw [if_pos hk]
          simp only [RList.filterLoop, if_pos hk]
          refine Triple.stepEq ((listChain c).get_spec copy e n) rfl ?_
          refine (ih f ([] ++ [e]) n copy copy false hl).pre (fun h hh => ?_)
          refine ⟨[], e, pur_sep_iff.mpr ⟨rfl, ?_⟩⟩
          exact pur_sep_iff.mpr ⟨rfl, hh⟩
        · rw [if_neg hk]
          simp only [RList.filterLoop, if_neg hk]
          refine Triple.stepEq ((listChain c).get_spec copy e n) rfl ?_
          refine Triple.bind (Q := fun _ => nodeAt c copy e n ∗ rlistAt c n l) (Triple.ret (fun h hh => hh)) (fun _ => ?_)
          refine Triple.stepEq ((listChain c).get_spec copy e n) rfl ?_
          refine Triple.step ((listChain c).set_spec copy e n 0) rfl (fun _ => ?_)
          refine Triple.step (P := rlistAt c copy [e]) (list_free_memory copy [e]) (by rw [rlistAt_one]; rfl) (fun _ => ?_)
          rw [emp_sep]
          refine (ih f [] n 0 previous true hl).pre (fun h hh => pur_sep_iff.mpr ⟨⟨rfl, rfl⟩, hh⟩)
      | false =>
        show Triple (ex fun k => ex fun e' => pur (kept = k ++ [e']) ∗ (listChain c).seg filtered k previous ∗ nodeAt c previous e' copy ∗ rlistAt c copy (e :: l)) _ _
        refine Triple.exi (fun k => Triple.exi (fun e' => Triple.fact (fun hk => ?_)))
        subst hk
        have e1 : ((listChain c).seg filtered k previous ∗ nodeAt c previous e' copy ∗ rlistAt c copy (e :: l)) =
            (rlistAt c copy (e :: l) ∗ (listChain c).seg filtered k previous ∗ nodeAt c previous e' copy) := by ac_rfl
        rw [e1]
        refine Triple.frame_fact (φ := copy ≠ 0) rlist_cons_ne (fun hc => ?_)
        unfold listFilterLoop
        rw [if_neg hc, rlistAt_cons, ex_sep]
        refine Triple.exi (fun n => ?_)
        rw [sep_assoc]
        refine eltKeeps_step ?_
        by_cases hk : RList.keeps type e
        · rw [if_pos hk]
          simp only [RList.filterLoop, if_pos hk]
          refine Triple.stepEq ((listChain c).get_spec copy e n) rfl ?_
          refine (ih f (k ++ [e'] ++ [e]) n filtered copy false hl).pre (fun h hh => ?_)
          refine ⟨k ++ [e'], e, pur_sep_iff.mpr ⟨rfl, ?_⟩⟩
          have hh' : (((listChain c).seg filtered k previous ∗ nodeAt c previous e' copy) ∗ nodeAt c copy e n ∗ rlistAt c n l) h := hh.perm (by ac_rfl)
          exact sep_mono (Chain.seg_at (N := listChain c)) (fun _ h => h) hh'
        · rw [if_neg hk]
          simp only [RList.filterLoop, if_neg hk]
          refine Triple.stepEq ((listChain c).get_spec copy e n) rfl ?_
          unfold unlinkAfter
          rw [if_pos rfl]
          refine Triple.step (F := nodeAt c copy e n ∗ rlistAt c n l ∗ (listChain c).seg filtered k previous)
            ((listChain c).set_spec previous e' copy n) (by show _ = nodeAt c previous e' copy ∗ _; ac_rfl) (fun _ => ?_)
          refine Triple.stepEq (F := nodeAt c previous e' n ∗ rlistAt c n l ∗ (listChain c).seg filtered k previous)
            ((listChain c).get_spec copy e n) (by show nodeAt c previous e' n ∗ _ = nodeAt c copy e n ∗ _; ac_rfl) ?_
          refine Triple.step (F := nodeAt c previous e' n ∗ rlistAt c n l ∗ (listChain c).seg filtered k previous)
            ((listChain c).set_spec copy e n 0) (by show nodeAt c previous e' n ∗ _ = nodeAt c copy e n ∗ _; ac_rfl) (fun _ => ?_)
          refine Triple.step (P := rlistAt c copy [e]) (list_free_memory copy [e]) (by rw [rlistAt_one]; rfl) (fun _ => ?_)
          rw [emp_sep]
          refine (ih f (k ++ [e']) n filtered previous false hl).pre (fun h hh => ?_)
          refine ⟨k, e', pur_sep_iff.mpr ⟨rfl, ?_⟩⟩
          exact hh.perm (by ac_rfl)

/-- C51: the selected elements are copied in new memory, the copies of the others are freed, and the argument is not modified. -/
theorem list_filter_memory [Allocator] {c : Cfg} {l l' : RList} {type : Int} (h : RList.filter c l type = .ok l') (p : Ptr) :
    Triple (rlistAt c p l) (listFilter c p type) (fun q => rlistAt c p l ∗ rlistAt c q l') := by
  obtain ⟨cp, h1, h⟩ := Out.bind_eq_ok.mp h
  injection h with h
  subst h
  unfold listFilter
  refine Triple.bind (list_clone_memory h1 p) (fun q => ?_)
  rw [sep_comm]
  refine Triple.bind (Triple.heapSize (((Chain.seg_big (N := listChain c) cp q 0)).sep (Big.zero _))) (fun f => Triple.fact (fun hf => ?_))
  refine Triple.last (listFilterLoop_spec (c := c) type cp f [] q 0 0 true (by simpa using hf)) (F := rlistAt c p l) ?_ (fun q' h hh => hh.perm (by ac_rfl))
  unfold filterInv
  rw [if_pos rfl, pur_true ⟨rfl, rfl⟩, emp_sep]

/-- C51: the number of elements which are not NULL; nothing is written. -/
theorem list_count_memory {c : Cfg} (l : RList) (p : Ptr) :
    Triple (rlistAt c p l) (listCount p) (fun n => pur (n = RList.count l) ∗ rlistAt c p l) := by
  have loop : ∀ (f : Nat) (l : RList) (p : Ptr) (i : Nat), l.length ≤ f →
      Triple (rlistAt c p l) (listCountLoop f p i) (fun n => pur (n = i + RList.count l) ∗ rlistAt c p l) := by
    intro f l
    induction l generalizing f with
    | nil =>
      intro p i _
      refine Triple.of_fact (φ := p = 0) (fun h hh => hh.1) (fun hp => ?_)
      cases f <;> simp only [listCountLoop, if_pos hp] <;> exact Triple.ret (fun h hh => pur_sep_iff.mpr ⟨rfl, hh⟩)
    | cons e l ih =>
      intro p i hl
      refine Triple.of_fact (φ := p ≠ 0) rlist_cons_ne (fun hp => ?_)
      cases f with
      | zero => simp at hl
      | succ f =>
        have e1 : rlistAt c p (e :: l) = ex fun n => ex fun x => relAt c x e ∗ p ↦ .ptrs [x, n] ∗ rlistAt c n l := by
          rw [rlistAt_cons]
          congr 1
          funext n
          unfold nodeAt
          rw [ex_sep]
          congr 1
          funext x
          ac_rfl
        unfold listCountLoop
        rw [if_neg hp, e1]
        refine Triple.exi (fun n => Triple.exi (fun x => ?_))
        refine Triple.frame_fact (φ := x ≠ 0 ↔ e ≠ []) ?_ (fun hx => ?_)
        · intro h hh
          cases e with
          | nil => simp [show x = 0 from hh.1]
          | cons a t => simp [relAt_cons_ne h hh]
        refine Triple.stepEq (F := relAt c x e ∗ rlistAt c n l) (getField_spec (p := p) (l := [x, n]) (i := 0) (x := x) rfl) (by ac_rfl) ?_
        refine Triple.stepEq (F := relAt c x e ∗ rlistAt c n l) (getField_spec (p := p) (l := [x, n]) (i := 1) (x := n) rfl) (by ac_rfl) ?_
        refine Triple.last (F := relAt c x e ∗ p ↦ .ptrs [x, n]) (ih f n _ (by simpa using hl)) (by ac_rfl) (fun k h hh => ?_)
        rw [sep_assoc] at hh
        obtain ⟨hk, hh2⟩ := pur_sep_iff.mp hh
        refine pur_sep_iff.mpr ⟨?_, n, x, hh2.perm (by ac_rfl)⟩
        rw [hk]
        cases e with
        | nil => simp [RList.count, show x = 0 from by simpa using hx]
        | cons a t => simp [RList.count, hx]; omega
  unfold listCount
  refine Triple.bind (Triple.heapSize (Chain.seg_big (N := listChain c) l p 0)) (fun f => Triple.fact (fun hf => ?_))
  simpa using loop f l p 0 hf

end Osl.Mem
