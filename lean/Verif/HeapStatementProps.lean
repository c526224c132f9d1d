import Verif.HeapStatement
import Verif.HeapTac
import Verif.HeapListProps
/-!
# Statements in memory: theorems (C54)
-/

namespace Osl.Mem

variable {D : Type} [Allocator] {L : Lib D} {O : DataMem D L.toEnv} {c : Cfg}

/-! ## Assertions (specification) -/

/-- The memory of one statement, with its `next` pointer: the structure, its domain, scattering, accesses and extensions. -/
def stmtAt (c : Cfg) (O : DataMem D L.toEnv) (p : Ptr) (s : Stmt D) (n : Ptr) : Assn :=
  ex fun d => ex fun sc => ex fun a => ex fun e => p ↦ .ptrs [d, sc, a, e, n] ∗ relAt c d s.domain ∗ relAt c sc s.scattering ∗ rlistAt c a s.access ∗
    glistAt O e s.extension

theorem stmtAt_ne {p n : Ptr} {s : Stmt D} : ∀ h, stmtAt c O p s n h → p ≠ 0 := by
  rintro h ⟨d, sc, a, e, hh⟩
  exact pto_ne_sep h hh

/-- The chain of the statements of a list. -/
def stmtChain (c : Cfg) (O : DataMem D L.toEnv) : Chain (Stmt D) where
  toNext := stmtNext
  at_ := stmtAt c O
  nonnull := fun h => stmtAt_ne _ h
  own := by
    rintro p s n h ⟨d, sc, a, e, hh⟩
    exact own_pto hh
  big := by
    intro p s n
    refine Big.ex (fun d => Big.ex (fun sc => Big.ex (fun a => Big.ex (fun e => ?_))))
    exact (Big.pto _ _).sep (Big.zero _)
  get_spec := by
    intro p s n
    unfold stmtNext
    hopen stmtAt
    hlast getField_spec
    hret
  set_spec := by
    intro p s n n'
    unfold stmtNext
    hopen stmtAt
    hlast setField_spec
    hret

/-- The memory of a list of statements. -/
def stmtsAt (c : Cfg) (O : DataMem D L.toEnv) (p : Ptr) (l : Stmts D) : Assn := (stmtChain c O).list p l

theorem stmtsAt_one {p : Ptr} {s : Stmt D} : stmtsAt c O p [s] = stmtAt c O p s 0 := Chain.list_one

/-! ## Freeing, links -/

theorem stmtFreeStep_spec (p : Ptr) (s : Stmt D) (n : Ptr) : Triple (stmtAt c O p s n) (stmtFreeStep c O.toDataFns p) (fun r => pur (r = n)) := by
  unfold stmtFreeStep stmtNext
  hopen stmtAt
  hstep getField_spec
  hstep getField_spec
  hstep relation_free_memory
  hstep getField_spec
  hstep relation_free_memory
  hstep getField_spec
  hstep list_free_memory
  hstep getField_spec
  hstep generic_free_memory
  hstep Triple.free
  hret

/-- C54: `osl_statement_free` frees exactly the statements, their relations, accesses and extensions. -/
theorem statement_free_memory (p : Ptr) (l : Stmts D) : Triple (stmtsAt c O p l) (stmtFree c O.toDataFns p) (fun _ => emp) :=
  Chain.freeAll_spec (N := stmtChain c O) stmtFreeStep_spec l p

/-- C54: `osl_statement_add` links the two lists. -/
theorem statement_add_memory (l1 l2 : Stmts D) (p1 p2 : Ptr) :
    Triple (stmtsAt c O p1 l1 ∗ stmtsAt c O p2 l2) (stmtAdd p1 p2) (fun p => stmtsAt c O p (Stmts.add l1 l2)) :=
  Chain.append_spec (N := stmtChain c O) l1 l2 p1 p2

/-- C54: `osl_statement_number` only reads. -/
theorem statement_number_memory (p : Ptr) (l : Stmts D) : Triple (stmtsAt c O p l) (stmtNumber p) (fun n => pur ((n : Int) = Stmts.number l) ∗ stmtsAt c O p l) := by
  refine (Chain.countAll_spec (N := stmtChain c O) l p).post (fun n h hh => ?_)
  obtain ⟨hn, hh⟩ := pur_sep_iff.mp hh
  exact pur_sep_iff.mpr ⟨by simp [Stmts.number, hn], hh⟩

/-! ## Copies -/

theorem stmtCopy_spec (p : Ptr) (s : Stmt D) (n : Ptr) (s' : Stmt D) (h : Stmts.cloneOne c L s = .ok s') :
    Triple (stmtAt c O p s n) (stmtCopy c O.toDataFns p) (fun q => stmtAt c O p s n ∗ stmtAt c O q s' 0) := by
  obtain ⟨d, h1, h⟩ := Out.bind_eq_ok.mp h
  obtain ⟨sc, h2, h⟩ := Out.bind_eq_ok.mp h
  obtain ⟨a, h3, h⟩ := Out.bind_eq_ok.mp h
  obtain ⟨e, h4, h⟩ := Out.bind_eq_ok.mp h
  injection h with h
  subst h
  unfold stmtCopy stmtMalloc stmtNext
  hopen stmtAt
  hstep Triple.alloc
  hstep getField_spec
  hstep (relation_clone_memory h1)
  hstep setField_spec
  hstep getField_spec
  hstep (relation_clone_memory h2)
  hstep setField_spec
  hstep getField_spec
  hstep (list_clone_memory h3)
  hstep setField_spec
  hstep getField_spec
  hstep (generic_clone_memory h4)
  hstep setField_spec
  hstep setField_spec
  hret

/-- C54: `osl_statement_nclone` gives a copy in new memory and leaves the list. -/
theorem statement_nclone_memory {l l' : Stmts D} {n : Int} (h : Stmts.nclone c L l n = .ok l') (p : Ptr) :
    Triple (stmtsAt c O p l) (stmtNclone c O.toDataFns p n) (fun q => stmtsAt c O p l ∗ stmtsAt c O q l') := by
  unfold Stmts.nclone at h
  unfold stmtNclone
  by_cases hn : n = -1
  · rw [if_pos hn] at h ⊢
    exact Chain.copyAll_spec (N := stmtChain c O) stmtCopy_spec h p
  · rw [if_neg hn] at h ⊢
    exact Chain.copyBound_all (N := stmtChain c O) stmtCopy_spec h p

/-- C54: `osl_statement_clone` gives a copy in new memory and leaves the list. -/
theorem statement_clone_memory {l l' : Stmts D} (h : Stmts.clone c L l = .ok l') (p : Ptr) :
    Triple (stmtsAt c O p l) (stmtClone c O.toDataFns p) (fun q => stmtsAt c O p l ∗ stmtsAt c O q l') := statement_nclone_memory h p

/-! ## Unions -/

theorem relAt_null' {p : Ptr} {r : Rel} : ∀ h, relAt c p r h → (p = 0 ↔ r = []) := by
  intro h hh
  constructor
  · rintro rfl
    exact (relAt_null h hh).1
  · rintro rfl
    exact hh.1

theorem relCloneOne_spec {r r' : Rel} (h : Stmts.clone_one_safe c r = .ok r') (p : Ptr) :
    Triple (relAt c p r) (relCloneOne c p) (fun q => relAt c p r ∗ relAt c q r') := by
  unfold relCloneOne
  hfact (relAt_null' (p := p))
  intro hp
  by_cases h0 : p = 0
  · have hr := hp.mp h0
    subst hr
    injection h with h
    subst h
    rw [if_pos h0]
    subst h0
    have e : relAt c 0 [] = emp := Chain.list_nil
    simp only [e]
    hret
  · rw [if_neg h0]
    have hr : r ≠ [] := fun hr => h0 (hp.mpr hr)
    refine relation_nclone_memory ?_ p
    cases r with
    | nil => exact absurd rfl hr
    | cons a r => exact h

/-- The memory of a statement except its domain and scattering. -/
def stmtRest (c : Cfg) (O : DataMem D L.toEnv) (p : Ptr) (s : Stmt D) (n d sc : Ptr) : Assn :=
  ex fun a => ex fun e => p ↦ .ptrs [d, sc, a, e, n] ∗ rlistAt c a s.access ∗ glistAt O e s.extension

theorem stmtUnionOne_spec {s s' : Stmt D} {domain scattering : Rel} (h : Stmts.unionOne c L s domain scattering = .ok s') (p n d0 sc0 d sc : Ptr) :
    Triple (stmtRest c O p s n d0 sc0 ∗ relAt c d domain ∗ relAt c sc scattering) (stmtUnionOne c O.toDataFns p d sc)
      (fun q => (stmtRest c O p s n d0 sc0 ∗ relAt c d domain ∗ relAt c sc scattering) ∗ stmtAt c O q s' 0) := by
  obtain ⟨x1, h1, h⟩ := Out.bind_eq_ok.mp h
  obtain ⟨x2, h2, h⟩ := Out.bind_eq_ok.mp h
  obtain ⟨x3, h3, h⟩ := Out.bind_eq_ok.mp h
  obtain ⟨x4, h4, h⟩ := Out.bind_eq_ok.mp h
  injection h with h
  subst h
  unfold stmtUnionOne stmtMalloc
  hopen stmtRest
  hstep Triple.alloc
  hstep (relCloneOne_spec h1)
  hstep setField_spec
  hstep (relCloneOne_spec h2)
  hstep setField_spec
  hstep getField_spec
  hstep (list_clone_memory h3)
  hstep setField_spec
  hstep getField_spec
  hstep (generic_clone_memory h4)
  hstep setField_spec
  hret

theorem relNextOr_nil {p : Ptr} : Triple (relAt c p []) (relNextOr p) (fun n => pur (n = 0) ∗ relAt c p []) := by
  unfold relNextOr
  refine Triple.of_fact (φ := p = 0) (fun h hh => hh.1) (fun hp => ?_)
  rw [if_pos hp]
  hret

theorem relNextOr_cons {p : Ptr} {a : Part} {r : Rel} : Triple (relAt c p (a :: r)) (relNextOr p) (fun n => partAt c p a n ∗ relAt c n r) := by
  unfold relNextOr
  refine Triple.of_fact (φ := p ≠ 0) (fun h hh => Chain.list_cons_ne hh) (fun hp => ?_)
  rw [if_neg hp]
  show Triple (ex fun n => partAt c p a n ∗ relAt c n r) _ _
  hnorm
  hlast (relChain c).get_spec
  hret

theorem seg_part {p q r : Ptr} {l : Rel} {a : Part} : ∀ h, ((relChain c).seg p l q ∗ partAt c q a r) h → (relChain c).seg p (l ++ [a]) r h := Chain.seg_at

theorem seg_rel {p q : Ptr} {l1 l2 : Rel} : ∀ h, ((relChain c).seg p l1 q ∗ relAt c q l2) h → relAt c p (l1 ++ l2) h := Chain.seg_append

theorem stmtUnionInner_spec {s : Stmt D} {domain : Rel} {p n d0 sc0 d : Ptr} : ∀ (fuel : Nat) (rest l0 : Rel) (sc head prev : Ptr) (dn xs : Stmts D),
    rest.length < fuel → Stmts.unionInner c L s domain rest = .ok xs →
    Triple ((relChain c).seg sc0 l0 sc ∗ relAt c sc rest ∗ stmtRest c O p s n d0 sc0 ∗ relAt c d domain ∗ (stmtChain c O).done head prev dn)
      (stmtUnionInner c O.toDataFns p d fuel sc head prev)
      (fun r => relAt c sc0 (l0 ++ rest) ∗ stmtRest c O p s n d0 sc0 ∗ relAt c d domain ∗ (stmtChain c O).done r.1 r.2 (dn ++ xs))
  | 0, _, _, _, _, _, _, _, hf, _ => absurd hf (by omega)
  | fuel + 1, rest, l0, sc, head, prev, dn, xs, hf, h => by
    rw [stmtUnionInner]
    match rest, hf, h with
    | [], hf, h =>
      obtain ⟨x, hx, h⟩ := Out.bind_eq_ok.mp h
      injection h with h
      subst h
      hstep (stmtUnionOne_spec hx)
      hstep (Chain.linkNode_spec (N := stmtChain c O))
      hstep relNextOr_nil
      rw [if_pos rfl]
      hconv seg_rel
      hret
    | [q], hf, h =>
      obtain ⟨x, hx, h⟩ := Out.bind_eq_ok.mp h
      injection h with h
      subst h
      hstep (stmtUnionOne_spec hx)
      hstep (Chain.linkNode_spec (N := stmtChain c O))
      hstep relNextOr_cons
      hfact (relAt_null' (p := n))
      intro hm
      rw [if_pos (hm.mpr rfl)]
      hconv seg_part
      hconv seg_rel
      rw [List.append_nil]
      hret
    | q :: q' :: rest, hf, h =>
      obtain ⟨x, hx, h⟩ := Out.bind_eq_ok.mp h
      obtain ⟨ys, hy, h⟩ := Out.bind_eq_ok.mp h
      injection h with h
      subst h
      hstep (stmtUnionOne_spec hx)
      hstep (Chain.linkNode_spec (N := stmtChain c O))
      hstep relNextOr_cons
      hfact (relAt_null' (p := n))
      intro hm
      rw [if_neg (fun h => by cases hm.mp h)]
      hconv seg_part
      hlast (stmtUnionInner_spec fuel (q' :: rest) (l0 ++ [q]) n _ _ (dn ++ [x]) ys (by simp at hf ⊢; omega) hy)
      rw [List.append_assoc, List.append_assoc]
      hret

theorem stmtUnionOuter_spec {s : Stmt D} {p n d0 sc0 : Ptr} : ∀ (fuel : Nat) (rest l0 : Rel) (d head prev : Ptr) (dn xs : Stmts D),
    rest.length < fuel → Stmts.unionOuter c L s rest = .ok xs →
    Triple ((relChain c).seg d0 l0 d ∗ relAt c d rest ∗ stmtRest c O p s n d0 sc0 ∗ relAt c sc0 s.scattering ∗ (stmtChain c O).done head prev dn)
      (stmtUnionOuter c O.toDataFns p fuel d head prev)
      (fun r => relAt c d0 (l0 ++ rest) ∗ stmtRest c O p s n d0 sc0 ∗ relAt c sc0 s.scattering ∗ stmtsAt c O r (dn ++ xs))
  | 0, _, _, _, _, _, _, _, hf, _ => absurd hf (by omega)
  | fuel + 1, rest, l0, d, head, prev, dn, xs, hf, h => by
    have inner : ∀ (g : Nat) (ys : Stmts D), s.scattering.length < g → Stmts.unionInner c L s rest s.scattering = .ok ys →
        Triple (relAt c sc0 s.scattering ∗ stmtRest c O p s n d0 sc0 ∗ relAt c d rest ∗ (stmtChain c O).done head prev dn)
          (stmtUnionInner c O.toDataFns p d g sc0 head prev)
          (fun r => relAt c sc0 s.scattering ∗ stmtRest c O p s n d0 sc0 ∗ relAt c d rest ∗ (stmtChain c O).done r.1 r.2 (dn ++ ys)) := by
      intro g ys hg hy
      refine (stmtUnionInner_spec (O := O) (n := n) (d0 := d0) (sc0 := sc0) (p := p) (d := d) g s.scattering [] sc0 head prev dn ys hg hy).pre (fun h hh => ?_)
      exact pur_sep_iff.mpr ⟨rfl, hh⟩
    have size : Big (stmtRest c O p s n d0 sc0 ∗ relAt c sc0 s.scattering) (1 + s.scattering.length) := by
      refine Big.sep (Big.ex (fun a => Big.ex (fun e => ?_))) (Chain.seg_big _ _ _)
      exact (Big.pto _ _).sep (Big.zero _)
    rw [stmtUnionOuter]
    have start : ∀ {F : Assn} {k : Ptr → M Ptr} {Q : Ptr → Assn}, Triple (stmtRest c O p s n d0 sc0 ∗ F) (k sc0) Q → Triple (stmtRest c O p s n d0 sc0 ∗ F) (getField p 1 >>= k) Q := by
      intro F k Q hk
      hopen stmtRest
      hstep getField_spec
      refine hk.pre (fun h hh => ?_)
      unfold stmtRest
      simp only [ex_sep]
      exact ⟨_, _, hh.perm (by ac_rfl)⟩
    refine Triple.rearr (P' := stmtRest c O p s n d0 sc0 ∗ (relChain c).seg d0 l0 d ∗ relAt c d rest ∗ relAt c sc0 s.scattering ∗ (stmtChain c O).done head prev dn) (by ac_rfl) (start ?_)
    hstep (Triple.heapSize size)
    rename_i g hg
    match rest, hf, h, inner with
    | [], hf, h, inner =>
      hstep (inner g xs (by omega) h)
      hstep relNextOr_nil
      rw [if_pos rfl]
      hconv seg_rel
      hconv (Chain.done_list (N := stmtChain c O))
      hret
    | [q], hf, h, inner =>
      hstep (inner g xs (by omega) h)
      hstep relNextOr_cons
      hfact (relAt_null' (p := n))
      intro hm
      rw [if_pos (hm.mpr rfl)]
      hconv seg_part
      hconv seg_rel
      hconv (Chain.done_list (N := stmtChain c O))
      rw [List.append_nil]
      hret
    | q :: q' :: rest, hf, h, inner =>
      obtain ⟨ys, hy, h⟩ := Out.bind_eq_ok.mp h
      obtain ⟨zs, hz, h⟩ := Out.bind_eq_ok.mp h
      injection h with h
      subst h
      hstep (inner g ys (by omega) hy)
      hstep relNextOr_cons
      hfact (relAt_null' (p := n))
      intro hm
      rw [if_neg (fun h => by cases hm.mp h)]
      hconv seg_part
      hlast (stmtUnionOuter_spec fuel (q' :: rest) (l0 ++ [q]) n _ _ (dn ++ ys) zs (by simp at hf ⊢; omega) hz)
      rw [List.append_assoc, List.append_assoc]
      hret

/-- C54: `osl_statement_remove_unions` gives new statements in new memory and leaves its argument. -/
theorem statement_remove_unions_memory {s : Stmt D} {l : Stmts D} {xs : Stmts D} (h : Stmts.remove_unions c L (s :: l) = .ok xs) (p n : Ptr) :
    Triple (stmtAt c O p s n) (stmtRemoveUnions c O.toDataFns p) (fun q => stmtAt c O p s n ∗ stmtsAt c O q xs) := by
  unfold stmtRemoveUnions
  hfact (stmtAt_ne (O := O))
  intro hp
  rw [if_neg hp]
  unfold stmtUnions
  hopen stmtAt
  hstep getField_spec
  have size : Big (p ↦ .ptrs [d, sc, a, e, n] ∗ relAt c d s.domain) (1 + s.domain.length) := (Big.pto _ _).sep (Chain.seg_big _ _ _)
  hstep (Triple.heapSize size)
  rename_i f hf
  have := stmtUnionOuter_spec (O := O) (n := n) (d0 := d) (sc0 := sc) (p := p) f s.domain [] d 0 0 [] xs (by omega) h
  rw [Chain.done_nil] at this
  hlast this
  hopen stmtRest
  hret

/-- C54: nothing is done for NULL. -/
theorem statement_remove_unions_null : Triple emp (stmtRemoveUnions c O.toDataFns 0) (fun q => pur (q = 0)) := by
  unfold stmtRemoveUnions
  rw [if_pos rfl]
  hret

/-! ## Dispatch of the relations -/

omit [Allocator] in
theorem takeElt_spec (l : RList) (p : Ptr) : Triple (rlistAt c p l) (takeElt c p) (fun q => relAt c q (Stmts.headRel l)) := by
  unfold takeElt
  cases l with
  | nil =>
    refine Triple.of_fact (φ := p = 0) (fun h hh => hh.1) (fun hp => ?_)
    rw [if_neg (by simp [hp])]
    exact Triple.ret (fun h hh => ⟨rfl, hh.2⟩)
  | cons e l =>
    refine Triple.of_fact (φ := p ≠ 0) (fun h hh => Chain.list_cons_ne hh) (fun hp => ?_)
    rw [if_pos hp]
    show Triple (ex fun n => nodeAt c p e n ∗ rlistAt c n l) _ _
    hnorm
    hopen nodeAt
    hstep getField_spec
    hstep setField_spec
    have free : Triple (p ↦ .ptrs [0, n] ∗ rlistAt c n l) (listFree c p) (fun _ => emp) := by
      refine (list_free_memory (c := c) p ([] :: l)).pre (fun h hh => ⟨n, ?_⟩)
      refine sep_mono (fun h hh => ⟨0, ?_⟩) (fun _ h => h) hh
      show (p ↦ .ptrs [0, n] ∗ relAt c 0 []) h
      have e : relAt c 0 [] = emp := Chain.list_nil
      rw [e, sep_emp]
      exact hh
    hstep free
    hret

/-- C54: `osl_statement_dispatch` consumes the list: the statement gets copies, everything else is freed. -/
theorem statement_dispatch_memory {list : RList} {dom scat : Rel} {acc : RList} (h : Stmts.dispatch c list = .ok (dom, scat, acc)) (s : Stmt D)
    (hd : s.domain = []) (hs : s.scattering = []) (ha : s.access = []) (p n x : Ptr) :
    Triple (stmtAt c O p s n ∗ rlistAt c x list) (stmtDispatch c p x)
      (fun _ => stmtAt c O p { s with domain := dom, scattering := scat, access := acc } n) := by
  obtain ⟨dl, h1, h⟩ := Out.bind_eq_ok.mp h
  split at h
  · cases h
  rename_i c1
  obtain ⟨sl, h2, h⟩ := Out.bind_eq_ok.mp h
  split at h
  · cases h
  rename_i c2
  obtain ⟨al, h3, h⟩ := Out.bind_eq_ok.mp h
  split at h
  · cases h
  rename_i c3
  injection h with h
  injection h with e1 h
  injection h with e2 e3
  subst e1 e2 e3
  unfold stmtDispatch
  hopen stmtAt
  rw [hd, hs, ha]
  refine Triple.of_fact (φ := d = 0 ∧ sc = 0 ∧ a = 0) ?_ ?_
  · rintro h ⟨_, _, _, _, _, ⟨_, _, _, _, ⟨h1, _⟩, ⟨_, _, _, _, ⟨h2, _⟩, ⟨_, _, _, _, ⟨h3, _⟩, _⟩⟩⟩⟩
    exact ⟨h1, h2, h3⟩
  rintro ⟨rfl, rfl, rfl⟩
  have e : relAt c 0 [] = emp := Chain.list_nil
  have e' : rlistAt c 0 [] = emp := Chain.list_nil
  rw [e, e']
  hstep (list_filter_memory h1)
  hstep (list_count_memory)
  rw [if_neg (by assumption)]
  hstep takeElt_spec
  hstep setField_spec
  unfold dispatchScattering
  hstep (list_filter_memory h2)
  hstep (list_count_memory)
  rw [if_neg (by assumption)]
  hstep takeElt_spec
  hstep setField_spec
  unfold dispatchAccess
  hstep (list_filter_memory h3)
  hstep setField_spec
  hstep (list_count_memory)
  hstep (list_count_memory)
  rw [if_neg (by assumption)]
  hlast list_free_memory
  hret

end Osl.Mem
