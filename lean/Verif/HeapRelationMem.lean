import Verif.HeapRelationOps
/-!
# Relations in memory: theorems (C50)

`relAt c p r` is a memory which holds exactly the relation `r` at the address `p`; `A ∗ B` is a memory made of two separate
parts; `Triple P m Q` says that `m`, called in any memory which has a part `P`, returns normally, changes that part to `Q` and
nothing else.  So: what was in `P` and is not in `Q` has been freed, what is in `Q` and was not in `P` has been allocated, no other
memory is read, written or freed, and nothing is used after it is freed.
-/

namespace Osl.Mem

variable {α β : Type}

theorem relAt_nil_eq {c : Cfg} {p : Ptr} : relAt c p [] = pur (p = 0) := Chain.list_null

theorem relAt_cons_ne {c : Cfg} {p : Ptr} {a : Part} {l : Rel} : ∀ h, relAt c p (a :: l) h → p ≠ 0 := fun _ hh => Chain.list_cons_ne hh

theorem Triple.frame_fact {P F : Assn} {φ : Prop} (hP : ∀ h, P h → φ) {m : M α} {Q : α → Assn} (h : φ → Triple (P ∗ F) m Q) : Triple (P ∗ F) m Q := by
  refine Triple.of_fact (φ := φ) ?_ h
  rintro h ⟨_, _, _, _, hh, _⟩
  exact hP _ hh

/-- C50: `osl_relation_free` frees the memory of the relation, all of it and nothing else. -/
theorem relation_free_memory {c : Cfg} (p : Ptr) (r : Rel) : Triple (relAt c p r) (relFree c p) (fun _ => emp) := relFree_spec p r

/-- C50: `osl_relation_pmalloc` gives new memory. -/
theorem relation_pmalloc_memory [Allocator] {c : Cfg} {pr R C : Int} {a : Part} (h : Rel.pmalloc c pr R C = .ok a) :
    Triple emp (pmalloc c pr R C) (fun p => relAt c p [a]) := by
  refine (pmalloc_spec h).post (fun p h hh => ?_)
  show Chain.list (relChain c) p [a] h
  rw [Chain.list_one]
  exact hh

/-- C50: a copy is in new memory, and the relation is intact. -/
theorem relation_clone_memory [Allocator] {c : Cfg} {r r' : Rel} (h : Rel.clone c r = .ok r') (p : Ptr) :
    Triple (relAt c p r) (relClone c p) (fun q => relAt c p r ∗ relAt c q r') := relClone_spec h p

/-- C50: the same for the first parts. -/
theorem relation_nclone_memory [Allocator] {c : Cfg} {r r' : Rel} {n : Int} (h : Rel.nclone c r n = .ok r') (p : Ptr) :
    Triple (relAt c p r) (relNclone c p n) (fun q => relAt c p r ∗ relAt c q r') := relNclone_spec h p

/-- C50: the same for the first rows. -/
theorem relation_clone_nconstraints_memory [Allocator] {c : Cfg} {r r' : Rel} {n : Int} (h : Rel.clone_nconstraints c r n = .ok r') (p : Ptr) :
    Triple (relAt c p r) (relCloneRows c p n) (fun q => relAt c p r ∗ relAt c q r') := relCloneRows_spec h p

/-- C50: after `osl_relation_add` the memory of the two relations is the memory of the first one. -/
theorem relation_add_memory {c : Cfg} (r1 r2 : Rel) (p1 p2 : Ptr) :
    Triple (relAt c p1 r1 ∗ relAt c p2 r2) (relAdd p1 p2) (fun p => relAt c p (Rel.add r1 r2)) := relAdd_spec r1 r2 p1 p2

/-- C50: the union of two relations is in new memory. -/
theorem relation_union_memory [Allocator] {c : Cfg} {r1 r2 r' : Rel} (h : Rel.union c r1 r2 = .ok r') (p1 p2 : Ptr) :
    Triple (relAt c p1 r1 ∗ relAt c p2 r2) (relUnion c p1 p2) (fun q => (relAt c p1 r1 ∗ relAt c p2 r2) ∗ relAt c q r') :=
  relUnion_core h rfl (sep_comm _ _)

/-- C50: also when they are the same relation. -/
theorem relation_union_same_memory [Allocator] {c : Cfg} {r r' : Rel} (h : Rel.union c r r = .ok r') (p : Ptr) :
    Triple (relAt c p r) (relUnion c p p) (fun q => relAt c p r ∗ relAt c q r') :=
  relUnion_core (F1 := emp) (F2 := emp) h (by rw [sep_emp]) (by rw [sep_emp])

/-- C50: insertion of constraints; the old matrix and the temporary memory are freed. -/
theorem relation_insert_constraints_memory [Allocator] {c : Cfg} {r1 r2 r' : Rel} {row : Int} (h : Rel.insert_constraints c r1 r2 row = .ok r') (p1 p2 : Ptr) :
    Triple (relAt c p1 r1 ∗ relAt c p2 r2) (relInsert c p1 p2 row) (fun _ => relAt c p1 r' ∗ relAt c p2 r2) := by
  match r1, r2 with
  | [], r2 =>
    refine Triple.frame_fact (φ := p1 = 0) (fun h hh => hh.1) (fun hp => ?_)
    injection h with h
    subst h
    unfold relInsert
    rw [if_pos (.inl hp)]
    exact Triple.ret (fun _ h => h)
  | a :: l, [] =>
    rw [sep_comm (relAt c p1 (a :: l))]
    refine Triple.frame_fact (φ := p2 = 0) (fun h hh => hh.1) (fun hp => ?_)
    injection h with h
    subst h
    unfold relInsert
    rw [if_pos (.inr hp)]
    exact Triple.ret (fun _ h => h.perm (by ac_rfl))
  | a :: l, b :: l' =>
    rw [relAt_open, ex_sep]
    refine Triple.exi (fun n1 => ?_)
    rw [ex_sep]
    refine Triple.exi (fun m1 => ?_)
    have e : ((openAt c p1 a m1 n1 ∗ relAt c n1 l) ∗ relAt c p2 (b :: l')) = ex fun n2 => ex fun m2 => (openAt c p1 a m1 n1 ∗ relAt c n1 l) ∗ openAt c p2 b m2 n2 ∗ relAt c n2 l' := by
      rw [relAt_open, sep_ex]
      congr 1; funext n2
      rw [sep_ex]
    rw [e]
    refine Triple.exi (fun n2 => Triple.exi (fun m2 => ?_))
    obtain ⟨a', rfl, ht⟩ := relInsert_core h (P := (openAt c p1 a m1 n1 ∗ relAt c n1 l) ∗ openAt c p2 b m2 n2 ∗ relAt c n2 l') (p1 := p1) (p2 := p2)
      (m1 := m1) (n1 := n1) (m2 := m2) (n2 := n2) (F := relAt c n1 l ∗ openAt c p2 b m2 n2 ∗ relAt c n2 l') (G := openAt c p1 a m1 n1 ∗ relAt c n1 l ∗ relAt c n2 l') (by ac_rfl) (by ac_rfl)
    refine ht.post (fun _ h hh => ?_)
    have hh' : ((partAt c p1 a' n1 ∗ relAt c n1 l) ∗ openAt c p2 b m2 n2 ∗ relAt c n2 l') h := hh.perm (by ac_rfl)
    refine sep_mono relAt_close (fun h hh => ?_) hh'
    exact relAt_close (n := n2) h (sep_mono openAt_part (fun _ h => h) hh)

/-- C50: also when the constraints of a relation are inserted in the relation itself. -/
theorem relation_insert_constraints_same_memory [Allocator] {c : Cfg} {r r' : Rel} {row : Int} (h : Rel.insert_constraints c r r row = .ok r') (p : Ptr) :
    Triple (relAt c p r) (relInsert c p p row) (fun _ => relAt c p r') := by
  match r with
  | [] =>
    refine Triple.of_fact (φ := p = 0) (fun h hh => hh.1) (fun hp => ?_)
    injection h with h
    subst h
    unfold relInsert
    rw [if_pos (.inl hp)]
    exact Triple.ret (fun _ h => h)
  | a :: l =>
    rw [relAt_open]
    refine Triple.exi (fun n => Triple.exi (fun m => ?_))
    obtain ⟨a', rfl, ht⟩ := relInsert_core h (P := openAt c p a m n ∗ relAt c n l) (p1 := p) (p2 := p) (m1 := m) (n1 := n) (m2 := m) (n2 := n) rfl rfl
    exact ht.post (fun _ h hh => relAt_close h hh)

theorem Triple.onFirst {c : Cfg} {r r' : Rel} {p : Ptr} {m : M Unit} (hn : r = [] → p = 0 → r' = [] ∧ m = pure ())
    (hc : ∀ a l mm n, r = a :: l → ∃ a', r' = a' :: l ∧ Triple (openAt c p a mm n) m (fun _ => partAt c p a' n)) :
    Triple (relAt c p r) m (fun _ => relAt c p r') := by
  cases r with
  | nil =>
    refine Triple.of_fact (φ := p = 0) (fun h hh => hh.1) (fun hp => ?_)
    obtain ⟨rfl, rfl⟩ := hn rfl hp
    exact Triple.ret (fun _ h => h)
  | cons a l =>
    rw [relAt_open]
    refine Triple.exi (fun n => Triple.exi (fun mm => ?_))
    obtain ⟨a', rfl, ht⟩ := hc a l mm n rfl
    refine Triple.last ht rfl (fun _ h hh => relAt_close h hh)

/-- C50: insertion of a column. -/
theorem relation_insert_blank_column_memory [Allocator] {c : Cfg} {r r' : Rel} {column : Int} (h : Rel.insert_blank_column c r column = .ok r') (p : Ptr) :
    Triple (relAt c p r) (relInsertColumn c p column) (fun _ => relAt c p r') := by
  refine Triple.onFirst ?_ ?_
  · rintro rfl rfl
    injection h with h
    exact ⟨h.symm, by simp [relInsertColumn]⟩
  · rintro a l mm n rfl
    exact relInsertColumn_core h rfl

/-- C50: removal of a row. -/
theorem relation_remove_row_memory [Allocator] {c : Cfg} {r r' : Rel} {row : Int} (h : Rel.remove_row c r row = .ok r') (p : Ptr) :
    Triple (relAt c p r) (relRemoveRow c p row) (fun _ => relAt c p r') := by
  refine Triple.onFirst ?_ ?_
  · rintro rfl rfl
    injection h with h
    exact ⟨h.symm, by simp [relRemoveRow]⟩
  · rintro a l mm n rfl
    exact relRemoveRow_core h rfl

/-- C50: removal of a column. -/
theorem relation_remove_column_memory [Allocator] {c : Cfg} {r r' : Rel} {column : Int} (h : Rel.remove_column c r column = .ok r') (p : Ptr) :
    Triple (relAt c p r) (relRemoveColumn c p column) (fun _ => relAt c p r') := by
  refine Triple.onFirst ?_ ?_
  · rintro rfl rfl
    injection h with h
    exact ⟨h.symm, by simp [relRemoveColumn]⟩
  · rintro a l mm n rfl
    exact relRemoveColumn_core h rfl

/-- C50: insertion of the columns of another relation. -/
theorem relation_insert_columns_memory [Allocator] {c : Cfg} {r1 r2 r' : Rel} {column : Int} (h : Rel.insert_columns c r1 r2 column = .ok r') (p1 p2 : Ptr) :
    Triple (relAt c p1 r1 ∗ relAt c p2 r2) (relInsertColumns c p1 p2 column) (fun _ => relAt c p1 r' ∗ relAt c p2 r2) := by
  match r1, r2 with
  | [], r2 =>
    refine Triple.frame_fact (φ := p1 = 0) (fun h hh => hh.1) (fun hp => ?_)
    injection h with h
    subst h
    unfold relInsertColumns
    rw [if_pos (.inl hp)]
    exact Triple.ret (fun _ h => h)
  | a :: l, [] =>
    rw [sep_comm (relAt c p1 (a :: l))]
    refine Triple.frame_fact (φ := p2 = 0) (fun h hh => hh.1) (fun hp => ?_)
    injection h with h
    subst h
    unfold relInsertColumns
    rw [if_pos (.inr hp)]
    exact Triple.ret (fun _ h => h.perm (by ac_rfl))
  | a :: l, b :: l' =>
    rw [relAt_open, ex_sep]
    refine Triple.exi (fun n1 => ?_)
    rw [ex_sep]
    refine Triple.exi (fun m1 => ?_)
    have e : ((openAt c p1 a m1 n1 ∗ relAt c n1 l) ∗ relAt c p2 (b :: l')) = ex fun n2 => ex fun m2 => (openAt c p1 a m1 n1 ∗ relAt c n1 l) ∗ openAt c p2 b m2 n2 ∗ relAt c n2 l' := by
      rw [relAt_open, sep_ex]
      congr 1; funext n2
      rw [sep_ex]
    rw [e]
    refine Triple.exi (fun n2 => Triple.exi (fun m2 => ?_))
    obtain ⟨a', rfl, ht⟩ := relInsertColumns_core h (P := (openAt c p1 a m1 n1 ∗ relAt c n1 l) ∗ openAt c p2 b m2 n2 ∗ relAt c n2 l') (p1 := p1) (p2 := p2)
      (m1 := m1) (n1 := n1) (m2 := m2) (n2 := n2) (F := relAt c n1 l ∗ openAt c p2 b m2 n2 ∗ relAt c n2 l') (G := openAt c p1 a m1 n1 ∗ relAt c n1 l ∗ relAt c n2 l') (by ac_rfl) (by ac_rfl)
    refine ht.post (fun _ h hh => ?_)
    have hh' : ((partAt c p1 a' n1 ∗ relAt c n1 l) ∗ openAt c p2 b m2 n2 ∗ relAt c n2 l') h := hh.perm (by ac_rfl)
    refine sep_mono relAt_close (fun h hh => ?_) hh'
    exact relAt_close (n := n2) h (sep_mono openAt_part (fun _ h => h) hh)

/-- C50: concatenation of constraints, in new memory. -/
theorem relation_concat_constraints_memory [Allocator] {c : Cfg} {r1 r2 r' : Rel} (h : Rel.concat_constraints c r1 r2 = .ok r') (p1 p2 : Ptr) :
    Triple (relAt c p1 r1 ∗ relAt c p2 r2) (relConcat c p1 p2) (fun q => (relAt c p1 r1 ∗ relAt c p2 r2) ∗ relAt c q r') := by
  match r1, r2 with
  | [], r2 =>
    refine Triple.frame_fact (φ := p1 = 0) (fun h hh => hh.1) (fun hp => ?_)
    unfold relConcat
    rw [if_pos hp]
    refine Triple.last (F := relAt c p1 []) (relClone_spec h p2) (by ac_rfl) (fun q h hh => hh.perm (by ac_rfl))
  | a :: l, [] =>
    refine Triple.frame_fact (φ := p1 ≠ 0) (fun h hh => relAt_cons_ne h hh) (fun hp1 => ?_)
    rw [sep_comm (relAt c p1 (a :: l))]
    refine Triple.frame_fact (φ := p2 = 0) (fun h hh => hh.1) (fun hp => ?_)
    unfold relConcat
    rw [if_neg hp1, if_pos hp]
    refine Triple.last (F := relAt c p2 []) (relClone_spec (by simpa only [Rel.concat_constraints] using h) p1) (by ac_rfl) (fun q h hh => hh.perm (by ac_rfl))
  | a :: l, b :: l' =>
    rw [relAt_open, ex_sep]
    refine Triple.exi (fun n1 => ?_)
    rw [ex_sep]
    refine Triple.exi (fun m1 => ?_)
    have e : ((openAt c p1 a m1 n1 ∗ relAt c n1 l) ∗ relAt c p2 (b :: l')) = ex fun n2 => ex fun m2 => (openAt c p1 a m1 n1 ∗ relAt c n1 l) ∗ openAt c p2 b m2 n2 ∗ relAt c n2 l' := by
      rw [relAt_open, sep_ex]
      congr 1; funext n2
      rw [sep_ex]
    rw [e]
    refine Triple.exi (fun n2 => Triple.exi (fun m2 => ?_))
    have ht := relConcat_core h (P := (openAt c p1 a m1 n1 ∗ relAt c n1 l) ∗ openAt c p2 b m2 n2 ∗ relAt c n2 l') (p1 := p1) (p2 := p2)
      (m1 := m1) (n1 := n1) (m2 := m2) (n2 := n2) (F := relAt c n1 l ∗ openAt c p2 b m2 n2 ∗ relAt c n2 l') (G := openAt c p1 a m1 n1 ∗ relAt c n1 l ∗ relAt c n2 l') (by ac_rfl) (by ac_rfl)
    refine ht.post (fun q h hh => ?_)
    refine sep_mono (fun h hh => ?_) (fun _ h => h) hh
    refine ⟨n1, ?_⟩
    show ((ex fun m => openAt c p1 a m n1 ∗ relAt c n1 l) ∗ relAt c p2 (b :: l')) h
    refine sep_mono (fun h hh => ⟨m1, hh⟩) (fun h hh => ?_) hh
    exact relAt_close (n := n2) h (sep_mono openAt_part (fun _ h => h) hh)

/-! ## Removal of a part -/

/-- C50: the removal of a part which is not the first one frees it and keeps the others. -/
theorem relation_remove_part_memory {c : Cfg} (a b : Part) (l1 l2 : Rel) (p x n : Ptr) :
    Triple ((relChain c).seg p (a :: l1) x ∗ partAt c x b n ∗ relAt c n l2) (relRemovePart c p x) (fun q => pur (q = p) ∗ relAt c p (a :: l1 ++ l2)) := by
  have loop : ∀ (f : Nat) (l1 l0 : Rel) (y z : Part) (pr rl : Ptr), l1.length < f →
      Triple (((relChain c).seg p l0 pr ∗ partAt c pr y rl) ∗ (relChain c).seg rl l1 x ∗ partAt c x b n ∗ relAt c n l2) (relRemoveLoop c x f pr rl)
        (fun _ => relAt c p (l0 ++ y :: l1 ++ l2)) := by
    intro f
    induction f with
    | zero => intro l1 _ _ _ _ _ hl; omega
    | succ f ih =>
      intro l1 l0 y z pr rl hl
      unfold relRemoveLoop
      cases l1 with
      | nil =>
        have e : (((relChain c).seg p l0 pr ∗ partAt c pr y rl) ∗ (relChain c).seg rl [] x ∗ partAt c x b n ∗ relAt c n l2) =
            (pur (rl = x) ∗ ((relChain c).seg p l0 pr ∗ partAt c pr y rl) ∗ partAt c x b n ∗ relAt c n l2) := by
          show _ ∗ pur (rl = x) ∗ _ = _
          ac_rfl
        rw [e]
        refine Triple.fact (fun hx => ?_)
        subst hx
        refine Triple.of_fact (φ := rl ≠ 0) ?_ (fun hr => ?_)
        · rintro h ⟨_, _, _, _, _, ⟨_, _, _, _, hh, _⟩⟩
          exact partAt_ne _ hh
        rw [if_neg hr, if_pos rfl]
        refine Triple.stepEq (F := ((relChain c).seg p l0 pr ∗ partAt c pr y rl) ∗ relAt c n l2) ((relChain c).get_spec rl b n) (by show _ = partAt c rl b n ∗ _; ac_rfl) ?_
        refine Triple.step (F := (relChain c).seg p l0 pr ∗ partAt c rl b n ∗ relAt c n l2) ((relChain c).set_spec pr y rl n) (by show _ = partAt c pr y rl ∗ _; ac_rfl) (fun _ => ?_)
        refine Triple.step (F := (relChain c).seg p l0 pr ∗ partAt c pr y n ∗ relAt c n l2) ((relChain c).set_spec rl b n 0) (by show partAt c pr y n ∗ _ = partAt c rl b n ∗ _; ac_rfl) (fun _ => ?_)
        have hf : Triple (partAt c rl b 0) (relFree c rl) (fun _ => emp) := by
          have := relFree_spec (c := c) rl [b]
          unfold relAt at this
          rwa [Chain.list_one] at this
        refine Triple.last (F := ((relChain c).seg p l0 pr ∗ partAt c pr y n) ∗ relAt c n l2) hf (by show partAt c rl b 0 ∗ _ = _; ac_rfl) (fun _ h hh => ?_)
        rw [emp_sep] at hh
        have := sep_mono (Chain.seg_at (N := relChain c)) (fun _ h => h) hh
        exact Chain.seg_append h this
      | cons z l1 =>
        refine Triple.of_fact (φ := rl ≠ 0 ∧ rl ≠ x) ?_ (fun hr => ?_)
        · rintro h ⟨_, _, _, _, _, ⟨f1, f2, hd, _, ⟨k, g1, g2, _, rfl, hz, _⟩, ⟨g3, g4, _, rfl, hb, _⟩⟩⟩
          refine ⟨partAt_ne _ hz, ?_⟩
          rintro rfl
          obtain ⟨_, u1, u2, _, rfl, hz, _⟩ := hz
          obtain ⟨_, v1, v2, _, rfl, hb, _⟩ := hb
          have e1 := hz.2
          have e2 := hb.2
          rcases hd rl with h | h
          · simp [join, e1] at h
          · simp [join, e2] at h
        rw [if_neg hr.1, if_neg hr.2]
        have e : (((relChain c).seg p l0 pr ∗ partAt c pr y rl) ∗ (relChain c).seg rl (z :: l1) x ∗ partAt c x b n ∗ relAt c n l2) =
            ex fun k => partAt c rl z k ∗ ((relChain c).seg p l0 pr ∗ partAt c pr y rl) ∗ (relChain c).seg k l1 x ∗ partAt c x b n ∗ relAt c n l2 := by
          show _ ∗ (ex fun k => (relChain c).at_ rl z k ∗ (relChain c).seg k l1 x) ∗ _ = _
          rw [ex_sep, sep_ex]
          congr 1; funext k
          show _ ∗ (partAt c rl z k ∗ _) ∗ _ = _
          ac_rfl
        rw [e]
        refine Triple.exi (fun k => ?_)
        refine Triple.stepEq (F := ((relChain c).seg p l0 pr ∗ partAt c pr y rl) ∗ (relChain c).seg k l1 x ∗ partAt c x b n ∗ relAt c n l2) ((relChain c).get_spec rl z k) rfl ?_
        have := ih l1 (l0 ++ [y]) z z rl k (by simpa using hl)
        refine this.conseq (fun h hh => ?_) (fun _ h hh => by simpa using hh)
        have hh' : (((relChain c).seg p l0 pr ∗ partAt c pr y rl) ∗ partAt c rl z k ∗ (relChain c).seg k l1 x ∗ partAt c x b n ∗ relAt c n l2) h := hh.perm (by ac_rfl)
        have := sep_mono (Chain.seg_at (N := relChain c)) (fun _ h => h) hh'
        exact this.perm (by ac_rfl)
  unfold relRemovePart
  refine Triple.of_fact (φ := p ≠ 0 ∧ x ≠ 0 ∧ p ≠ x) ?_ (fun hr => ?_)
  · rintro h ⟨f1, f2, hd, _, ⟨k, g1, g2, _, rfl, hz, _⟩, ⟨g3, g4, _, rfl, hb, _⟩⟩
    refine ⟨partAt_ne _ hz, partAt_ne _ hb, ?_⟩
    rintro rfl
    obtain ⟨_, u1, u2, _, rfl, hz, _⟩ := hz
    obtain ⟨_, v1, v2, _, rfl, hb, _⟩ := hb
    have e1 := hz.2
    have e2 := hb.2
    rcases hd p with h | h
    · simp [join, e1] at h
    · simp [join, e2] at h
  rw [if_neg (by simp [hr.1, hr.2.1]), if_neg hr.2.2]
  have e : ((relChain c).seg p (a :: l1) x ∗ partAt c x b n ∗ relAt c n l2) =
      ex fun k => partAt c p a k ∗ (relChain c).seg k l1 x ∗ partAt c x b n ∗ relAt c n l2 := by
    show (ex fun k => (relChain c).at_ p a k ∗ (relChain c).seg k l1 x) ∗ _ = _
    rw [ex_sep]
    congr 1; funext k
    show (partAt c p a k ∗ _) ∗ _ = _
    ac_rfl
  rw [e]
  refine Triple.exi (fun k => ?_)
  refine Triple.stepEq (F := (relChain c).seg k l1 x ∗ partAt c x b n ∗ relAt c n l2) ((relChain c).get_spec p a k) rfl ?_
  have hb : Big (partAt c p a k ∗ (relChain c).seg k l1 x ∗ partAt c x b n ∗ relAt c n l2) (1 + (l1.length + (1 + 0))) :=
    ((relChain c).big p a k).sep ((Chain.seg_big l1 k x).sep (((relChain c).big x b n).sep (Big.zero _)))
  refine Triple.bind (Triple.heapSize hb) (fun f => Triple.fact (fun hf => ?_))
  have := loop f l1 [] a a p k (by omega)
  refine Triple.bind (this.pre (fun h hh => ?_)) (fun _ => Triple.ret (fun h hh => pur_sep_iff.mpr ⟨rfl, hh⟩))
  have e2 : (relChain c).seg p [] p = emp := pur_true rfl
  rw [e2, emp_sep]
  exact hh

/-- Finding (C50): the removal of the first part does not free it: it stays allocated, still linked to the rest, and the caller who removes it
must free it without its `next` parts, unlike any other part. -/
theorem relation_remove_first_part_leaks {c : Cfg} (a : Part) (l : Rel) (p : Ptr) :
    Triple (relAt c p (a :: l)) (relRemovePart c p p) (fun q => partAt c p a q ∗ relAt c q l) := by
  rw [relAt, Chain.list_cons]
  refine Triple.exi (fun n => ?_)
  refine Triple.frame_fact (φ := p ≠ 0) (fun h hh => partAt_ne _ hh) (fun hp => ?_)
  unfold relRemovePart
  rw [if_neg (by simp [hp]), if_pos rfl]
  refine Triple.last ((relChain c).get_spec p a n) rfl (fun q h hh => ?_)
  rw [sep_assoc] at hh
  obtain ⟨rfl, hh⟩ := pur_sep_iff.mp hh
  exact hh

/-! ## Consequences in terms of whole memories -/

/-- C50: when the relation is all that is allocated, nothing is left after `osl_relation_free`. -/
theorem relation_free_no_leak {c : Cfg} {p : Ptr} {r : Rel} {h : Heap} (hr : relAt c p r h.get) :
    ∃ h', relFree c p h = .ok ((), h') ∧ ∀ x, h'.get x = none := by
  obtain ⟨_, h', e, hh⟩ := relation_free_memory (c := c) p r emp h (by rw [sep_emp]; exact hr)
  rw [sep_emp] at hh
  exact ⟨h', e, fun x => by rw [hh]⟩

/-- C50: a copy can be freed, which gives back the memory without it; or the original can be freed, which leaves the copy valid. -/
theorem relation_clone_free [Allocator] {c : Cfg} {p : Ptr} {r r' : Rel} (hc : Rel.clone c r = .ok r') {R : Assn} {h : Heap} (hr : (relAt c p r ∗ R) h.get) :
    ∃ q h1, relClone c p h = .ok (q, h1) ∧
      (∃ h2, relFree c q h1 = .ok ((), h2) ∧ (relAt c p r ∗ R) h2.get) ∧
      (∃ h3, relFree c p h1 = .ok ((), h3) ∧ (relAt c q r' ∗ R) h3.get) := by
  obtain ⟨q, h1, e1, hh⟩ := relation_clone_memory hc p R h hr
  refine ⟨q, h1, e1, ?_, ?_⟩
  · obtain ⟨_, h2, e2, hh2⟩ := relation_free_memory (c := c) q r' (relAt c p r ∗ R) h1 (hh.perm (by ac_rfl))
    rw [emp_sep] at hh2
    exact ⟨h2, e2, hh2⟩
  · obtain ⟨_, h2, e2, hh2⟩ := relation_free_memory (c := c) p r (relAt c q r' ∗ R) h1 (hh.perm (by ac_rfl))
    rw [emp_sep] at hh2
    exact ⟨h2, e2, hh2⟩

end Osl.Mem
