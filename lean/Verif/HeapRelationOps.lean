import Verif.HeapRelationProps
/-!
# Relations in memory: unions, insertion and removal of rows and columns
-/

namespace Osl.Mem

variable {α β : Type}

/-! ## Union -/

theorem relAt_nil {c : Cfg} : relAt c 0 [] = emp := Chain.list_nil

theorem relAt_nil_iff {c : Cfg} {p : Ptr} {r : Rel} : ∀ h, relAt c p r h → (p = 0 ↔ r = []) := by
  intro h hh
  constructor
  · intro hp; subst hp; exact (relAt_null h hh).1
  · intro hr; subst hr; exact hh.1

theorem union_ok {c : Cfg} {r1 r2 r' : Rel} (h : Rel.union c r1 r2 = .ok r') :
    ∃ c1 c2, Rel.clone c r1 = .ok c1 ∧ Rel.clone c r2 = .ok c2 ∧ r' = Rel.add c1 c2 := by
  unfold Rel.union at h
  split at h
  · injection h with h
    exact ⟨[], [], rfl, rfl, h.symm⟩
  · obtain ⟨c1, h1, h⟩ := Out.bind_eq_ok.mp h
    obtain ⟨c2, h2, h⟩ := Out.bind_eq_ok.mp h
    injection h with h
    exact ⟨c1, c2, h1, h2, h.symm⟩

/-- The union of two relations which are somewhere in the memory `P`, possibly the same. -/
theorem relUnion_core [Allocator] {c : Cfg} {r1 r2 r' : Rel} (h : Rel.union c r1 r2 = .ok r') {P F1 F2 : Assn} {p1 p2 : Ptr}
    (e1 : P = (relAt c p1 r1 ∗ F1)) (e2 : P = (relAt c p2 r2 ∗ F2)) : Triple P (relUnion c p1 p2) (fun q => P ∗ relAt c q r') := by
  obtain ⟨c1, c2, h1, h2, rfl⟩ := union_ok h
  unfold relUnion
  by_cases h0 : p1 = 0 ∧ p2 = 0
  · rw [if_pos h0]
    refine Triple.ret (fun h hh => ?_)
    have n1 : r1 = [] := by
      rw [e1] at hh
      obtain ⟨_, _, _, _, hh, _⟩ := hh
      exact (relAt_nil_iff _ hh).mp h0.1
    have n2 : r2 = [] := by
      rw [e2] at hh
      obtain ⟨_, _, _, _, hh, _⟩ := hh
      exact (relAt_nil_iff _ hh).mp h0.2
    subst n1 n2
    injection h1 with h1
    injection h2 with h2
    subst h1 h2
    have e : relAt c 0 (Rel.add [] []) = emp := relAt_nil
    rw [e, sep_emp]
    exact hh
  · rw [if_neg h0]
    refine Triple.step (relClone_spec h1 p1) e1 (fun q1 => ?_)
    have e3 : ((relAt c p1 r1 ∗ relAt c q1 c1) ∗ F1) = (relAt c p2 r2 ∗ F2 ∗ relAt c q1 c1) := by
      have : ((relAt c p1 r1 ∗ relAt c q1 c1) ∗ F1) = ((relAt c p1 r1 ∗ F1) ∗ relAt c q1 c1) := by ac_rfl
      rw [this, ← e1, e2]; ac_rfl
    refine Triple.step (relClone_spec h2 p2) e3 (fun q2 => ?_)
    refine Triple.last (F := relAt c p2 r2 ∗ F2) (relAdd_spec c1 c2 q1 q2) (by ac_rfl) ?_
    intro q h hh
    rw [e2]
    exact hh.perm (by ac_rfl)

/-! ## Rebuilding a matrix -/

/-- A copy from a matrix of the memory `P` into another matrix. -/
theorem copyFrom {c : Cfg} {pr : Int} {P G T : Assn} {ms md : Ptr} {R C R' C' : Int} {s d d' : Matrix} {ilo ihi dro sro jlo jhi dco sco : Int}
    {f : Unit → M β} {S : β → Assn}
    (e : P = (matAt (kind c pr) ms R' C' s ∗ G)) (h : copyBlock c pr s ilo ihi dro sro jlo jhi dco sco d = .ok d')
    (h2 : Triple (P ∗ T ∗ matAt (kind c pr) md R C d') (f ()) S) :
    Triple (P ∗ T ∗ matAt (kind c pr) md R C d) (hcopy (kind c pr) ms ilo ihi dro sro jlo jhi dco sco md >>= f) S := by
  refine Triple.step (F := G ∗ T) (hcopy_spec (R' := R') (C' := C') h) (by rw [e]; ac_rfl) (fun _ => ?_)
  have : ((matAt (kind c pr) ms R' C' s ∗ matAt (kind c pr) md R C d') ∗ G ∗ T) = (P ∗ T ∗ matAt (kind c pr) md R C d') := by
    rw [e]; ac_rfl
  rw [this]; exact h2

theorem copyFrom_last {c : Cfg} {pr : Int} {P G T : Assn} {ms md : Ptr} {R C R' C' : Int} {s d d' : Matrix} {ilo ihi dro sro jlo jhi dco sco : Int}
    (e : P = (matAt (kind c pr) ms R' C' s ∗ G)) (h : copyBlock c pr s ilo ihi dro sro jlo jhi dco sco d = .ok d') :
    Triple (P ∗ T ∗ matAt (kind c pr) md R C d) (hcopy (kind c pr) ms ilo ihi dro sro jlo jhi dco sco md)
      (fun _ => P ∗ T ∗ matAt (kind c pr) md R C d') := by
  refine Triple.last (F := G ∗ T) (hcopy_spec (R' := R') (C' := C') h) (by rw [e]; ac_rfl) (fun _ h hh => ?_)
  exact hh.perm (by rw [e]; ac_rfl)

/-- The memory of a part whose pointers are known. -/
def openAt (c : Cfg) (p : Ptr) (a : Part) (m n : Ptr) : Assn :=
  p ↦ .rel (hdr a) m n ∗ matAt (kind c a.precision) m a.nb_rows a.nb_columns a.m

theorem openAt_part {c : Cfg} {p : Ptr} {a : Part} {m n : Ptr} : ∀ h, openAt c p a m n h → partAt c p a n h := fun _ hh => ⟨m, hh⟩

theorem relTakeInside_spec {c : Cfg} {p t : Ptr} {a a' : Part} {m n mt : Ptr} {ht : Hdr} {upd : Hdr → Hdr → Hdr} (hu : upd (hdr a) ht = hdr a') :
    Triple (openAt c p a m n ∗ t ↦ .rel ht mt 0 ∗ matAt (kind c a'.precision) mt a'.nb_rows a'.nb_columns a'.m)
      (relTakeInside c p t upd) (fun _ => partAt c p a' n) := by
  unfold relTakeInside openAt
  refine Triple.step free_inside_spec rfl (fun _ => ?_)
  refine Triple.stepEq loadRel_spec rfl ?_
  refine Triple.stepEq (F := p ↦ .rel (hdr a) m n ∗ matAt (kind c a'.precision) mt a'.nb_rows a'.nb_columns a'.m) (loadRel_spec (p := t)) (by ac_rfl) ?_
  refine Triple.step (Triple.store p _ _) rfl (fun _ => ?_)
  refine Triple.last (F := p ↦ .rel (hdr a') mt n ∗ matAt (kind c a'.precision) mt a'.nb_rows a'.nb_columns a'.m) (Triple.free t _) (by rw [← hu]; ac_rfl) ?_
  intro _ h hh
  rw [emp_sep] at hh
  exact ⟨mt, hh⟩

/-- `osl_relation_replace_constraints` of rows of a part of `P` in another part. -/
theorem relReplace_spec {c : Cfg} {a a' b : Part} {row : Int} (h : Rel.replaceConstraintsPart c a b row = .ok a') {P G : Assn}
    {r1 r2 m1 n1 m2 n2 : Ptr} (e : P = (openAt c r2 b m2 n2 ∗ G)) :
    Triple (P ∗ openAt c r1 a m1 n1) (relReplace c r1 r2 row) (fun _ => P ∗ openAt c r1 a' m1 n1) := by
  unfold Rel.replaceConstraintsPart at h
  split at h
  · cases h
  · rename_i hg
    obtain ⟨m', h1, h⟩ := Out.bind_eq_ok.mp h
    injection h with h
    subst h
    unfold relReplace
    refine Triple.of_fact (φ := r1 ≠ 0) ?_ (fun hr1 => ?_)
    · rintro h ⟨_, _, _, _, _, hh⟩
      exact pto_ne_sep _ hh
    refine Triple.of_fact (φ := r2 ≠ 0) ?_ (fun hr2 => ?_)
    · rintro h ⟨_, _, _, _, hh, _⟩
      rw [e] at hh
      obtain ⟨_, _, _, _, hh, _⟩ := hh
      exact pto_ne_sep _ hh
    rw [if_neg (by simp [hr1, hr2])]
    refine Triple.stepEq (F := P ∗ matAt (kind c a.precision) m1 a.nb_rows a.nb_columns a.m) (loadRel_spec (p := r1) (h := hdr a) (m := m1) (n := n1)) (by unfold openAt; ac_rfl) ?_
    refine Triple.stepEq (F := matAt (kind c b.precision) m2 b.nb_rows b.nb_columns b.m ∗ G ∗ openAt c r1 a m1 n1) (loadRel_spec (p := r2) (h := hdr b) (m := m2) (n := n2)) (by rw [e]; unfold openAt; ac_rfl) ?_
    have hg' : ¬((hdr a).precision ≠ (hdr b).precision ∨ (hdr a).nb_columns ≠ (hdr b).nb_columns ∨ row + (hdr b).nb_rows > (hdr a).nb_rows ∨ row < 0) := hg
    rw [if_neg hg']
    have hpr : b.precision = a.precision := by
      by_cases hh : a.precision = b.precision
      · exact hh.symm
      · exact absurd (Or.inl hh) hg
    exact copyFrom_last (T := r1 ↦ .rel (hdr a) m1 n1) (G := r2 ↦ .rel (hdr b) m2 n2 ∗ G) (by rw [e]; unfold openAt; rw [hpr]; ac_rfl) h1

theorem relAt_open {c : Cfg} {p : Ptr} {a : Part} {l : Rel} :
    relAt c p (a :: l) = ex fun n => ex fun m => openAt c p a m n ∗ relAt c n l := by
  unfold relAt
  rw [Chain.list_cons]
  congr 1; funext n
  show (partAt c p a n ∗ _) = _
  unfold partAt
  rw [ex_sep]
  rfl

theorem relAt_close {c : Cfg} {p n : Ptr} {a : Part} {l : Rel} : ∀ h, (partAt c p a n ∗ relAt c n l) h → relAt c p (a :: l) h :=
  fun _ hh => ⟨n, hh⟩

theorem Triple.of_if_neg {P : Assn} {g : Prop} [Decidable g] (hg : ¬ g) {m1 m2 : M β} {S : β → Assn} (h : Triple P m2 S) : Triple P (if g then m1 else m2) S := by
  rw [if_neg hg]; exact h

/-- A new temporary relation. -/
theorem Triple.newTemp [Allocator] {c : Cfg} {pr R C : Int} {a : Part} (h : Rel.pmalloc c pr R C = .ok a) {P : Assn} {f : Ptr → M β} {S : β → Assn}
    (h2 : ∀ t m, Triple (P ∗ openAt c t a m 0) (f t) S) : Triple P (pmalloc c pr R C >>= f) S := by
  refine Triple.step (P := emp) (pmalloc_spec h) (by rw [emp_sep]) (fun t => ?_)
  unfold partAt
  rw [ex_sep]
  refine Triple.exi (fun m => ?_)
  have := h2 t m
  rw [sep_comm] at this
  exact this

/-- The header of a new relation. -/
def tempHdr (pr R C : Int) : Hdr := ⟨UNDEFINED, pr, R, C, UNDEFINED, UNDEFINED, UNDEFINED, UNDEFINED⟩

theorem replace_fields {c : Cfg} {a a' b : Part} {row : Int} (h : Rel.replaceConstraintsPart c a b row = .ok a') : ∃ m', a' = { a with m := m' } := by
  unfold Rel.replaceConstraintsPart at h
  split at h
  · cases h
  · obtain ⟨x, _, h⟩ := Out.bind_eq_ok.mp h
    injection h with h
    exact ⟨x, h.symm⟩

theorem relInsert_core [Allocator] {c : Cfg} {a b : Part} {l l' r' : Rel} {row : Int} (h : Rel.insert_constraints c (a :: l) (b :: l') row = .ok r')
    {P F G : Assn} {p1 p2 m1 n1 m2 n2 : Ptr} (e1 : P = (openAt c p1 a m1 n1 ∗ F)) (e2 : P = (openAt c p2 b m2 n2 ∗ G)) :
    ∃ a', r' = a' :: l ∧ Triple P (relInsert c p1 p2 row) (fun _ => partAt c p1 a' n1 ∗ F) := by
  unfold Rel.insert_constraints at h
  simp only at h
  generalize hrow : (if row = -1 then a.nb_rows else row) = row' at h
  split at h
  · cases h
  rename_i hg
  obtain ⟨temp, h1, h⟩ := Out.bind_eq_ok.mp h
  obtain ⟨d1, h2, h⟩ := Out.bind_eq_ok.mp h
  obtain ⟨t2, h3, h⟩ := Out.bind_eq_ok.mp h
  obtain ⟨d3, h4, h⟩ := Out.bind_eq_ok.mp h
  injection h with h
  subst h
  refine ⟨_, rfl, ?_⟩
  obtain ⟨_, _, _, _, rfl⟩ := Rel.pmalloc_fields h1
  unfold relInsert
  refine Triple.of_fact (φ := p1 ≠ 0) ?_ (fun hr1 => ?_)
  · rw [e1]
    rintro h ⟨_, _, _, _, hh, _⟩
    exact pto_ne_sep _ hh
  refine Triple.of_fact (φ := p2 ≠ 0) ?_ (fun hr2 => ?_)
  · rw [e2]
    rintro h ⟨_, _, _, _, hh, _⟩
    exact pto_ne_sep _ hh
  rw [if_neg (by simp [hr1, hr2])]
  refine Triple.stepEq (F := matAt (kind c a.precision) m1 a.nb_rows a.nb_columns a.m ∗ F) (loadRel_spec (p := p1) (h := hdr a) (m := m1) (n := n1)) (by rw [e1]; unfold openAt; ac_rfl) ?_
  refine Triple.stepEq (F := matAt (kind c b.precision) m2 b.nb_rows b.nb_columns b.m ∗ G) (loadRel_spec (p := p2) (h := hdr b) (m := m2) (n := n2)) (by rw [e2]; unfold openAt; ac_rfl) ?_
  subst hrow
  refine Triple.of_if_neg hg ?_
  simp only [hdr]
  refine Triple.newTemp h1 (fun t mt => ?_)
  unfold openAt
  simp only
  refine Triple.stepEq (F := P ∗ matAt (kind c a.precision) mt (a.nb_rows + b.nb_rows) a.nb_columns _) (loadRel_spec (p := t)) (by ac_rfl) ?_
  have em1 : P = (matAt (kind c a.precision) m1 a.nb_rows a.nb_columns a.m ∗ (p1 ↦ .rel (hdr a) m1 n1) ∗ F) := by
    rw [e1]; unfold openAt; ac_rfl
  refine copyFrom em1 h2 ?_
  refine Triple.bind (relReplace_spec h3 e2) (fun _ => ?_)
  obtain ⟨m2', rfl⟩ := replace_fields h3
  unfold openAt
  simp only [hdr]
  refine copyFrom em1 h4 ?_
  refine Triple.last (F := F) (relTakeInside_spec (c := c) (p := p1) (t := t) (a := a) (m := m1) (n := n1) (mt := mt) (upd := updRows)
    (ht := tempHdr a.precision (a.nb_rows + b.nb_rows) a.nb_columns) (a' := { a with nb_rows := a.nb_rows + b.nb_rows, m := d3 }) rfl) ?_ (fun _ h hh => hh)
  rw [e1]
  unfold tempHdr
  ac_rfl

theorem relInsertColumn_core [Allocator] {c : Cfg} {a : Part} {l r' : Rel} {column : Int} (h : Rel.insert_blank_column c (a :: l) column = .ok r')
    {p m n : Ptr} {P : Assn} (eP : P = openAt c p a m n) : ∃ a', r' = a' :: l ∧ Triple P (relInsertColumn c p column) (fun _ => partAt c p a' n) := by
  unfold Rel.insert_blank_column at h
  simp only at h
  split at h
  · cases h
  rename_i hg
  obtain ⟨temp, h1, h⟩ := Out.bind_eq_ok.mp h
  obtain ⟨d1, h2, h⟩ := Out.bind_eq_ok.mp h
  obtain ⟨d2, h3, h⟩ := Out.bind_eq_ok.mp h
  injection h with h
  subst h
  refine ⟨_, rfl, ?_⟩
  obtain ⟨_, _, _, _, rfl⟩ := Rel.pmalloc_fields h1
  unfold relInsertColumn
  refine Triple.of_fact (φ := p ≠ 0) (fun h hh => by rw [eP] at hh; exact pto_ne_sep _ hh) (fun hp => ?_)
  rw [if_neg hp]
  refine Triple.stepEq (F := matAt (kind c a.precision) m a.nb_rows a.nb_columns a.m) (loadRel_spec (p := p) (h := hdr a) (m := m) (n := n)) eP ?_
  refine Triple.of_if_neg hg ?_
  simp only [hdr]
  refine Triple.newTemp h1 (fun t mt => ?_)
  unfold openAt
  simp only
  refine Triple.stepEq (F := P ∗ matAt (kind c a.precision) mt a.nb_rows (a.nb_columns + 1) _) (loadRel_spec (p := t)) (by ac_rfl) ?_
  have em1 : P = (matAt (kind c a.precision) m a.nb_rows a.nb_columns a.m ∗ (p ↦ .rel (hdr a) m n)) := by
    rw [eP]; unfold openAt; ac_rfl
  refine copyFrom em1 h2 ?_
  refine copyFrom em1 h3 ?_
  refine (relTakeInside_spec (c := c) (p := p) (t := t) (a := a) (m := m) (n := n) (mt := mt) (upd := updCols)
    (ht := tempHdr a.precision a.nb_rows (a.nb_columns + 1)) (a' := { a with nb_columns := a.nb_columns + 1, m := d2 }) rfl).pre ?_
  intro h hh
  exact hh.perm (by rw [eP]; rfl)

theorem relRemoveRow_core [Allocator] {c : Cfg} {a : Part} {l r' : Rel} {row : Int} (h : Rel.remove_row c (a :: l) row = .ok r')
    {p m n : Ptr} {P : Assn} (eP : P = openAt c p a m n) : ∃ a', r' = a' :: l ∧ Triple P (relRemoveRow c p row) (fun _ => partAt c p a' n) := by
  unfold Rel.remove_row at h
  simp only at h
  split at h
  · cases h
  rename_i hg
  obtain ⟨temp, h1, h⟩ := Out.bind_eq_ok.mp h
  obtain ⟨d1, h2, h⟩ := Out.bind_eq_ok.mp h
  obtain ⟨d2, h3, h⟩ := Out.bind_eq_ok.mp h
  injection h with h
  subst h
  refine ⟨_, rfl, ?_⟩
  obtain ⟨_, _, _, _, rfl⟩ := Rel.pmalloc_fields h1
  unfold relRemoveRow
  refine Triple.of_fact (φ := p ≠ 0) (fun h hh => by rw [eP] at hh; exact pto_ne_sep _ hh) (fun hp => ?_)
  rw [if_neg hp]
  refine Triple.stepEq (F := matAt (kind c a.precision) m a.nb_rows a.nb_columns a.m) (loadRel_spec (p := p) (h := hdr a) (m := m) (n := n)) eP ?_
  refine Triple.of_if_neg hg ?_
  simp only [hdr]
  refine Triple.newTemp h1 (fun t mt => ?_)
  unfold openAt
  simp only
  refine Triple.stepEq (F := P ∗ matAt (kind c a.precision) mt (a.nb_rows - 1) a.nb_columns _) (loadRel_spec (p := t)) (by ac_rfl) ?_
  have em1 : P = (matAt (kind c a.precision) m a.nb_rows a.nb_columns a.m ∗ (p ↦ .rel (hdr a) m n)) := by
    rw [eP]; unfold openAt; ac_rfl
  refine copyFrom em1 h2 ?_
  refine copyFrom em1 h3 ?_
  refine (relTakeInside_spec (c := c) (p := p) (t := t) (a := a) (m := m) (n := n) (mt := mt) (upd := updRows)
    (ht := tempHdr a.precision (a.nb_rows - 1) a.nb_columns) (a' := { a with nb_rows := a.nb_rows - 1, m := d2 }) rfl).pre ?_
  intro h hh
  exact hh.perm (by rw [eP]; rfl)

theorem relRemoveColumn_core [Allocator] {c : Cfg} {a : Part} {l r' : Rel} {column : Int} (h : Rel.remove_column c (a :: l) column = .ok r')
    {p m n : Ptr} {P : Assn} (eP : P = openAt c p a m n) : ∃ a', r' = a' :: l ∧ Triple P (relRemoveColumn c p column) (fun _ => partAt c p a' n) := by
  unfold Rel.remove_column at h
  simp only at h
  split at h
  · cases h
  rename_i hg
  obtain ⟨temp, h1, h⟩ := Out.bind_eq_ok.mp h
  obtain ⟨d1, h2, h⟩ := Out.bind_eq_ok.mp h
  obtain ⟨d2, h3, h⟩ := Out.bind_eq_ok.mp h
  injection h with h
  subst h
  refine ⟨_, rfl, ?_⟩
  obtain ⟨_, _, _, _, rfl⟩ := Rel.pmalloc_fields h1
  unfold relRemoveColumn
  refine Triple.of_fact (φ := p ≠ 0) (fun h hh => by rw [eP] at hh; exact pto_ne_sep _ hh) (fun hp => ?_)
  rw [if_neg hp]
  refine Triple.stepEq (F := matAt (kind c a.precision) m a.nb_rows a.nb_columns a.m) (loadRel_spec (p := p) (h := hdr a) (m := m) (n := n)) eP ?_
  refine Triple.of_if_neg hg ?_
  simp only [hdr]
  refine Triple.newTemp h1 (fun t mt => ?_)
  unfold openAt
  simp only
  refine Triple.stepEq (F := P ∗ matAt (kind c a.precision) mt a.nb_rows (a.nb_columns - 1) _) (loadRel_spec (p := t)) (by ac_rfl) ?_
  have em1 : P = (matAt (kind c a.precision) m a.nb_rows a.nb_columns a.m ∗ (p ↦ .rel (hdr a) m n)) := by
    rw [eP]; unfold openAt; ac_rfl
  refine copyFrom em1 h2 ?_
  refine copyFrom em1 h3 ?_
  refine (relTakeInside_spec (c := c) (p := p) (t := t) (a := a) (m := m) (n := n) (mt := mt) (upd := updCols)
    (ht := tempHdr a.precision a.nb_rows (a.nb_columns - 1)) (a' := { a with nb_columns := a.nb_columns - 1, m := d2 }) rfl).pre ?_
  intro h hh
  exact hh.perm (by rw [eP]; rfl)

theorem relInsertColumns_core [Allocator] {c : Cfg} {a b : Part} {l l' r' : Rel} {column : Int} (h : Rel.insert_columns c (a :: l) (b :: l') column = .ok r')
    {P F G : Assn} {p1 p2 m1 n1 m2 n2 : Ptr} (e1 : P = (openAt c p1 a m1 n1 ∗ F)) (e2 : P = (openAt c p2 b m2 n2 ∗ G)) :
    ∃ a', r' = a' :: l ∧ Triple P (relInsertColumns c p1 p2 column) (fun _ => partAt c p1 a' n1 ∗ F) := by
  unfold Rel.insert_columns at h
  simp only at h
  split at h
  · cases h
  rename_i hg
  obtain ⟨temp, h1, h⟩ := Out.bind_eq_ok.mp h
  obtain ⟨d1, h2, h⟩ := Out.bind_eq_ok.mp h
  obtain ⟨d2, h3, h⟩ := Out.bind_eq_ok.mp h
  obtain ⟨d3, h4, h⟩ := Out.bind_eq_ok.mp h
  injection h with h
  subst h
  refine ⟨_, rfl, ?_⟩
  obtain ⟨_, _, _, _, rfl⟩ := Rel.pmalloc_fields h1
  have hpr : a.precision = b.precision := by
    by_cases hh : a.precision = b.precision
    · exact hh
    · exact absurd (Or.inl hh) hg
  unfold relInsertColumns
  refine Triple.of_fact (φ := p1 ≠ 0) ?_ (fun hr1 => ?_)
  · rw [e1]
    rintro h ⟨_, _, _, _, hh, _⟩
    exact pto_ne_sep _ hh
  refine Triple.of_fact (φ := p2 ≠ 0) ?_ (fun hr2 => ?_)
  · rw [e2]
    rintro h ⟨_, _, _, _, hh, _⟩
    exact pto_ne_sep _ hh
  rw [if_neg (by simp [hr1, hr2])]
  refine Triple.stepEq (F := matAt (kind c a.precision) m1 a.nb_rows a.nb_columns a.m ∗ F) (loadRel_spec (p := p1) (h := hdr a) (m := m1) (n := n1)) (by rw [e1]; unfold openAt; ac_rfl) ?_
  refine Triple.stepEq (F := matAt (kind c b.precision) m2 b.nb_rows b.nb_columns b.m ∗ G) (loadRel_spec (p := p2) (h := hdr b) (m := m2) (n := n2)) (by rw [e2]; unfold openAt; ac_rfl) ?_
  refine Triple.of_if_neg hg ?_
  simp only [hdr]
  refine Triple.newTemp h1 (fun t mt => ?_)
  unfold openAt
  simp only
  refine Triple.stepEq (F := P ∗ matAt (kind c a.precision) mt a.nb_rows (a.nb_columns + b.nb_columns) _) (loadRel_spec (p := t)) (by ac_rfl) ?_
  have em1 : P = (matAt (kind c a.precision) m1 a.nb_rows a.nb_columns a.m ∗ (p1 ↦ .rel (hdr a) m1 n1) ∗ F) := by
    rw [e1]; unfold openAt; ac_rfl
  have em2 : P = (matAt (kind c a.precision) m2 b.nb_rows b.nb_columns b.m ∗ (p2 ↦ .rel (hdr b) m2 n2) ∗ G) := by
    rw [e2]; unfold openAt; rw [hpr]; ac_rfl
  refine copyFrom em1 h2 ?_
  refine copyFrom em2 h3 ?_
  refine copyFrom em1 h4 ?_
  refine Triple.last (F := F) (relTakeInside_spec (c := c) (p := p1) (t := t) (a := a) (m := m1) (n := n1) (mt := mt) (upd := updCols)
    (ht := tempHdr a.precision a.nb_rows (a.nb_columns + b.nb_columns)) (a' := { a with nb_columns := a.nb_columns + b.nb_columns, m := d3 }) rfl) ?_ (fun _ h hh => hh)
  rw [e1]
  unfold tempHdr
  ac_rfl

theorem relConcat_core [Allocator] {c : Cfg} {a b : Part} {l l' r' : Rel} (h : Rel.concat_constraints c (a :: l) (b :: l') = .ok r')
    {P F G : Assn} {p1 p2 m1 n1 m2 n2 : Ptr} (e1 : P = (openAt c p1 a m1 n1 ∗ F)) (e2 : P = (openAt c p2 b m2 n2 ∗ G)) :
    Triple P (relConcat c p1 p2) (fun q => P ∗ relAt c q r') := by
  unfold Rel.concat_constraints at h
  simp only at h
  split at h
  · cases h
  rename_i hg
  obtain ⟨temp, h1, h⟩ := Out.bind_eq_ok.mp h
  obtain ⟨d1, h2, h⟩ := Out.bind_eq_ok.mp h
  obtain ⟨d2, h3, h⟩ := Out.bind_eq_ok.mp h
  injection h with h
  subst h
  unfold relConcat
  refine Triple.of_fact (φ := p1 ≠ 0) ?_ (fun hr1 => ?_)
  · rw [e1]
    rintro h ⟨_, _, _, _, hh, _⟩
    exact pto_ne_sep _ hh
  refine Triple.of_fact (φ := p2 ≠ 0) ?_ (fun hr2 => ?_)
  · rw [e2]
    rintro h ⟨_, _, _, _, hh, _⟩
    exact pto_ne_sep _ hh
  rw [if_neg hr1, if_neg hr2]
  refine Triple.stepEq (F := matAt (kind c a.precision) m1 a.nb_rows a.nb_columns a.m ∗ F) (loadRel_spec (p := p1) (h := hdr a) (m := m1) (n := n1)) (by rw [e1]; unfold openAt; ac_rfl) ?_
  refine Triple.stepEq (F := matAt (kind c b.precision) m2 b.nb_rows b.nb_columns b.m ∗ G) (loadRel_spec (p := p2) (h := hdr b) (m := m2) (n := n2)) (by rw [e2]; unfold openAt; ac_rfl) ?_
  refine Triple.of_if_neg hg ?_
  simp only [hdr]
  refine Triple.newTemp h1 (fun t mt => ?_)
  refine Triple.bind (relReplace_spec h2 e1) (fun _ => ?_)
  refine Triple.bind (relReplace_spec h3 e2) (fun _ => ?_)
  refine Triple.ret (fun h hh => sep_mono (fun _ h => h) (fun h hh => ?_) hh)
  show Chain.list (relChain c) t [d2] h
  rw [Chain.list_one]
  exact ⟨mt, hh⟩

end Osl.Mem
