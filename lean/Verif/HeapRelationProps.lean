import Verif.HeapRelation
/-!
# Relations in memory: what the functions do
-/

namespace Osl.Mem

variable {α β : Type}

/-! ## Assertions (specification) -/

/-- The integer fields of a part. -/
def hdr (a : Part) : Hdr := ⟨a.type, a.precision, a.nb_rows, a.nb_columns, a.nb_output_dims, a.nb_input_dims, a.nb_local_dims, a.nb_parameters⟩

/-- The memory of the part `a` at the address `p`, with the `next` pointer `n`: the structure and its matrix. -/
def partAt (c : Cfg) (p : Ptr) (a : Part) (n : Ptr) : Assn :=
  ex fun m => p ↦ .rel (hdr a) m n ∗ matAt (kind c a.precision) m a.nb_rows a.nb_columns a.m

theorem loadRel_spec {p : Ptr} {h : Hdr} {m n : Ptr} : Triple (p ↦ .rel h m n) (loadRel p) (fun r => pur (r = (h, m, n)) ∗ p ↦ .rel h m n) := by
  unfold loadRel
  refine Triple.loadStep (F := emp) (by rw [sep_emp]) ?_
  exact Triple.liftLast rfl

theorem partAt_ne {c : Cfg} {p : Ptr} {a : Part} {n : Ptr} : ∀ h, partAt c p a n h → p ≠ 0 := by
  rintro h ⟨m, hh⟩
  exact pto_ne_sep h hh

/-- The chain of the parts of a relation. -/
def relChain (c : Cfg) : Chain Part where
  toNext := relNext
  at_ := partAt c
  nonnull := fun h => partAt_ne _ h
  own := by
    rintro p a n h ⟨m, hh⟩
    exact own_pto hh
  big := by
    intro p a n
    refine Big.ex (fun m => ?_)
    exact (Big.pto _ _).sep (Big.zero _)
  get_spec := by
    intro p a n
    refine Triple.exi (fun m => ?_)
    refine Triple.stepEq (F := matAt (kind c a.precision) m a.nb_rows a.nb_columns a.m) loadRel_spec rfl ?_
    refine Triple.ret (fun h hh => pur_sep_iff.mpr ⟨rfl, m, hh⟩)
  set_spec := by
    intro p a n n'
    refine Triple.exi (fun m => ?_)
    refine Triple.stepEq (F := matAt (kind c a.precision) m a.nb_rows a.nb_columns a.m) loadRel_spec rfl ?_
    refine Triple.last (Triple.store p _ _) rfl (fun _ h hh => ⟨m, hh⟩)

/-- The memory of the relation `r` at the address `p`. -/
def relAt (c : Cfg) (p : Ptr) (r : Rel) : Assn := (relChain c).list p r

/-! ## Freeing -/

theorem matFree_spec {k : Option Kind} {m : Ptr} {R C : Int} {mat : Matrix} :
    Triple (matAt k m R C mat) (do forM 0 (R * C) (fun i => clearCell k m 0 i); freeMatrix m (R * C)) (fun _ => emp) := by
  unfold matAt
  refine Triple.fact (fun hr => ?_)
  by_cases h0 : R = 0 ∨ C = 0
  · rw [if_pos h0]
    have hz : R * C = 0 := by rcases h0 with h | h <;> simp [h]
    rw [hz]
    refine Triple.of_fact (φ := m = 0) (fun h hh => hh.1) (fun hm => ?_)
    refine Triple.bind (Triple.forM_empty (by omega)) (fun _ => ?_)
    simp only [freeMatrix, hm, ne_eq, not_true_eq_false, if_false]
    exact Triple.ret (fun h hh => hh.2)
  · rw [if_neg h0]
    refine Triple.exi (fun q => Triple.exi (fun cells => ?_))
    have hR : 0 < R := by have := hr.1; omega
    have hC : 0 < C := by
      have hne : mat ≠ [] := by rintro rfl; simp [Rect] at hr; omega
      obtain ⟨r, l, rfl⟩ := List.exists_cons_of_ne_nil hne
      have := hr.2 r (by simp)
      omega
    have hlen : mat.flatten.length = R.toNat * C.toNat := flatten_length hr
    have hc := clearLoop_spec (k := k) (m := m) (q := q) hR hC hlen
    refine Triple.bind (hc.pre ?_) (fun _ => ?_)
    · intro h hh
      exact ⟨[], cells, pur_sep_iff.mpr ⟨rfl, hh⟩⟩
    · refine Triple.exi (fun l1 => Triple.exi (fun l2 => Triple.fact (fun hl => ?_)))
      rw [List.drop_eq_nil_of_le (by omega)]
      refine Triple.of_fact (φ := m ≠ 0) (fun h hh => pto_ne_sep h hh) (fun hm => ?_)
      have hpos : R * C > 0 := Int.mul_pos hR hC
      simp only [freeMatrix, hm, ne_eq, not_false_eq_true, if_true, hpos]
      refine Triple.loadStep rfl ?_
      refine Triple.liftStep (a := rowPtrs q R C) rfl ?_
      refine Triple.liftStep (a := (q, 0)) (by rw [rowPtrs_nth (by omega) hR]; simp) ?_
      refine Triple.liftStep (a := ()) rfl ?_
      refine Triple.step (F := m ↦ .rows (rowPtrs q R C) ∗ cellsAt k l2 []) (Triple.free q _) (by ac_rfl) (fun _ => ?_)
      rw [emp_sep]
      refine Triple.last (Triple.free m _) rfl ?_
      intro _ h hh
      rw [emp_sep] at hh
      cases l2 with
      | nil => exact hh
      | cons x l2 => exact hh.1.elim

/-- The shell of a part is kept, its matrix is freed. -/
theorem free_inside_spec {c : Cfg} {p : Ptr} {a : Part} {n m : Ptr} :
    Triple (p ↦ .rel (hdr a) m n ∗ matAt (kind c a.precision) m a.nb_rows a.nb_columns a.m) (free_inside c p) (fun _ => p ↦ .rel (hdr a) m n) := by
  refine Triple.of_fact (φ := p ≠ 0) (fun h hh => pto_ne_sep h hh) (fun hp => ?_)
  unfold free_inside
  rw [if_neg hp]
  refine Triple.stepEq loadRel_spec rfl ?_
  refine Triple.last (F := p ↦ .rel (hdr a) m n) (matFree_spec (k := kind c a.precision) (m := m) (R := a.nb_rows) (C := a.nb_columns) (mat := a.m)) (by ac_rfl) ?_
  intro _ h hh
  rwa [emp_sep] at hh

theorem relFreeStep_spec {c : Cfg} (p : Ptr) (a : Part) (n : Ptr) : Triple (partAt c p a n) (relFreeStep c p) (fun r => pur (r = n)) := by
  unfold relFreeStep
  refine Triple.stepEq (F := emp) ((relChain c).get_spec p a n) (by rw [sep_emp]; rfl) ?_
  refine Triple.exi (fun m => ?_)
  refine Triple.bind free_inside_spec (fun _ => ?_)
  refine Triple.bind (Triple.free p _) (fun _ => ?_)
  exact Triple.ret (fun h hh => ⟨rfl, hh⟩)

/-- `osl_relation_free` frees exactly the memory of the relation. -/
theorem relFree_spec {c : Cfg} (p : Ptr) (r : Rel) : Triple (relAt c p r) (relFree c p) (fun _ => emp) :=
  Chain.freeAll_spec (N := relChain c) relFreeStep_spec r p

/-! ## Allocation and copies -/

theorem Rel.pmalloc_fields {c : Cfg} {pr R C : Int} {a : Part} (h : Rel.pmalloc c pr R C = .ok a) :
    (pr = PREC_SP ∨ pr = PREC_DP ∨ pr = PREC_MP) ∧ 0 ≤ R ∧ 0 ≤ C ∧ ((R = 0 ∨ C = 0) ∨ kind c pr ≠ none) ∧
    a = ⟨UNDEFINED, pr, R, C, UNDEFINED, UNDEFINED, UNDEFINED, UNDEFINED, List.replicate R.toNat (List.replicate C.toNat 0)⟩ := by
  unfold Rel.pmalloc at h
  split at h
  · cases h
  · rename_i h1
    split at h
    · cases h
    · rename_i h2
      have h3 : pr = PREC_SP ∨ pr = PREC_DP ∨ pr = PREC_MP := by
        by_cases e1 : pr = PREC_SP
        · exact .inl e1
        · by_cases e2 : pr = PREC_DP
          · exact .inr (.inl e2)
          · by_cases e3 : pr = PREC_MP
            · exact .inr (.inr e3)
            · exact absurd ⟨e1, e2, e3⟩ h1
      refine ⟨h3, by omega, by omega, ?_⟩
      simp only at h
      split at h
      · rename_i h0
        injection h with h
        exact ⟨.inl h0, h.symm⟩
      · split at h
        · rename_i hk
          injection h with h
          exact ⟨.inr (by rw [hk]; simp), h.symm⟩
        · cases h

theorem rect_replicate {R C : Int} (hR : 0 ≤ R) (hC : 0 ≤ C) : Rect (List.replicate R.toNat (List.replicate C.toNat (0 : Int))) R C := by
  refine ⟨by simp; omega, ?_⟩
  intro r hr
  rw [(List.mem_replicate.mp hr).2]
  simp; omega

theorem pmalloc_spec [Allocator] {c : Cfg} {pr R C : Int} {a : Part} (h : Rel.pmalloc c pr R C = .ok a) :
    Triple emp (pmalloc c pr R C) (fun p => partAt c p a 0) := by
  obtain ⟨h1, hR, hC, hk, rfl⟩ := Rel.pmalloc_fields h
  unfold pmalloc
  rw [if_neg (by rintro ⟨a1, a2, a3⟩; rcases h1 with e | e | e <;> contradiction), if_neg (by omega)]
  simp only
  by_cases h0 : R = 0 ∨ C = 0
  · rw [if_pos h0]
    refine (Triple.alloc _).post (fun p h hh => ⟨0, ?_⟩)
    have e : matAt (kind c pr) 0 R C (List.replicate R.toNat (List.replicate C.toNat 0)) = emp := by
      unfold matAt
      rw [if_pos h0, pur_true (rect_replicate hR hC), pur_true rfl, emp_sep]
    simp only [e, sep_emp]
    exact hh
  · rw [if_neg h0]
    have hk := hk.resolve_left h0
    refine Triple.bind (mallocMatrix_spec hk (by omega) (by omega)) (fun m => ?_)
    refine Triple.last (P := emp) (Triple.alloc _) (by rw [emp_sep]) (fun p h hh => ⟨m, hh⟩)

theorem relClonePart_spec [Allocator] {c : Cfg} {a a' : Part} {n : Int} (h : Rel.clonePart c a n = .ok a') (p nx : Ptr) :
    Triple (partAt c p a nx) (relClonePart c p n) (fun q => partAt c p a nx ∗ partAt c q a' 0) := by
  unfold Rel.clonePart at h
  obtain ⟨node, h1, h⟩ := Out.bind_eq_ok.mp h
  obtain ⟨m', h2, h⟩ := Out.bind_eq_ok.mp h
  obtain ⟨_, _, _, _, rfl⟩ := Rel.pmalloc_fields h1
  injection h with h
  subst h
  unfold relClonePart
  refine Triple.exi (fun m => ?_)
  refine Triple.stepEq loadRel_spec rfl ?_
  refine Triple.step (P := emp) (pmalloc_spec h1) (by rw [emp_sep]) (fun q => ?_)
  rw [partAt, ex_sep]
  refine Triple.exi (fun mq => ?_)
  simp only
  refine Triple.stepEq (F := matAt (kind c a.precision) mq n a.nb_columns (List.replicate n.toNat (List.replicate a.nb_columns.toNat 0)) ∗
    p ↦ .rel (hdr a) m nx ∗ matAt (kind c a.precision) m a.nb_rows a.nb_columns a.m) (loadRel_spec (p := q)) (by ac_rfl) ?_
  refine Triple.step (F := matAt (kind c a.precision) mq n a.nb_columns (List.replicate n.toNat (List.replicate a.nb_columns.toNat 0)) ∗
    p ↦ .rel (hdr a) m nx ∗ matAt (kind c a.precision) m a.nb_rows a.nb_columns a.m) (Triple.store q _ _) (by ac_rfl) (fun _ => ?_)
  refine Triple.step (F := (q ↦ .rel _ mq 0) ∗ p ↦ .rel (hdr a) m nx) (hcopy_spec (R := n) (C := a.nb_columns) (R' := a.nb_rows) (C' := a.nb_columns) (ms := m) (md := mq) h2) (by simp only [hdr]; ac_rfl) (fun _ => ?_)
  refine Triple.ret (fun h hh => ?_)
  have hh' : ((p ↦ .rel (hdr a) m nx ∗ matAt (kind c a.precision) m a.nb_rows a.nb_columns a.m) ∗ (q ↦ .rel _ mq 0 ∗ matAt (kind c a.precision) mq n a.nb_columns m')) h := hh.perm (by ac_rfl)
  exact sep_mono (fun h hh => ⟨m, hh⟩) (fun h hh => ⟨mq, hh⟩) hh'

theorem relCopyPart_spec [Allocator] {c : Cfg} (p : Ptr) (a : Part) (nx : Ptr) (a' : Part) (h : Rel.clonePart c a a.nb_rows = .ok a') :
    Triple (partAt c p a nx) (relCopyPart c p) (fun q => partAt c p a nx ∗ partAt c q a' 0) := by
  unfold relCopyPart
  refine Triple.opened_all (fun h0 hh => ?_)
  obtain ⟨m, hh⟩ := hh
  refine ⟨_, hh, ?_⟩
  refine Triple.stepEq loadRel_spec rfl ?_
  exact (relClonePart_spec h p nx).pre (fun h hh => ⟨m, hh⟩)

theorem relNclone_spec [Allocator] {c : Cfg} {r r' : Rel} {n : Int} (h : Rel.nclone c r n = .ok r') (p : Ptr) :
    Triple (relAt c p r) (relNclone c p n) (fun q => relAt c p r ∗ relAt c q r') := by
  unfold Rel.nclone Rel.nb_components at h
  simp only at h
  unfold relNclone relCount
  refine Triple.step (F := emp) (Chain.countAll_spec (N := relChain c) r p) (by rw [sep_emp]; rfl) (fun k => ?_)
  rw [sep_emp]
  refine Triple.fact (fun hk => ?_)
  subst hk
  simp only
  generalize (if n = -1 then (r.length : Int) else n) = np at h ⊢
  split at h
  · cases h
  · rename_i hle
    rw [if_neg hle]
    have := Chain.copyCount_spec (N := relChain c) (f := fun p => Rel.clonePart c p p.nb_rows) (copy := relCopyPart c) relCopyPart_spec
      np.toNat r r' p p 0 0 [] [] (by omega) h
    refine this.pre (fun h hh => ?_)
    refine pur_sep_iff.mpr ⟨rfl, ?_⟩
    rw [Chain.done_nil, sep_comm]
    exact pur_sep_iff.mpr ⟨⟨rfl, rfl⟩, hh⟩

theorem relCloneRows_spec [Allocator] {c : Cfg} {r r' : Rel} {n : Int} (h : Rel.clone_nconstraints c r n = .ok r') (p : Ptr) :
    Triple (relAt c p r) (relCloneRows c p n) (fun q => relAt c p r ∗ relAt c q r') := by
  refine Chain.copyAll_spec (N := relChain c) (copy := relCopyRows c n) (fun p a nx a' ha => ?_) h p
  unfold relCopyRows
  refine Triple.opened_all (fun h0 hh => ?_)
  obtain ⟨m, hh⟩ := hh
  refine ⟨_, hh, ?_⟩
  refine Triple.stepEq loadRel_spec rfl ?_
  simp only at ha ⊢
  have e : (hdr a).nb_rows = a.nb_rows := rfl
  rw [e]
  generalize (if n = -1 then a.nb_rows else n) = k at ha ⊢
  split at ha
  · cases ha
  · rename_i hle
    rw [if_neg hle]
    exact (relClonePart_spec ha p nx).pre (fun h hh => ⟨m, hh⟩)

theorem relAt_null {c : Cfg} {r : Rel} : ∀ h, relAt c 0 r h → r = [] ∧ emp h := fun _ hh => Chain.seg_nil hh rfl

theorem relClone_spec [Allocator] {c : Cfg} {r r' : Rel} (h : Rel.clone c r = .ok r') (p : Ptr) :
    Triple (relAt c p r) (relClone c p) (fun q => relAt c p r ∗ relAt c q r') := by
  unfold relClone
  by_cases hp : p = 0
  · rw [if_pos hp]
    subst hp
    refine Triple.ret (fun h0 hh => ?_)
    obtain ⟨rfl, hh2⟩ := relAt_null h0 hh
    have : r' = [] := by
      unfold Rel.clone at h
      injection h with h
      exact h.symm
    subst this
    have e : relAt c 0 [] = emp := Chain.list_nil
    simp only [e, emp_sep]
    exact hh2
  · rw [if_neg hp]
    refine relNclone_spec ?_ p
    unfold Rel.clone at h
    split at h
    · injection h with h
      subst h
      rfl
    · exact h

/-! ## Links -/

theorem relAdd_spec {c : Cfg} (r1 r2 : Rel) (p1 p2 : Ptr) :
    Triple (relAt c p1 r1 ∗ relAt c p2 r2) (relAdd p1 p2) (fun p => relAt c p (Rel.add r1 r2)) :=
  Chain.append_spec (N := relChain c) r1 r2 p1 p2

end Osl.Mem
