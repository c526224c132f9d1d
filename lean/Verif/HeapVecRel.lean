import Verif.HeapVecOps
/-!
# Vectors and relations in memory (C73)
-/

set_option linter.unusedSectionVars false

namespace Osl.Mem

variable {α β : Type}

theorem get2_vec {l : List Int} {j v : Int} (h : get2 [l] 0 j = .ok v) : 0 ≤ j ∧ l[j.toNat]? = some v := by
  unfold get2 at h
  split at h
  · cases h
  · rename_i hn
    simp only [Int.toNat_zero, List.getElem?_cons_zero] at h
    refine ⟨by omega, ?_⟩
    split at h
    · cases h
    · rename_i x e
      injection h with h
      rw [e, h]

/-- Reading `v[j]` as in the model on values. -/
theorem vec_get {k : Option Kind} {q : Ptr} {l : List Int} {j v : Int} (h : get2 [l] 0 j = .ok v) :
    Triple (arrAt k q l) (getLoc k (q, j)) (fun r => pur (r = v) ∗ arrAt k q l) := by
  obtain ⟨h1, h2⟩ := get2_vec h
  have := arr_get (k := k) (q := q) h2
  rwa [Int.toNat_of_nonneg h1] at this

theorem replaceVector_inv {c : Cfg} {a a' : Part} {x : Vec} {row : Int} (h : Rel.replaceVectorPart c a (some x) row = .ok a') :
    a.precision = x.precision ∧ a.nb_columns = x.size ∧ row < a.nb_rows ∧ 0 ≤ row ∧ ∃ m, a' = { a with m := m } ∧
      Osl.loopN (fun j d => do
        let v ← get2 [x.v] 0 j
        let v ← OInt.assign c a.precision v
        set2 d row j v) x.size 0 a.m = .ok m := by
  simp only [Rel.replaceVectorPart] at h
  split at h
  · cases h
  · rename_i hg
    simp only [Rel.vectorGuard, Bool.or_eq_true, decide_eq_true_eq, not_or, Decidable.not_not, Int.not_lt] at hg
    obtain ⟨m, h1, h⟩ := Out.bind_eq_ok.mp h
    cases h
    refine ⟨hg.1.1.1, hg.1.1.2, by omega, by omega, m, rfl, ?_⟩
    simp only [copyBlock, loop, Int.sub_zero, Int.toNat_natCast, Int.add_zero, Int.zero_add] at h1
    have e : Int.toNat 1 = 0 + 1 := rfl
    rw [e] at h1
    simp only [Osl.loopN, Int.zero_add] at h1
    split at h1
    · rename_i s hs
      cases h1
      exact hs
    · cases h1
    · cases h1

/-- The row of a part is replaced by a vector. -/
theorem relReplaceVector_spec {c : Cfg} {a a' : Part} {x : Vec} {row : Int} (h : Rel.replaceVectorPart c a (some x) row = .ok a') (p v vv m n : Ptr) :
    Triple (openVec c v x vv ∗ openAt c p a m n) (relReplaceVector c p v row) (fun _ => openVec c v x vv ∗ openAt c p a' m n) := by
  obtain ⟨h1, h2, h3, h4, mm, rfl, h5⟩ := replaceVector_inv h
  unfold relReplaceVector openVec openAt
  hfact (fun h => pto_ne h (p := p) (b := .rel (hdr a) m n))
  intro hp
  hfact (fun h => pto_ne h (p := v) (b := .vec x.precision x.size vv))
  intro hv
  rw [if_neg (by simp [hp, hv])]
  hstep loadRel_spec
  hstep loadVec_spec
  dsimp only
  rw [if_neg (by simp only [hdr]; omega)]
  have loop := Triple.loopN (hb := fun i => do
        let y ← getLoc (kind c a.precision) (vv, i)
        let y ← lift (OInt.assign c a.precision y)
        mset (kind c a.precision) m row i y) (A := fun d => arrAt (kind c x.precision) vv x.v ∗ matAt (kind c a.precision) m a.nb_rows a.nb_columns d) ?_ _ _ _ _ h5
  · have e : Mem.forM 0 (x.size : Int) (fun i => do
        let y ← getLoc (kind c a.precision) (vv, i)
        let y ← lift (OInt.assign c a.precision y)
        mset (kind c a.precision) m row i y) = Mem.forN (fun i => do
        let y ← getLoc (kind c a.precision) (vv, i)
        let y ← lift (OInt.assign c a.precision y)
        mset (kind c a.precision) m row i y) x.size 0 := rfl
    have e2 : (hdr a).precision = a.precision := rfl
    rw [e2, e]
    hlast loop
    hret
  · intro i s s' hb
    obtain ⟨y, b1, hb⟩ := Out.bind_eq_ok.mp hb
    obtain ⟨y', b2, b3⟩ := Out.bind_eq_ok.mp hb
    rw [← h1]
    hstep (vec_get (k := kind c a.precision) (q := vv) b1)
    refine Triple.liftStep b2 ?_
    hlast (mat_set (k := kind c a.precision) (m := m) (R := a.nb_rows) (C := a.nb_columns) b3)
    hret

/-- A function on the first part of a relation and a vector. -/
theorem Triple.onFirstVec {c : Cfg} {r r' : Rel} {p v : Ptr} {x : Vec} {m : M Unit} (hn : r ≠ [])
    (hc : ∀ a l mm n vv, r = a :: l → ∃ a', r' = a' :: l ∧ Triple (openVec c v x vv ∗ openAt c p a mm n) m (fun _ => openVec c v x vv ∗ partAt c p a' n)) :
    Triple (relAt c p r ∗ vecAt c v x) m (fun _ => relAt c p r' ∗ vecAt c v x) := by
  cases r with
  | nil => exact absurd rfl hn
  | cons a l =>
    rw [relAt_open, ex_sep]
    refine Triple.exi (fun n => ?_)
    rw [ex_sep]
    refine Triple.exi (fun mm => ?_)
    show Triple (_ ∗ ex (openVec c v x)) m _
    rw [sep_ex]
    refine Triple.exi (fun vv => ?_)
    obtain ⟨a', rfl, ht⟩ := hc a l mm n vv rfl
    refine Triple.last ht (F := relAt c n l) (by ac_rfl) (fun _ h hh => ?_)
    have hh' : ((partAt c p a' n ∗ relAt c n l) ∗ openVec c v x vv) h := hh.perm (by ac_rfl)
    exact sep_mono relAt_close openVec_vec hh'

/-- C73: `osl_relation_replace_vector` writes the row in place and leaves the vector. -/
theorem relation_replace_vector_memory {c : Cfg} {r r' : Rel} {x : Vec} {row : Int} (h : Rel.replace_vector c r (some x) row = .ok r') (p v : Ptr) :
    Triple (relAt c p r ∗ vecAt c v x) (relReplaceVector c p v row) (fun _ => relAt c p r' ∗ vecAt c v x) := by
  refine Triple.onFirstVec (by rintro rfl; cases h) ?_
  rintro a l mm n vv rfl
  simp only [Rel.replace_vector] at h
  obtain ⟨a', h1, h⟩ := Out.bind_eq_ok.mp h
  cases h
  exact ⟨a', rfl, (relReplaceVector_spec h1 p v vv mm n).post (fun _ h hh => sep_mono (fun _ h => h) openAt_part hh)⟩

theorem relCombineFirst_spec {c : Cfg} {a : Part} {x : Vec} {row t : Int} {m1 : Matrix} (hp : a.precision = x.precision)
    (h : (if t = 0 then do
      let v0 ← get2 [x.v] 0 0
      let v0 ← OInt.assign c a.precision v0
      set2 a.m row 0 v0
    else .ok a.m) = .ok m1) (vv m : Ptr) :
    Triple (arrAt (kind c x.precision) vv x.v ∗ matAt (kind c a.precision) m a.nb_rows a.nb_columns a.m) (relCombineVector.relCombineFirst c a.precision m row vv t)
      (fun _ => arrAt (kind c x.precision) vv x.v ∗ matAt (kind c a.precision) m a.nb_rows a.nb_columns m1) := by
  unfold relCombineVector.relCombineFirst
  split at h
  · rename_i ht
    obtain ⟨y, b1, h⟩ := Out.bind_eq_ok.mp h
    obtain ⟨y', b2, b3⟩ := Out.bind_eq_ok.mp h
    rw [if_pos ht, ← hp]
    hstep (vec_get (k := kind c a.precision) (q := vv) b1)
    refine Triple.liftStep b2 ?_
    hlast (mat_set (k := kind c a.precision) (m := m) (R := a.nb_rows) (C := a.nb_columns) b3)
    hret
  · rename_i ht
    cases h
    rw [if_neg ht]
    exact Triple.ret (fun _ h => h)

/-- A vector is combined with the row of a part. -/
theorem relCombine_spec {c : Cfg} {a : Part} {x : Vec} {row : Int} {op : Int → Int → Int → Out Int} {m' : Matrix} (hg : Rel.vectorGuard a x row = false)
    (h : Rel.combineRow c (op a.precision) a x row = .ok m') (p v vv m n : Ptr) :
    Triple (openVec c v x vv ∗ openAt c p a m n) (relCombineVector c op p v row) (fun _ => openVec c v x vv ∗ openAt c p { a with m := m' } m n) := by
  simp only [Rel.vectorGuard, Bool.or_eq_false_iff, decide_eq_false_iff_not, Decidable.not_not, Int.not_lt] at hg
  have h1 : a.precision = x.precision := hg.1.1.1
  have h2 := hg.1.1.2
  unfold Rel.combineRow at h
  obtain ⟨t, t1, h⟩ := Out.bind_eq_ok.mp h
  obtain ⟨i, t2, h⟩ := Out.bind_eq_ok.mp h
  obtain ⟨m1, t3, t4⟩ := Out.bind_eq_ok.mp h
  unfold relCombineVector openVec openAt
  hfact (fun h => pto_ne h (p := p) (b := .rel (hdr a) m n))
  intro hp
  hfact (fun h => pto_ne h (p := v) (b := .vec x.precision x.size vv))
  intro hv
  rw [if_neg (by simp [hp, hv])]
  hstep loadRel_spec
  hstep loadVec_spec
  dsimp only
  rw [if_neg (by simp only [hdr]; omega)]
  have e2 : (hdr a).precision = a.precision := rfl
  rw [e2]
  hstep (mat_get (k := kind c a.precision) (m := m) (R := a.nb_rows) (C := a.nb_columns) t1)
  refine Triple.liftStep t2 ?_
  hstep (relCombineFirst_spec h1 t3 vv m)
  unfold loop at t4
  have loop := Triple.loopN (hb := fun i => do
        let y ← mget (kind c a.precision) m row i
        let b ← getLoc (kind c a.precision) (vv, i)
        let w ← lift (op a.precision y b)
        mset (kind c a.precision) m row i w) (A := fun d => arrAt (kind c x.precision) vv x.v ∗ matAt (kind c a.precision) m a.nb_rows a.nb_columns d) ?_ _ _ _ _ t4
  · show Triple _ (Mem.forM 1 (x.size : Int) (fun i => do
        let y ← mget (kind c a.precision) m row i
        let b ← getLoc (kind c a.precision) (vv, i)
        let w ← lift (op a.precision y b)
        mset (kind c a.precision) m row i w)) _
    unfold Mem.forM
    hlast loop
    hret
  · intro i s s' hb
    obtain ⟨y, b1, hb⟩ := Out.bind_eq_ok.mp hb
    obtain ⟨y', b2, hb⟩ := Out.bind_eq_ok.mp hb
    obtain ⟨w, b3, b4⟩ := Out.bind_eq_ok.mp hb
    rw [← h1]
    hstep (mat_get (k := kind c a.precision) (m := m) (R := a.nb_rows) (C := a.nb_columns) b1)
    hstep (vec_get (k := kind c a.precision) (q := vv) b2)
    refine Triple.liftStep b3 ?_
    hlast (mat_set (k := kind c a.precision) (m := m) (R := a.nb_rows) (C := a.nb_columns) b4)
    hret

/-- C73: `osl_relation_add_vector` writes the row in place and leaves the vector. -/
theorem relation_add_vector_memory {c : Cfg} {r r' : Rel} {x : Vec} {row : Int} (h : Rel.add_vector c r (some x) row = .ok r') (p v : Ptr) :
    Triple (relAt c p r ∗ vecAt c v x) (relAddVector c p v row) (fun _ => relAt c p r' ∗ vecAt c v x) := by
  refine Triple.onFirstVec (by rintro rfl; cases h) ?_
  rintro a l mm n vv rfl
  simp only [Rel.add_vector] at h
  split at h
  · cases h
  · rename_i hg
    obtain ⟨m', h1, h⟩ := Out.bind_eq_ok.mp h
    cases h
    exact ⟨_, rfl, (relCombine_spec (by simpa using hg) h1 p v vv mm n).post (fun _ h hh => sep_mono (fun _ h => h) openAt_part hh)⟩

/-- C73: `osl_relation_sub_vector` writes the row in place and leaves the vector. -/
theorem relation_sub_vector_memory {c : Cfg} {r r' : Rel} {x : Vec} {row : Int} (h : Rel.sub_vector c r (some x) row = .ok r') (p v : Ptr) :
    Triple (relAt c p r ∗ vecAt c v x) (relSubVector c p v row) (fun _ => relAt c p r' ∗ vecAt c v x) := by
  refine Triple.onFirstVec (by rintro rfl; cases h) ?_
  rintro a l mm n vv rfl
  simp only [Rel.sub_vector] at h
  split at h
  · cases h
  · rename_i hg
    obtain ⟨m', h1, h⟩ := Out.bind_eq_ok.mp h
    cases h
    exact ⟨_, rfl, (relCombine_spec (by simpa using hg) h1 p v vv mm n).post (fun _ h hh => sep_mono (fun _ h => h) openAt_part hh)⟩

/-- C73: `osl_relation_from_vector` makes a new relation and leaves the vector (NULL gives NULL). -/
theorem relation_from_vector_memory [Allocator] {c : Cfg} {r : Rel} {x : Option Vec} (h : Rel.from_vector c x = .ok r) (v : Ptr) :
    Triple (optVecAt c v x) (relFromVector c v) (fun p => optVecAt c v x ∗ relAt c p r) := by
  unfold relFromVector
  cases x with
  | none =>
    cases h
    refine Triple.of_fact (φ := v = 0) (fun h hh => hh.1) (fun hv => ?_)
    rw [if_pos hv]
    refine Triple.ret (fun h hh => ?_)
    rw [relAt_nil, sep_emp]
    exact hh
  | some x =>
    refine Triple.of_fact (fun h hh => vecAt_ne h hh) (fun hv => ?_)
    rw [if_neg hv]
    simp only [Rel.from_vector] at h
    obtain ⟨node, h1, h⟩ := Out.bind_eq_ok.mp h
    show Triple (ex (openVec c v x)) _ _
    refine Triple.exi (fun vv => ?_)
    unfold openVec
    hstep loadVec_spec
    dsimp only
    hstep (relation_pmalloc_memory h1)
    hconv (fun h => openVec_vec (c := c) (p := v) (x := x) (v := vv) h)
    hstep (relation_replace_vector_memory h relation v)
    exact Triple.ret (fun h hh => hh.perm (by simp only [optVecAt]; ac_rfl))

/-- C73: `osl_relation_insert_vector` leaves the vector and frees what it made in between. -/
theorem relation_insert_vector_memory [Allocator] {c : Cfg} {r r' : Rel} {x : Option Vec} {row : Int} (h : Rel.insert_vector c r x row = .ok r') (p v : Ptr) :
    Triple (relAt c p r ∗ optVecAt c v x) (relInsertVector c p v row) (fun _ => relAt c p r' ∗ optVecAt c v x) := by
  unfold Rel.insert_vector at h
  obtain ⟨t, h1, h2⟩ := Out.bind_eq_ok.mp h
  unfold relInsertVector
  hstep (relation_from_vector_memory h1 v)
  hstep (relation_insert_constraints_memory h2 p temp)
  hlast (relation_free_memory (c := c) temp t)
  hret

/-- C73: `osl_relation_concat_vector` makes a new relation, leaves both arguments and frees what it made in between. -/
theorem relation_concat_vector_memory [Allocator] {c : Cfg} {r r' : Rel} {x : Option Vec} (h : Rel.concat_vector c r x = .ok r') (p v : Ptr) :
    Triple (relAt c p r ∗ optVecAt c v x) (relConcatVector c p v) (fun q => relAt c p r ∗ optVecAt c v x ∗ relAt c q r') := by
  unfold Rel.concat_vector at h
  obtain ⟨t, h1, h2⟩ := Out.bind_eq_ok.mp h
  unfold relConcatVector
  hstep (relation_from_vector_memory h1 v)
  hstep (relation_concat_constraints_memory h2 p temp)
  hstep (relation_free_memory (c := c) temp t)
  hret

/-- C73: `osl_relation_insert_blank_row` frees the vector it made. -/
theorem relation_insert_blank_row_memory [Allocator] {c : Cfg} {r r' : Rel} {row : Int} (h : Rel.insert_blank_row c r row = .ok r') (p : Ptr) :
    Triple (relAt c p r) (relInsertBlankRow c p row) (fun _ => relAt c p r') := by
  unfold relInsertBlankRow
  cases r with
  | nil =>
    refine Triple.of_fact (φ := p = 0) (fun h hh => hh.1) (fun hp => ?_)
    rw [if_pos hp]
    cases h
    exact Triple.ret (fun _ h => h)
  | cons a l =>
    simp only [Rel.insert_blank_row] at h
    obtain ⟨x, h1, h2⟩ := Out.bind_eq_ok.mp h
    rw [relAt_open]
    refine Triple.exi (fun n => ?_)
    refine Triple.exi (fun mm => ?_)
    unfold openAt
    hfact (fun h => pto_ne h (p := p) (b := .rel (hdr a) mm n))
    intro hp
    rw [if_neg hp]
    hstep loadRel_spec
    dsimp only
    have e1 : (hdr a).precision = a.precision := rfl
    have e2 : (hdr a).nb_columns = a.nb_columns := rfl
    rw [e1, e2]
    hstep (vector_pmalloc_memory h1)
    have cl : ∀ h, (p ↦ .rel (hdr a) mm n ∗ matAt (kind c a.precision) mm a.nb_rows a.nb_columns a.m ∗ relAt c n l) h → relAt c p (a :: l) h := by
      intro h hh
      have h2 : (openAt c p a mm n ∗ relAt c n l) h := by
        unfold openAt
        exact hh.perm (by ac_rfl)
      exact relAt_close _ (sep_mono openAt_part (fun _ h => h) h2)
    hconv cl
    hstep (relation_insert_vector_memory h2 p vector)
    hlast (vector_free_memory (c := c) vector x)
    hret

/-- C73: `osl_relation_swap_constraints` works in place. -/
theorem relation_swap_constraints_memory {c : Cfg} {r r' : Rel} {c1 c2 : Int} (h : Rel.swap_constraints c r c1 c2 = .ok r') (p : Ptr) :
    Triple (relAt c p r) (relSwap c p c1 c2) (fun _ => relAt c p r') := by
  unfold relSwap
  by_cases hc : c1 = c2
  · have : r' = r := by
      cases r with
      | nil => cases h; rfl
      | cons a l =>
        simp only [Rel.swap_constraints, if_pos hc] at h
        cases h; rfl
    subst this
    rw [if_pos (Or.inr hc)]
    exact Triple.ret (fun _ h => h)
  refine Triple.onFirst ?_ ?_
  · rintro rfl hp
    cases h
    exact ⟨rfl, if_pos (Or.inl hp)⟩
  rintro a l mm n rfl
  simp only [Rel.swap_constraints, if_neg hc] at h
  split at h
  · cases h
  · rename_i hg
    obtain ⟨m', h1, h⟩ := Out.bind_eq_ok.mp h
    cases h
    refine ⟨_, rfl, Triple.post ?_ (fun _ h hh => openAt_part (m := mm) _ hh)⟩
    unfold openAt
    hfact (fun h => pto_ne h (p := p) (b := .rel (hdr a) mm n))
    intro hp
    rw [if_neg (by simp [hp, hc])]
    hstep loadRel_spec
    dsimp only
    rw [if_neg (by simpa only [hdr] using hg)]
    unfold loop at h1
    have loop := Triple.loopN (hb := fun i => do
          let x ← mget (kind c a.precision) mm c1 i
          let y ← mget (kind c a.precision) mm c2 i
          let ab ← lift (OInt.swap c a.precision x y)
          mset (kind c a.precision) mm c1 i ab.1
          mset (kind c a.precision) mm c2 i ab.2) (A := fun d => matAt (kind c a.precision) mm a.nb_rows a.nb_columns d) ?_ _ _ _ _ h1
    · show Triple _ (Mem.forM 0 a.nb_columns (fun i => do
          let x ← mget (kind c a.precision) mm c1 i
          let y ← mget (kind c a.precision) mm c2 i
          let ab ← lift (OInt.swap c a.precision x y)
          mset (kind c a.precision) mm c1 i ab.1
          mset (kind c a.precision) mm c2 i ab.2)) _
      unfold Mem.forM
      hlast loop
      hret
    · intro i s s' hb
      obtain ⟨x, b1, hb⟩ := Out.bind_eq_ok.mp hb
      obtain ⟨y, b2, hb⟩ := Out.bind_eq_ok.mp hb
      obtain ⟨ab, b3, hb⟩ := Out.bind_eq_ok.mp hb
      obtain ⟨s1, b4, b5⟩ := Out.bind_eq_ok.mp hb
      hstep (mat_get (k := kind c a.precision) (m := mm) (R := a.nb_rows) (C := a.nb_columns) b1)
      hstep (mat_get (k := kind c a.precision) (m := mm) (R := a.nb_rows) (C := a.nb_columns) b2)
      refine Triple.liftStep b3 ?_
      hstep (mat_set (k := kind c a.precision) (m := mm) (R := a.nb_rows) (C := a.nb_columns) b4)
      hlast (mat_set (k := kind c a.precision) (m := mm) (R := a.nb_rows) (C := a.nb_columns) b5)
      hret

end Osl.Mem
