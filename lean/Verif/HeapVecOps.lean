import Verif.HeapVecProps
/-!
# Vectors in memory: arithmetic, comparisons, and vectors used by relations (C73)
-/

set_option linter.unusedSectionVars false

namespace Osl.Mem

variable {α β : Type}

/-! ## Loops on values -/

theorem zipOut_at {f : Int → Int → Out Int} : ∀ {l l' r : List Int}, zipOut f l l' = .ok r →
    l.length = r.length ∧ l'.length = r.length ∧ ∀ i (hi : i < r.length), ∃ a b, l[i]? = some a ∧ l'[i]? = some b ∧ f a b = .ok r[i]
  | [], [], r, h => by
    cases h
    exact ⟨rfl, rfl, fun i hi => absurd hi (by simp)⟩
  | a :: as, b :: bs, r, h => by
    simp only [zipOut] at h
    cases hf : f a b with
    | ok x =>
      rw [hf] at h
      dsimp only at h
      cases hz : zipOut f as bs with
      | ok xs =>
        rw [hz] at h
        dsimp only at h
        cases h
        obtain ⟨h1, h2, h3⟩ := zipOut_at hz
        refine ⟨by simp [h1], by simp [h2], ?_⟩
        intro i hi
        cases i with
        | zero => exact ⟨a, b, rfl, rfl, hf⟩
        | succ i =>
          obtain ⟨p, q, e1, e2, e3⟩ := h3 i (by simpa using hi)
          exact ⟨p, q, by simpa using e1, by simpa using e2, by simpa using e3⟩
      | err => rw [hz] at h; cases h
      | ub => rw [hz] at h; cases h
    | err => rw [hf] at h; cases h
    | ub => rw [hf] at h; cases h
  | [], _ :: _, r, h => by cases h
  | _ :: _, [], r, h => by cases h

theorem mapOut_at {f : Int → Out Int} : ∀ {l r : List Int}, Out.mapOut f l = .ok r →
    l.length = r.length ∧ ∀ i (hi : i < r.length), ∃ a, l[i]? = some a ∧ f a = .ok r[i]
  | [], r, h => by
    cases h
    exact ⟨rfl, fun i hi => absurd hi (by simp)⟩
  | a :: as, r, h => by
    obtain ⟨x, xs, h1, h2, rfl⟩ := Out.mapOut_cons_eq_ok.mp h
    obtain ⟨e1, e2⟩ := mapOut_at h2
    refine ⟨by simp [e1], ?_⟩
    intro i hi
    cases i with
    | zero => exact ⟨a, rfl, h1⟩
    | succ i =>
      obtain ⟨p, e3, e4⟩ := e2 i (by simpa using hi)
      exact ⟨p, by simpa using e3, by simpa using e4⟩

/-! ## Reading an array in a larger memory -/

/-- In the memory `P`, the array at `v` has the values `l`, and reading it changes nothing. -/
def Reads (P : Assn) (k : Option Kind) (v : Ptr) (l : List Int) : Prop :=
  ∀ (i : Nat) (a : Int), l[i]? = some a → Triple P (getLoc k (v, (i : Int))) (fun r => pur (r = a) ∗ P)

theorem Reads.of {P F : Assn} {k : Option Kind} {v : Ptr} {l : List Int} (e : P = (arrAt k v l ∗ F)) : Reads P k v l := by
  intro i a ha
  refine Triple.last (arr_get ha) (F := F) e (fun r h hh => ?_)
  rw [sep_assoc] at hh
  rw [e]
  exact hh

/-- A loop which sets all the elements of an array. -/
theorem fill_spec {k : Option Kind} {v : Ptr} {P : Assn} {l w : List Int} {body : Int → M Unit} (hw : w.length = l.length)
    (hb : ∀ (i : Nat) (hi : i < l.length) (u : List Int), u.length = l.length → Triple (P ∗ arrAt k v u) (body i) (fun _ => P ∗ arrAt k v (u.set i l[i]))) :
    Triple (P ∗ arrAt k v w) (Mem.forM 0 l.length body) (fun _ => P ∗ arrAt k v l) := by
  have := Triple.forM (Inv := fun i => P ∗ arrAt k v (l.take i.toNat ++ w.drop i.toNat)) (body := body) (lo := 0) (hi := (l.length : Int)) (by omega) (fun i hi hi' => ?_)
  · refine this.conseq (fun h hh => ?_) (fun _ h hh => ?_)
    · simpa using hh
    · have e : w.drop l.length = [] := by rw [← hw]; simp
      simpa [e] using hh
  · obtain ⟨n, rfl⟩ : ∃ n : Nat, i = n := ⟨i.toNat, by omega⟩
    have hn : n < l.length := by omega
    have h1 := hb n hn (l.take n ++ w.drop n) (by simp; omega)
    have e : (l.take n ++ w.drop n).set n l[n] = l.take (n + 1) ++ w.drop (n + 1) := by
      rw [List.set_append_right _ _ (by simp; omega)]
      have : n - (l.take n).length = 0 := by simp; omega
      rw [this, List.drop_eq_getElem_cons (by omega), List.set_cons_zero, List.take_add_one, List.getElem?_eq_getElem hn]
      simp only [Option.toList, List.append_assoc, List.singleton_append]
    rw [e] at h1
    exact h1

theorem assign_inv {c : Cfg} {p a b : Int} (h : OInt.assign c p a = .ok b) : b = a := by
  unfold OInt.assign at h
  split at h
  · injection h with e; exact e.symm
  · cases h

/-! ## Arithmetic -/

/-- The loop of `osl_vector_add` and `osl_vector_sub`. -/
theorem zip_spec {c : Cfg} {pr : Int} {P : Assn} {vx vy v : Ptr} {xs ys w l : List Int} {f : Int → Int → Out Int} (hx : Reads P (kind c pr) vx xs) (hy : Reads P (kind c pr) vy ys)
    (h : zipOut f xs ys = .ok l) (hw : w.length = l.length) :
    Triple (P ∗ arrAt (kind c pr) v w) (Mem.forM 0 l.length (fun i => do
        let a ← getLoc (kind c pr) (vx, i)
        let b ← getLoc (kind c pr) (vy, i)
        let w ← lift (f a b)
        setLoc (kind c pr) (v, i) w)) (fun _ => P ∗ arrAt (kind c pr) v l) := by
  obtain ⟨h1, h2, h3⟩ := zipOut_at h
  refine fill_spec hw (fun i hi u hu => ?_)
  obtain ⟨a, b, e1, e2, e3⟩ := h3 i hi
  hstep (hx i a e1)
  hstep (hy i b e2)
  refine Triple.liftStep e3 ?_
  hlast (arr_set (k := kind c pr) (q := v) (l := u) (i := i) l[i] (by omega))
  hret

/-- The loop of `osl_vector_mul_scalar` and of the copy in `osl_vector_add_scalar`. -/
theorem map_spec {c : Cfg} {pr : Int} {P : Assn} {vx v : Ptr} {xs w l : List Int} {f : Int → Out Int} (hx : Reads P (kind c pr) vx xs)
    (h : Out.mapOut f xs = .ok l) (hw : w.length = l.length) :
    Triple (P ∗ arrAt (kind c pr) v w) (Mem.forM 0 l.length (fun i => do
        let a ← getLoc (kind c pr) (vx, i)
        let a ← lift (f a)
        setLoc (kind c pr) (v, i) a)) (fun _ => P ∗ arrAt (kind c pr) v l) := by
  obtain ⟨h1, h3⟩ := mapOut_at h
  refine fill_spec hw (fun i hi u hu => ?_)
  obtain ⟨a, e1, e3⟩ := h3 i hi
  hstep (hx i a e1)
  refine Triple.liftStep e3 ?_
  hlast (arr_set (k := kind c pr) (q := v) (l := u) (i := i) l[i] (by omega))
  hret

/-- The memory of a vector whose array is known. -/
def openVec (c : Cfg) (p : Ptr) (x : Vec) (v : Ptr) : Assn := p ↦ .vec x.precision x.size v ∗ arrAt (kind c x.precision) v x.v

theorem openVec_vec {c : Cfg} {p : Ptr} {x : Vec} {v : Ptr} : ∀ h, openVec c p x v h → vecAt c p x h := fun _ hh => ⟨v, hh⟩

/-- The part of `osl_vector_add` and `osl_vector_sub` after the tests. -/
theorem zipTail_spec [Allocator] {c : Cfg} {P : Assn} {vx vy : Ptr} {x y z t : Vec} {op : Int → Int → Int → Out Int} (hx : Reads P (kind c x.precision) vx x.v)
    (hy : Reads P (kind c x.precision) vy y.v) (ht : Vec.pmalloc c x.precision x.size = .ok t) {l : List Int} (hl : zipOut (op x.precision) x.v y.v = .ok l) (hz : z = ⟨x.precision, l⟩) :
    Triple P (do
      let v3 ← vecPmalloc c x.precision x.size
      let r ← loadVec v3
      forM 0 x.size (fun i => do
        let a ← getLoc (kind c x.precision) (vx, i)
        let b ← getLoc (kind c x.precision) (vy, i)
        let w ← lift (op x.precision a b)
        setLoc (kind c x.precision) (r.2.2, i) w)
      pure v3) (fun p => P ∗ vecAt c p z) := by
  subst hz
  have hlen := zipOut_at hl
  obtain ⟨_, e, _⟩ := Vec.pmalloc_inv ht
  subst e
  hstep (vector_pmalloc_memory ht)
  rename_i v3
  hopen vecAt
  hstep loadVec_spec
  have := zip_spec (v := v) (w := List.replicate (x.size : Int).toNat 0) hx hy hl (by simp [hlen.1, Vec.size])
  rw [← hlen.1] at this
  hstep this
  refine Triple.ret (fun h hh => ?_)
  refine sep_mono (P := P) (P' := P) (fun _ h => h) (fun h hh => ?_) (Q := v3 ↦ .vec x.precision ((List.replicate (x.size : Int).toNat (0 : Int)).length : Nat) v ∗ arrAt (kind c x.precision) v l) (hh.perm (by ac_rfl))
  refine ⟨v, ?_⟩
  simp only [List.length_replicate, Int.toNat_natCast] at hh
  show (v3 ↦ .vec x.precision (l.length : Nat) v ∗ _) h
  rw [← hlen.1]
  exact hh

/-- The tests and the body of `osl_vector_add` and `osl_vector_sub` in any memory `P` which has the two vectors. -/
theorem vecZip_core [Allocator] {c : Cfg} {op : Int → Int → Int → Out Int} {x y t z : Vec} {l : List Int} {P F1 F2 : Assn} {p1 p2 vx vy : Ptr}
    (e1 : P = (openVec c p1 x vx ∗ F1)) (e2 : P = (openVec c p2 y vy ∗ F2)) (hs : x.size = y.size) (hp : x.precision = y.precision)
    (ht : Vec.pmalloc c x.precision x.size = .ok t) (hl : zipOut (op x.precision) x.v y.v = .ok l) (hz : z = ⟨x.precision, l⟩) :
    Triple P (vecZip c op p1 p2) (fun p => P ∗ vecAt c p z) := by
  unfold vecZip
  refine Triple.of_fact (φ := p1 ≠ 0) ?_ (fun h1 => ?_)
  · intro h hh
    rw [e1, openVec, sep_assoc] at hh
    exact pto_ne_sep h hh
  refine Triple.of_fact (φ := p2 ≠ 0) ?_ (fun h2 => ?_)
  · intro h hh
    rw [e2, openVec, sep_assoc] at hh
    exact pto_ne_sep h hh
  rw [if_neg (by simp [h1, h2])]
  refine Triple.stepEq (loadVec_spec (p := p1)) (F := arrAt (kind c x.precision) vx x.v ∗ F1) (by rw [e1, openVec, sep_assoc]) ?_
  refine Triple.stepEq (loadVec_spec (p := p2)) (F := arrAt (kind c y.precision) vy y.v ∗ F2) (by rw [e2, openVec, sep_assoc]) ?_
  rw [if_neg (by simp [hs, hp])]
  refine zipTail_spec (Reads.of (F := p1 ↦ .vec x.precision x.size vx ∗ F1) ?_) (Reads.of (F := p2 ↦ .vec y.precision y.size vy ∗ F2) ?_) ht hl hz
  · rw [e1, openVec]; ac_rfl
  · rw [e2, openVec, hp]; ac_rfl

theorem add_inv {c : Cfg} {x y z : Vec} (h : Vec.add c (some x) (some y) = .ok z) :
    x.size = y.size ∧ x.precision = y.precision ∧ (∃ t, Vec.pmalloc c x.precision x.size = .ok t) ∧ ∃ l, zipOut (OInt.add c x.precision) x.v y.v = .ok l ∧ z = ⟨x.precision, l⟩ := by
  simp only [Vec.add] at h
  split at h
  · cases h
  · rename_i hn
    obtain ⟨t, h1, h⟩ := Out.bind_eq_ok.mp h
    obtain ⟨l, h2, h⟩ := Out.bind_eq_ok.mp h
    cases h
    exact ⟨by omega, by omega, ⟨t, h1⟩, l, h2, rfl⟩

theorem sub_inv {c : Cfg} {x y z : Vec} (h : Vec.sub c (some x) (some y) = .ok z) :
    x.size = y.size ∧ x.precision = y.precision ∧ (∃ t, Vec.pmalloc c x.precision x.size = .ok t) ∧ ∃ l, zipOut (OInt.sub c x.precision) x.v y.v = .ok l ∧ z = ⟨x.precision, l⟩ := by
  simp only [Vec.sub] at h
  split at h
  · cases h
  · rename_i hn
    obtain ⟨t, h1, h⟩ := Out.bind_eq_ok.mp h
    obtain ⟨l, h2, h⟩ := Out.bind_eq_ok.mp h
    cases h
    exact ⟨by omega, by omega, ⟨t, h1⟩, l, h2, rfl⟩

theorem vecAt_two {c : Cfg} {p1 p2 : Ptr} {x y : Vec} {m : M α} {Q : α → Assn}
    (h : ∀ v1 v2, Triple (openVec c p1 x v1 ∗ openVec c p2 y v2) m (fun r => (openVec c p1 x v1 ∗ openVec c p2 y v2) ∗ Q r)) :
    Triple (vecAt c p1 x ∗ vecAt c p2 y) m (fun r => vecAt c p1 x ∗ vecAt c p2 y ∗ Q r) := by
  show Triple (ex (openVec c p1 x) ∗ ex (openVec c p2 y)) m _
  rw [ex_sep]
  refine Triple.exi (fun v1 => ?_)
  rw [sep_ex]
  refine Triple.exi (fun v2 => ?_)
  refine (h v1 v2).post (fun r h hh => ?_)
  rw [sep_assoc] at hh
  exact sep_mono openVec_vec (fun _ hh => sep_mono openVec_vec (fun _ h => h) hh) hh

theorem vecAt_one {c : Cfg} {p1 : Ptr} {x : Vec} {m : M α} {Q : α → Assn} (h : ∀ v1, Triple (openVec c p1 x v1) m (fun r => openVec c p1 x v1 ∗ Q r)) :
    Triple (vecAt c p1 x) m (fun r => vecAt c p1 x ∗ Q r) := by
  show Triple (ex (openVec c p1 x)) m _
  refine Triple.exi (fun v1 => ?_)
  refine (h v1).post (fun r h hh => sep_mono openVec_vec (fun _ h => h) hh)

/-- C73: `osl_vector_add` of two vectors makes a new vector, their sum, and leaves them. -/
theorem vector_add_memory [Allocator] {c : Cfg} {x y z : Vec} (h : Vec.add c (some x) (some y) = .ok z) (p1 p2 : Ptr) :
    Triple (vecAt c p1 x ∗ vecAt c p2 y) (vecAdd c p1 p2) (fun p => vecAt c p1 x ∗ vecAt c p2 y ∗ vecAt c p z) := by
  obtain ⟨h1, h2, ⟨t, h3⟩, l, h4, h5⟩ := add_inv h
  exact vecAt_two (fun v1 v2 => vecZip_core rfl (sep_comm _ _) h1 h2 h3 h4 h5)

/-- C73: also when the two arguments are the same vector. -/
theorem vector_add_same_memory [Allocator] {c : Cfg} {x z : Vec} (h : Vec.add c (some x) (some x) = .ok z) (p1 : Ptr) :
    Triple (vecAt c p1 x) (vecAdd c p1 p1) (fun p => vecAt c p1 x ∗ vecAt c p z) := by
  obtain ⟨h1, h2, ⟨t, h3⟩, l, h4, h5⟩ := add_inv h
  exact vecAt_one (fun v1 => vecZip_core (sep_emp _).symm (sep_emp _).symm h1 h2 h3 h4 h5)

/-- C73: `osl_vector_sub` of two vectors makes a new vector, their difference, and leaves them. -/
theorem vector_sub_memory [Allocator] {c : Cfg} {x y z : Vec} (h : Vec.sub c (some x) (some y) = .ok z) (p1 p2 : Ptr) :
    Triple (vecAt c p1 x ∗ vecAt c p2 y) (vecSub c p1 p2) (fun p => vecAt c p1 x ∗ vecAt c p2 y ∗ vecAt c p z) := by
  obtain ⟨h1, h2, ⟨t, h3⟩, l, h4, h5⟩ := sub_inv h
  exact vecAt_two (fun v1 v2 => vecZip_core rfl (sep_comm _ _) h1 h2 h3 h4 h5)

/-- C73: also when the two arguments are the same vector. -/
theorem vector_sub_same_memory [Allocator] {c : Cfg} {x z : Vec} (h : Vec.sub c (some x) (some x) = .ok z) (p1 : Ptr) :
    Triple (vecAt c p1 x) (vecSub c p1 p1) (fun p => vecAt c p1 x ∗ vecAt c p z) := by
  obtain ⟨h1, h2, ⟨t, h3⟩, l, h4, h5⟩ := sub_inv h
  exact vecAt_one (fun v1 => vecZip_core (sep_emp _).symm (sep_emp _).symm h1 h2 h3 h4 h5)

/-- C73: `osl_vector_mul_scalar` makes a new vector and leaves its argument. -/
theorem vector_mul_scalar_memory [Allocator] {c : Cfg} {x z : Vec} {scalar : Int} (h : Vec.mul_scalar c (some x) scalar = .ok z) (p1 : Ptr) :
    Triple (vecAt c p1 x) (vecMulScalar c p1 scalar) (fun p => vecAt c p1 x ∗ vecAt c p z) := by
  simp only [Vec.mul_scalar] at h
  obtain ⟨t, ht, h⟩ := Out.bind_eq_ok.mp h
  obtain ⟨l, hl, h⟩ := Out.bind_eq_ok.mp h
  cases h
  have hlen := mapOut_at hl
  obtain ⟨_, e, _⟩ := Vec.pmalloc_inv ht
  subst e
  unfold vecMulScalar
  refine vecAt_one (fun vx => ?_)
  unfold openVec
  hstep loadVec_spec
  dsimp only
  hstep (vector_pmalloc_memory ht)
  hopen vecAt
  hstep loadVec_spec
  have := map_spec (P := arrAt (kind c x.precision) vx x.v) (v := v) (w := List.replicate (x.size : Int).toNat 0) (Reads.of (F := emp) (sep_emp _).symm) hl (by simp [hlen.1, Vec.size])
  rw [← hlen.1] at this
  dsimp only
  hstep this
  unfold vecAt
  simp only [Vec.size, List.length_replicate, Int.toNat_natCast, hlen.1]
  hret

/-- C73: `osl_vector_add_scalar` makes a new vector and leaves its argument. -/
theorem vector_add_scalar_memory [Allocator] {c : Cfg} {x z : Vec} {scalar : Int} (h : Vec.add_scalar c (some x) scalar = .ok z) (p1 : Ptr) :
    Triple (vecAt c p1 x) (vecAddScalar c p1 scalar) (fun p => vecAt c p1 x ∗ vecAt c p z) := by
  simp only [Vec.add_scalar] at h
  split at h
  · cases h
  rename_i h2
  obtain ⟨t, ht, h⟩ := Out.bind_eq_ok.mp h
  obtain ⟨l, hl, h⟩ := Out.bind_eq_ok.mp h
  obtain ⟨last, hs, h⟩ := Out.bind_eq_ok.mp h
  cases h
  have hlen := mapOut_at hl
  obtain ⟨_, e, _⟩ := Vec.pmalloc_inv ht
  subst e
  unfold vecAddScalar
  refine Triple.of_fact (fun h hh => vecAt_ne h hh) (fun hp => ?_)
  rw [if_neg hp]
  refine vecAt_one (fun vx => ?_)
  unfold openVec
  hstep loadVec_spec
  dsimp only
  rw [if_neg (by omega)]
  hstep (vector_pmalloc_memory ht)
  hopen vecAt
  hstep loadVec_spec
  have := map_spec (P := arrAt (kind c x.precision) vx x.v) (v := v) (w := List.replicate (x.size : Int).toNat 0) (Reads.of (F := emp) (sep_emp _).symm) hl (by simp [hlen.1, Vec.size])
  rw [← hlen.1] at this
  dsimp only
  hstep this
  have e : ((x.size : Nat) : Int) - 1 = ((x.size - 1 : Nat) : Int) := by omega
  rw [e]
  have hg : x.v[x.size - 1]? = some (x.v.getLastD 0) := by
    rw [List.getLastD_eq_getLast?, List.getLast?_eq_getElem?, List.getElem?_eq_getElem (by show x.v.length - 1 < x.v.length; simp only [Vec.size] at h2; omega)]
    rfl
  hstep (arr_get (k := kind c x.precision) (q := vx) hg)
  refine Triple.liftStep hs ?_
  hstep (arr_set (k := kind c x.precision) (q := v) (l := l) (i := x.size - 1) last (by rw [← hlen.1]; simp only [Vec.size] at h2 ⊢; omega))
  have e2 : l.set (x.size - 1) last = l.dropLast ++ [last] := by
    have hl1 := hlen.1
    simp only [Vec.size] at h2 ⊢
    rw [List.set_eq_take_append_cons_drop, if_pos (by omega), List.dropLast_eq_take, hl1, show l.length - 1 + 1 = l.length by omega, List.drop_length]
  rw [e2]
  have e3 : (l.dropLast ++ [last]).length = l.length := by
    have hl1 := hlen.1
    simp only [Vec.size] at h2
    simp only [List.length_append, List.length_dropLast, List.length_singleton]; omega
  unfold vecAt
  simp only [Vec.size, List.length_replicate, Int.toNat_natCast, hlen.1, e3]
  hret

/-! ## Marks and comparisons -/

theorem vecTag_spec {c : Cfg} {x : Vec} {a : Int} {l : List Int} {i w : Int} (hx : x.v = a :: l) (h : OInt.set_si c x.precision i = .ok w) (p1 : Ptr) :
    Triple (vecAt c p1 x) (vecTag c p1 i) (fun _ => vecAt c p1 ⟨x.precision, w :: l⟩) := by
  unfold vecTag
  refine Triple.of_fact (fun h hh => vecAt_ne h hh) (fun hp => ?_)
  rw [if_neg hp]
  hopen vecAt
  hstep loadVec_spec
  dsimp only
  rw [if_neg (by simp [Vec.size, hx]; omega)]
  refine Triple.liftStep h ?_
  have := arr_set (k := kind c x.precision) (q := v) (l := x.v) (i := 0) w (by simp [hx])
  hlast this
  unfold vecAt
  simp only [Vec.size, hx, List.set_cons_zero, List.length_cons]
  hret

/-- C73: `osl_vector_tag_inequality` writes in the vector. -/
theorem vector_tag_inequality_memory {c : Cfg} {x z : Vec} (h : Vec.tag_inequality c (some x) = .ok z) (p1 : Ptr) :
    Triple (vecAt c p1 x) (vecTagInequality c p1) (fun _ => vecAt c p1 z) := by
  simp only [Vec.tag_inequality] at h
  split at h
  · cases h
  · rename_i a l hx
    obtain ⟨w, h1, h⟩ := Out.bind_eq_ok.mp h
    cases h
    exact vecTag_spec hx h1 p1

/-- C73: `osl_vector_tag_equality` writes in the vector. -/
theorem vector_tag_equality_memory {c : Cfg} {x z : Vec} (h : Vec.tag_equality c (some x) = .ok z) (p1 : Ptr) :
    Triple (vecAt c p1 x) (vecTagEquality c p1) (fun _ => vecAt c p1 z) := by
  simp only [Vec.tag_equality] at h
  split at h
  · cases h
  · rename_i a l hx
    obtain ⟨w, h1, h⟩ := Out.bind_eq_ok.mp h
    cases h
    exact vecTag_spec hx h1 p1

theorem vecEqualLoop_spec {c : Cfg} {pr : Int} {P : Assn} {vx vy : Ptr} {xs ys : List Int} (hx : Reads P (kind c pr) vx xs) (hy : Reads P (kind c pr) vy ys) {b : Bool} :
    ∀ (n i : Nat), i + n = xs.length → i + n = ys.length → Vec.equalLoop c pr (xs.drop i) (ys.drop i) = .ok b →
    Triple P (vecEqualLoop c pr vx vy n i) (fun r => pur (r = b) ∗ P)
  | 0, i, h1, h2, h => by
    rw [List.drop_of_length_le (by omega)] at h
    cases h
    exact Triple.ret (fun h hh => pur_sep_iff.mpr ⟨rfl, hh⟩)
  | n + 1, i, h1, h2, h => by
    rw [List.drop_eq_getElem_cons (by omega), List.drop_eq_getElem_cons (l := ys) (by omega)] at h
    simp only [Vec.equalLoop] at h
    unfold vecEqualLoop
    refine Triple.step (hx i _ (List.getElem?_eq_getElem (by omega))) (F := emp) (by rw [sep_emp]) (fun a => ?_)
    rw [sep_emp]
    refine Triple.fact (fun e => ?_)
    subst e
    refine Triple.step (hy i _ (List.getElem?_eq_getElem (by omega))) (F := emp) (by rw [sep_emp]) (fun a => ?_)
    rw [sep_emp]
    refine Triple.fact (fun e => ?_)
    subst e
    cases hne : OInt.ne c pr xs[i] ys[i] with
    | ok d =>
      rw [hne] at h
      refine Triple.liftStep rfl ?_
      cases d with
      | true =>
        cases h
        exact Triple.ret (fun h hh => pur_sep_iff.mpr ⟨rfl, hh⟩)
      | false => exact vecEqualLoop_spec hx hy n (i + 1) (by omega) (by omega) h
    | err => rw [hne] at h; cases h
    | ub => rw [hne] at h; cases h

/-- C73: `osl_vector_equal` only reads, and says whether the two vectors are equal. -/
theorem vector_equal_memory {c : Cfg} {x y : Vec} {b : Bool} (h : Vec.equal c (some x) (some y) = .ok b) (p1 p2 : Ptr) :
    Triple (vecAt c p1 x ∗ vecAt c p2 y) (vecEqual c p1 p2) (fun r => vecAt c p1 x ∗ vecAt c p2 y ∗ pur (r = b)) := by
  refine vecAt_two (fun v1 v2 => ?_)
  unfold vecEqual openVec
  simp only [Vec.equal] at h
  refine Triple.of_fact (φ := p1 ≠ p2) ?_ (fun hne => ?_)
  · rintro h0 ⟨a1, a2, hd, _, h1, h2⟩ rfl
    have o1 := own_pto h1
    have o2 := own_pto h2
    rcases hd p1 with hd | hd
    · exact o1 hd
    · exact o2 hd
  rw [if_neg hne]
  hstep (loadVec_spec (p := p1))
  hstep (loadVec_spec (p := p2))
  dsimp only
  by_cases hc : x.size ≠ y.size ∨ x.precision ≠ y.precision
  · rw [if_pos hc] at h
    cases h
    rw [if_pos (by omega)]
    hret
  · rw [if_neg hc] at h
    rw [if_neg (by omega)]
    have hp : x.precision = y.precision := by omega
    have hs : x.size = y.size := by omega
    have := vecEqualLoop_spec (c := c) (pr := x.precision) (P := arrAt (kind c x.precision) v1 x.v ∗ arrAt (kind c y.precision) v2 y.v)
      (Reads.of (k := kind c x.precision) (v := v1) (l := x.v) rfl) (Reads.of (k := kind c x.precision) (v := v2) (l := y.v) (by rw [hp]; exact sep_comm _ _)) x.size 0
      (by simp [Vec.size]) (by simp only [Vec.size] at hs ⊢; omega) h
    hlast this
    hret

/-- C73: a vector is equal to itself, without being read. -/
theorem vector_equal_same_memory {c : Cfg} {x : Vec} (p1 : Ptr) : Triple (vecAt c p1 x) (vecEqual c p1 p1) (fun r => vecAt c p1 x ∗ pur (r = true)) := by
  unfold vecEqual
  rw [if_pos rfl]
  hret

theorem vecScalarLoop_spec {c : Cfg} {pr : Int} {P : Assn} {vx : Ptr} {xs ys : List Int} (hx : Reads P (kind c pr) vx xs) {b : Bool}
    (hp : ∀ i, i < ys.length → ys[i]? = xs[i]?) :
    ∀ (n i : Nat), i + n = ys.length → Vec.isScalarLoop c pr (ys.drop i) = .ok b →
    Triple P (vecScalarLoop c pr vx n i) (fun r => pur (r = b) ∗ P)
  | 0, i, h1, h => by
    rw [List.drop_of_length_le (by omega)] at h
    cases h
    exact Triple.ret (fun h hh => pur_sep_iff.mpr ⟨rfl, hh⟩)
  | n + 1, i, h1, h => by
    rw [List.drop_eq_getElem_cons (by omega)] at h
    simp only [Vec.isScalarLoop] at h
    unfold vecScalarLoop
    refine Triple.step (hx i _ (by rw [← hp i (by omega)]; exact List.getElem?_eq_getElem (by omega))) (F := emp) (by rw [sep_emp]) (fun a => ?_)
    rw [sep_emp]
    refine Triple.fact (fun e => ?_)
    subst e
    cases hne : OInt.zero c pr ys[i] with
    | ok d =>
      rw [hne] at h
      refine Triple.liftStep rfl ?_
      cases d with
      | false =>
        cases h
        exact Triple.ret (fun h hh => pur_sep_iff.mpr ⟨rfl, hh⟩)
      | true => exact vecScalarLoop_spec hx hp n (i + 1) (by omega) h
    | err => rw [hne] at h; cases h
    | ub => rw [hne] at h; cases h

/-- C73: `osl_vector_is_scalar` only reads. -/
theorem vector_is_scalar_memory {c : Cfg} {x : Vec} {b : Bool} (h : Vec.is_scalar c (some x) = .ok b) (p1 : Ptr) :
    Triple (vecAt c p1 x) (vecIsScalar c p1) (fun r => vecAt c p1 x ∗ pur (r = b)) := by
  unfold vecIsScalar
  refine Triple.of_fact (fun h hh => vecAt_ne h hh) (fun hp => ?_)
  rw [if_neg hp]
  refine vecAt_one (fun v1 => ?_)
  unfold openVec
  simp only [Vec.is_scalar] at h
  hstep loadVec_spec
  dsimp only
  have := vecScalarLoop_spec (c := c) (pr := x.precision) (P := arrAt (kind c x.precision) v1 x.v) (Reads.of (k := kind c x.precision) (v := v1) (l := x.v) (F := emp) (sep_emp _).symm)
    (ys := x.v.dropLast) (fun i hi => by rw [List.getElem?_dropLast, if_pos (by simpa using hi)]) x.v.dropLast.length 0 (by omega) h
  have e : (((x.size : Nat) : Int) - 1).toNat = x.v.dropLast.length := by simp only [Vec.size, List.length_dropLast]; omega
  rw [e]
  hlast this
  hret

end Osl.Mem
