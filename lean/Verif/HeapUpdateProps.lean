import Verif.HeapUpdate
import Verif.HeapVecProps
import Verif.HeapTac
/-!
# Updates of relations in memory (C76)
-/

set_option linter.unusedSectionVars false

namespace Osl.Mem

variable [Allocator]

/-! ## Fields of relations -/

theorem relSetHdr_spec {p m n : Ptr} {h : Hdr} (f : Hdr → Hdr) : Triple (p ↦ .rel h m n) (relSetHdr f p) (fun _ => p ↦ .rel (f h) m n) := by
  unfold relSetHdr
  hstep loadRel_spec
  hlast Triple.store
  hret

/-- C76: `osl_relation_set_type` sets the type of every union part, in place. -/
theorem relation_set_type_memory {c : Cfg} (r : Rel) (type : Int) (p : Ptr) :
    Triple (relAt c p r) (relSetType p type) (fun _ => relAt c p (Rel.set_type r type)) := by
  have := Chain.eachNode_spec (N := relChain c) (g := fun a : Part => { a with type := type }) (ok := fun _ => True) (X := emp)
    (act := relSetHdr (fun h => { h with type := type })) (fun p a n _ => ?_) r (fun _ _ => trivial) p
  · rw [sep_emp] at this
    exact this.post (fun _ h hh => by rw [sep_emp] at hh; exact hh)
  · rw [sep_emp]
    show Triple (partAt c p a n) _ _
    unfold partAt
    refine Triple.exi (fun m => ?_)
    refine Triple.last (relSetHdr_spec (h := hdr a) (fun h => { h with type := type })) rfl (fun _ h hh => ?_)
    rw [sep_emp]
    exact ⟨m, hh⟩

/-- C76: `osl_relation_set_attributes_one` sets the attributes of the first union part, in place; NULL is accepted. -/
theorem relation_set_attributes_one_memory {c : Cfg} (a : Part) (o i l np : Int) (p n : Ptr) :
    Triple (partAt c p a n) (relSetAttributesOne p o i l np)
      (fun _ => partAt c p { a with nb_output_dims := o, nb_input_dims := i, nb_local_dims := l, nb_parameters := np } n) := by
  unfold relSetAttributesOne
  refine Triple.of_fact partAt_ne (fun hp => ?_)
  rw [if_pos hp]
  unfold partAt
  refine Triple.exi (fun m => ?_)
  refine Triple.last (relSetHdr_spec (h := hdr a) (fun h => { h with nb_output_dims := o, nb_input_dims := i, nb_local_dims := l, nb_parameters := np })) rfl (fun _ h hh => ?_)
  exact ⟨m, hh⟩

/-- C76: `osl_relation_set_attributes` sets the attributes of every union part, in place. -/
theorem relation_set_attributes_memory {c : Cfg} (r : Rel) (o i l np : Int) (p : Ptr) :
    Triple (relAt c p r) (relSetAttributes p o i l np) (fun _ => relAt c p (Rel.set_attributes r o i l np)) := by
  have := Chain.eachNode_spec (N := relChain c) (g := fun a : Part => { a with nb_output_dims := o, nb_input_dims := i, nb_local_dims := l, nb_parameters := np })
    (ok := fun _ => True) (X := emp) (act := fun p => relSetAttributesOne p o i l np) (fun p a n _ => ?_) r (fun _ _ => trivial) p
  · rw [sep_emp] at this
    exact this.post (fun _ h hh => by rw [sep_emp] at hh; exact hh)
  · rw [sep_emp]
    exact (relation_set_attributes_one_memory a o i l np p n).post (fun _ h hh => by rw [sep_emp]; exact hh)

theorem relation_set_attributes_one_null (o i l np : Int) : Triple emp (relSetAttributesOne 0 o i l np) (fun _ => emp) := Triple.ret (fun _ h => h)

/-! ## Precision -/

/-- A loop on the memory which follows a loop on values, the assertion depending on the index. -/
theorem Triple.loopIdx {σ : Type} {body : Int → σ → Out σ} {hb : Int → M Unit} {A : Int → σ → Assn} {lo hi : Int}
    (hstep : ∀ i s s', lo ≤ i → i < hi → body i s = .ok s' → Triple (A i s) (hb i) (fun _ => A (i + 1) s')) :
    ∀ (n : Nat) (i : Int) (s s' : σ), lo ≤ i → i + n = hi → Osl.loopN body n i s = .ok s' → Triple (A i s) (Mem.forN hb n i) (fun _ => A hi s')
  | 0, i, s, s', _, hi, h => by
    injection h with h
    subst h
    rw [show i = _ by simpa using hi]
    exact Triple.ret (fun _ h => h)
  | n + 1, i, s, s', hl, hi, h => by
    simp only [Osl.loopN] at h
    obtain ⟨s1, h1, h2⟩ : ∃ s1, body i s = .ok s1 ∧ Osl.loopN body n (i + 1) s1 = .ok s' := by
      cases hb : body i s with
      | ok s1 => rw [hb] at h; exact ⟨s1, rfl, h⟩
      | err => rw [hb] at h; cases h
      | ub => rw [hb] at h; cases h
    refine Triple.bind (hstep i s s1 hl (by omega) h1) (fun _ => Triple.loopIdx hstep n (i + 1) s1 s' (by omega) (by omega) h2)

/-- A matrix whose first `n` elements have the new kind, the others the old one. -/
def convAt (k k' : Option Kind) (m : Ptr) (R C : Int) (n : Nat) (mat : Matrix) : Assn :=
  pur (Rect mat R C) ∗
  (if R = 0 ∨ C = 0 then pur (m = 0)
   else ex fun q => ex fun l1 => ex fun l2 => pur (l1.length = n) ∗ m ↦ .rows (rowPtrs q R C) ∗ q ↦ .ints (l1 ++ l2) ∗ cellsAt k' l1 (mat.flatten.take n) ∗
    cellsAt k l2 (mat.flatten.drop n))

theorem convAt_start {k k' : Option Kind} {m : Ptr} {R C : Int} {mat : Matrix} : ∀ h, matAt k m R C mat h → convAt k k' m R C 0 mat h := by
  intro h hh
  unfold matAt at hh
  unfold convAt
  obtain ⟨hr, hh⟩ := pur_sep_iff.mp hh
  refine pur_sep_iff.mpr ⟨hr, ?_⟩
  split at hh
  · rename_i h0
    rw [if_pos h0]
    exact hh
  · rename_i h0
    rw [if_neg h0]
    obtain ⟨q, cells, hh⟩ := hh
    refine ⟨q, [], cells, pur_sep_iff.mpr ⟨rfl, ?_⟩⟩
    rw [List.take_zero, List.drop_zero, List.nil_append, show cellsAt k' [] [] = emp from rfl, emp_sep]
    exact hh

theorem convAt_end {k k' : Option Kind} {m : Ptr} {R C : Int} {mat : Matrix} : ∀ h, convAt k k' m R C (R.toNat * C.toNat) mat h → matAt k' m R C mat h := by
  intro h hh
  unfold convAt at hh
  unfold matAt
  obtain ⟨hr, hh⟩ := pur_sep_iff.mp hh
  refine pur_sep_iff.mpr ⟨hr, ?_⟩
  split at hh
  · rename_i h0
    rw [if_pos h0]
    exact hh
  · rename_i h0
    rw [if_neg h0]
    obtain ⟨q, l1, l2, hh⟩ := hh
    obtain ⟨hl, hh⟩ := pur_sep_iff.mp hh
    have e1 : mat.flatten.take (R.toNat * C.toNat) = mat.flatten := List.take_of_length_le (by rw [flatten_length hr]; exact Nat.le_refl _)
    have e2 : mat.flatten.drop (R.toNat * C.toNat) = [] := List.drop_of_length_le (by rw [flatten_length hr]; exact Nat.le_refl _)
    rw [e1, e2] at hh
    cases l2 with
    | nil =>
      refine ⟨q, l1, ?_⟩
      rw [List.append_nil, show cellsAt k [] [] = emp from rfl, sep_emp] at hh
      exact hh
    | cons x l2 =>
      obtain ⟨_, _, _, _, _, hh⟩ := hh
      obtain ⟨_, _, _, _, _, hh⟩ := hh
      obtain ⟨_, _, _, _, _, hh⟩ := hh
      exact hh.1.elim

/-- Reading one element. -/
theorem mget_cell {k : Option Kind} {m q : Ptr} {R C i j v : Int} {l1 l2 : List Cell} {x : Cell} (hi : 0 ≤ i) (hi' : i < R) (hj : 0 ≤ j)
    (hl : l1.length = flatIdx C i j) :
    Triple (m ↦ .rows (rowPtrs q R C) ∗ q ↦ .ints (l1 ++ x :: l2) ∗ cellAt k x v) (mget k m i j)
      (fun r => pur (r = v) ∗ m ↦ .rows (rowPtrs q R C) ∗ q ↦ .ints (l1 ++ x :: l2) ∗ cellAt k x v) := by
  unfold mget
  refine Triple.stepEq (mloc_spec (q := q) (C := C) hi hi' hj) (F := q ↦ .ints (l1 ++ x :: l2) ∗ cellAt k x v) rfl ?_
  refine Triple.last (getLoc_spec (k := k) (v := v) (by rw [hl])) (F := m ↦ .rows (rowPtrs q R C)) (by ac_rfl) (fun r h hh => ?_)
  exact hh.perm (by ac_rfl)

/-- The conversion of one element. -/
theorem intSetPrecision_spec {c : Cfg} {p np : Int} (hne : p ≠ np) {m : Ptr} {R C i j v w : Int} {mat mat' : Matrix} (hv : get2 mat i j = .ok v)
    (hw : OInt.set_precision c p np v = .ok w) (hs : set2 mat i j w = .ok mat') :
    Triple (convAt (kind c p) (kind c np) m R C (flatIdx C i j) mat) (intSetPrecision c p np m i j)
      (fun _ => convAt (kind c p) (kind c np) m R C (flatIdx C i j + 1) mat') := by
  unfold OInt.set_precision at hw
  rw [if_pos hne] at hw
  obtain ⟨u, hu, hw⟩ := Out.bind_eq_ok.mp hw
  have hk : kind c np ≠ none := by
    intro hk
    simp [OInt.init_set_si, hk] at hw
  have huw : w = u := by
    unfold OInt.init_set_si at hw
    split at hw
    · injection hw with e; exact e.symm
    · cases hw
  subst huw
  unfold intSetPrecision
  rw [if_pos hne]
  unfold convAt
  refine Triple.fact (fun hr => ?_)
  obtain ⟨b1, b2, b3, b4, b5⟩ := get2_bounds hr hv
  obtain ⟨_, _, _, _, s5, s6⟩ := set2_bounds hr hs
  rw [if_neg (by omega), if_neg (by omega)]
  refine Triple.exi (fun q => Triple.exi (fun l1 => Triple.exi (fun l2 => Triple.fact (fun hl => ?_))))
  obtain ⟨hlt, ev⟩ := List.getElem?_eq_some_iff.mp b5
  generalize hn : flatIdx C i j = n at *
  rw [List.drop_eq_getElem_cons hlt, ev]
  cases l2 with
  | nil =>
    refine Triple.opened_all (fun h0 hh => ?_)
    obtain ⟨_, _, _, _, _, hh⟩ := hh
    obtain ⟨_, _, _, _, _, hh⟩ := hh
    obtain ⟨_, _, _, _, _, hh⟩ := hh
    exact hh.1.elim
  | cons x l2 =>
    rw [show cellsAt (kind c p) (x :: l2) (v :: mat.flatten.drop (n + 1)) = (cellAt (kind c p) x v ∗ cellsAt (kind c p) l2 (mat.flatten.drop (n + 1))) from rfl]
    refine Triple.stepEq (mget_cell (k := kind c p) (q := q) (C := C) (x := x) (v := v) (l2 := l2) b1 b2 b3 (by rw [hn]; exact hl))
      (F := cellsAt (kind c np) l1 (mat.flatten.take n) ∗ cellsAt (kind c p) l2 (mat.flatten.drop (n + 1))) (by ac_rfl) ?_
    refine Triple.liftStep (a := w) hu ?_
    refine Triple.step (clearCell_spec (k := kind c p) (q := q) (R := R) (C := C) (i := i) (j := j) (v := v) (l1 := l1) (x := x) (l2 := l2) b1 b2 b3 (by rw [hn]; exact hl))
      (F := cellsAt (kind c np) l1 (mat.flatten.take n) ∗ cellsAt (kind c p) l2 (mat.flatten.drop (n + 1))) (by ac_rfl) (fun _ => ?_)
    rw [ex_sep]
    refine Triple.exi (fun y => ?_)
    refine Triple.step (initSi_spec hk w) (F := (m ↦ .rows (rowPtrs q R C) ∗ q ↦ .ints (l1 ++ y :: l2)) ∗ cellsAt (kind c np) l1 (mat.flatten.take n) ∗
      cellsAt (kind c p) l2 (mat.flatten.drop (n + 1))) (by rw [emp_sep]) (fun z => ?_)
    refine Triple.last (writeCell_spec (q := q) (x := y) (l2 := l2) z b1 b2 b3 (by rw [hn]; exact hl))
      (F := cellAt (kind c np) z w ∗ cellsAt (kind c np) l1 (mat.flatten.take n) ∗ cellsAt (kind c p) l2 (mat.flatten.drop (n + 1))) (by ac_rfl) (fun _ h hh => ?_)
    refine pur_sep_iff.mpr ⟨s6, q, l1 ++ [z], l2, pur_sep_iff.mpr ⟨by simp [hl], ?_⟩⟩
    have e1 : mat'.flatten.take (n + 1) = mat.flatten.take n ++ [w] := by
      rw [s5, List.take_add_one, List.take_set_of_le (by omega)]
      congr 1
      rw [List.getElem?_set_self hlt]
      rfl
    have e2 : mat'.flatten.drop (n + 1) = mat.flatten.drop (n + 1) := by rw [s5, List.drop_set_of_lt (by omega)]
    rw [e1, e2, cellsAt_append (by simp only [List.length_take]; omega)]
    rw [List.append_assoc, List.singleton_append, show cellsAt (kind c np) [z] [w] = (cellAt (kind c np) z w ∗ emp) from rfl, sep_emp]
    exact hh.perm (by ac_rfl)

/-- The conversion of a matrix. -/
theorem convert_spec {c : Cfg} {p np : Int} (hne : p ≠ np) {m : Ptr} {R C : Int} {mat mat' : Matrix}
    (h : loop 0 R (fun i m => loop 0 C (fun j m => do
        let v ← get2 m i j
        let v ← OInt.set_precision c p np v
        set2 m i j v) m) mat = .ok mat') :
    Triple (matAt (kind c p) m R C mat) (Mem.forM 0 R (fun i => Mem.forM 0 C (fun j => intSetPrecision c p np m i j))) (fun _ => matAt (kind c np) m R C mat') := by
  refine Triple.of_fact (φ := 0 ≤ R) (fun h hh => by have := (pur_sep_iff.mp hh).1.1; omega) (fun hR => ?_)
  refine Triple.of_fact (φ := R = 0 ∨ 0 ≤ C) (fun h hh => ?_) (fun hC => ?_)
  · have hr := (pur_sep_iff.mp hh).1
    cases mat with
    | nil => exact .inl (by have := hr.1; simpa using this.symm)
    | cons r mat => exact .inr (by have := hr.2 r (by simp); omega)
  have main : Triple (convAt (kind c p) (kind c np) m R C (flatIdx C 0 0) mat) (Mem.forM 0 R (fun i => Mem.forM 0 C (fun j => intSetPrecision c p np m i j)))
      (fun _ => convAt (kind c p) (kind c np) m R C (flatIdx C R 0) mat') := by
    unfold loop at h
    unfold Mem.forM
    refine Triple.loopIdx (A := fun i x => convAt (kind c p) (kind c np) m R C (flatIdx C i 0) x) (lo := 0) (hi := R) ?_ _ _ _ _ (by omega) (by omega) h
    intro i s s' hi hi' hb
    have hnext : flatIdx C (i + 1) 0 = flatIdx C i C := by
      unfold flatIdx
      rw [show (i + 1).toNat = i.toNat + 1 by omega, Nat.add_mul]
      simp
    unfold loop at hb
    show Triple _ _ (fun _ => convAt (kind c p) (kind c np) m R C (flatIdx C (i + 1) 0) s')
    rw [hnext]
    refine Triple.loopIdx (A := fun j x => convAt (kind c p) (kind c np) m R C (flatIdx C i j) x) (lo := 0) (hi := C) ?_ _ _ _ _ (by omega) (by omega) hb
    intro j t t' hj hj' hb
    obtain ⟨v, h1, hb⟩ := Out.bind_eq_ok.mp hb
    obtain ⟨w, h2, h3⟩ := Out.bind_eq_ok.mp hb
    have hn : flatIdx C i (j + 1) = flatIdx C i j + 1 := by
      unfold flatIdx
      rw [show (j + 1).toNat = j.toNat + 1 by omega]
      omega
    show Triple _ _ (fun _ => convAt (kind c p) (kind c np) m R C (flatIdx C i (j + 1)) t')
    rw [hn]
    exact intSetPrecision_spec hne h1 h2 h3
  refine main.conseq (fun h hh => ?_) (fun _ h hh => ?_)
  · rw [show flatIdx C 0 0 = 0 by simp [flatIdx]]
    exact convAt_start h hh
  · rw [show flatIdx C R 0 = R.toNat * C.toNat by simp [flatIdx]] at hh
    exact convAt_end h hh

/-- One union part. -/
theorem relSetPrecisionOne_spec {c : Cfg} {np : Int} {a a' : Part} (h : Rel.setPrecisionPart c np a = .ok a') (p n : Ptr) :
    Triple (partAt c p a n) (relSetPrecisionOne c np p) (fun _ => partAt c p a' n) := by
  unfold relSetPrecisionOne
  refine Triple.exi (fun m => ?_)
  hstep (loadRel_spec (h := hdr a))
  unfold Rel.setPrecisionPart at h
  by_cases hne : np = a.precision
  · rw [if_neg (by simpa using hne)] at h
    rw [if_neg (show ¬ (np ≠ (hdr a).precision) by simpa [hdr] using hne)]
    cases h
    exact Triple.ret (fun h hh => ⟨m, hh⟩)
  · rw [if_pos hne] at h
    rw [if_pos (show np ≠ (hdr a).precision from hne)]
    obtain ⟨m', h1, h2⟩ := Out.bind_eq_ok.mp h
    cases h2
    unfold relConvert
    refine Triple.step (convert_spec (p := a.precision) (np := np) (fun e => hne e.symm) (m := m) h1) (F := p ↦ .rel (hdr a) m n) (by ac_rfl) (fun _ => ?_)
    refine Triple.last (relSetHdr_spec (p := p) (h := hdr a) (m := m) (n := n) (fun h => { h with precision := np }))
      (F := matAt (kind c np) m a.nb_rows a.nb_columns m') (by ac_rfl) (fun _ h hh => ⟨m, hh⟩)

/-- C76: `osl_relation_set_precision` converts the coefficients in place: the integers of the old precision are cleared, those of the new one are allocated, and the
relation is then the one `Rel.set_precision` gives. -/
theorem relation_set_precision_memory {c : Cfg} {np : Int} {r r' : Rel} (h : Rel.set_precision c np r = .ok r') (p : Ptr) :
    Triple (relAt c p r) (relSetPrecision c np p) (fun _ => relAt c p r') := by
  unfold relSetPrecision eachNode
  refine Triple.bind (Triple.heapSize (Chain.seg_big (N := relChain c) r p 0)) (fun f => Triple.fact (fun hf => ?_))
  have key : ∀ (f : Nat) (r r' : Rel) (p : Ptr), r.length ≤ f → Rel.set_precision c np r = .ok r' →
      Triple (relAt c p r) (eachLoop relNext (relSetPrecisionOne c np) f p) (fun _ => relAt c p r') := by
    intro f
    induction f with
    | zero =>
      intro r r' p hf h
      cases r with
      | cons a r => simp at hf
      | nil =>
        cases h
        refine Triple.of_fact (φ := p = 0) (fun h hh => hh.1) (fun hp => ?_)
        unfold eachLoop
        rw [if_pos hp]
        exact Triple.ret (fun _ h => h)
    | succ f ih =>
      intro r r' p hf h
      cases r with
      | nil =>
        cases h
        refine Triple.of_fact (φ := p = 0) (fun h hh => hh.1) (fun hp => ?_)
        unfold eachLoop
        rw [if_pos hp]
        exact Triple.ret (fun _ h => h)
      | cons a r =>
        obtain ⟨b, bs, h1, h2, rfl⟩ := Out.mapOut_cons_eq_ok.mp h
        refine Triple.of_fact (φ := p ≠ 0) (fun h hh => Chain.list_cons_ne (N := relChain c) hh) (fun hp => ?_)
        unfold eachLoop
        rw [if_neg hp]
        unfold relAt
        rw [Chain.list_cons]
        refine Triple.exi (fun n => ?_)
        refine Triple.step (relSetPrecisionOne_spec h1 p n) rfl (fun _ => ?_)
        refine Triple.stepEq ((relChain c).get_spec p b n) rfl ?_
        refine Triple.last (ih r bs n (by simpa using hf) h2) (F := partAt c p b n) (sep_comm _ _) (fun _ h hh => ?_)
        rw [Chain.list_cons]
        exact ⟨n, hh.perm (sep_comm _ _)⟩
  exact key f r r' p hf h

theorem relHead_spec {c : Cfg} {a : Part} {r : Rel} {p : Ptr} :
    Triple (relAt c p (a :: r)) (loadRel p) (fun x => pur (x.1 = hdr a) ∗ relAt c p (a :: r)) := by
  unfold relAt
  rw [Chain.list_cons]
  refine Triple.exi (fun n => ?_)
  show Triple (partAt c p a n ∗ _) _ _
  unfold partAt
  rw [ex_sep]
  refine Triple.exi (fun m => ?_)
  refine Triple.last (loadRel_spec (p := p) (h := hdr a) (m := m) (n := n)) (F := matAt (kind c a.precision) m a.nb_rows a.nb_columns a.m ∗ (relChain c).list n r)
    (by ac_rfl) (fun x h hh => ?_)
  rw [sep_assoc] at hh
  obtain ⟨hx, hh⟩ := pur_sep_iff.mp hh
  refine pur_sep_iff.mpr ⟨by rw [hx], n, ?_⟩
  rw [← sep_assoc] at hh
  exact sep_mono (fun _ h => ⟨m, h⟩) (fun _ h => h) hh

/-- Two conversions. -/
theorem relSetBoth_spec {c : Cfg} {a b : Rel} {np : Int} {u : Rel × Rel} (h : (do let a' ← Rel.set_precision c np a; let b' ← Rel.set_precision c np b; pure (a', b')) = Out.ok u)
    (p q : Ptr) : Triple (relAt c p a ∗ relAt c q b) (relSetBoth c p q (some np)) (fun _ => relAt c p u.1 ∗ relAt c q u.2) := by
  obtain ⟨a', h1, h⟩ := Out.bind_eq_ok.mp h
  obtain ⟨b', h2, h⟩ := Out.bind_eq_ok.mp h
  cases h
  unfold relSetBoth
  refine Triple.step (relation_set_precision_memory h1 p) rfl (fun _ => ?_)
  refine Triple.last (relation_set_precision_memory h2 q) (F := relAt c p a') (sep_comm _ _) (fun _ h hh => hh.perm (sep_comm _ _))

/-- C76: `osl_relation_set_same_precision` gives two relations the highest of their precisions, in place; NULL is accepted. -/
theorem relation_set_same_precision_memory {c : Cfg} {a b : Rel} {u : Rel × Rel} (h : Rel.set_same_precision c a b = .ok u) (p q : Ptr) :
    Triple (relAt c p a ∗ relAt c q b) (relSetSamePrecision c p q) (fun _ => relAt c p u.1 ∗ relAt c q u.2) := by
  unfold relSetSamePrecision
  cases a with
  | nil =>
    cases h
    refine Triple.of_fact (φ := p = 0) ?_ (fun hp => ?_)
    · rintro h ⟨_, _, _, _, h1, _⟩
      exact h1.1
    rw [if_neg (by simp [hp])]
    exact Triple.ret (fun _ h => h)
  | cons pa a =>
    cases b with
    | nil =>
      cases h
      refine Triple.of_fact (φ := q = 0) ?_ (fun hq => ?_)
      · rintro h ⟨_, _, _, _, _, h1⟩
        exact h1.1
      rw [if_neg (by simp [hq])]
      exact Triple.ret (fun _ h => h)
    | cons pb b =>
      refine Triple.of_fact (φ := p ≠ 0 ∧ q ≠ 0) ?_ (fun hpq => ?_)
      · rintro h ⟨_, _, _, _, h1, h2⟩
        exact ⟨Chain.list_cons_ne (N := relChain c) h1, Chain.list_cons_ne (N := relChain c) h2⟩
      rw [if_pos hpq]
      refine Triple.step (relHead_spec (c := c) (p := p)) rfl (fun x => ?_)
      rw [sep_assoc]
      refine Triple.fact (fun hx => ?_)
      refine Triple.step (relHead_spec (c := c) (p := q)) (F := relAt c p (pa :: a)) (sep_comm _ _) (fun y => ?_)
      rw [sep_assoc]
      refine Triple.fact (fun hy => ?_)
      rw [hx, hy, sep_comm]
      show Triple _ (relSetBoth c p q (samePrecision pa.precision pb.precision)) _
      simp only [Rel.set_same_precision] at h
      unfold samePrecision
      split at h
      · rename_i h1
        rw [if_pos h1]
        split at h
        · rename_i h2
          rw [if_pos h2]
          exact relSetBoth_spec h p q
        · rename_i h2
          rw [if_neg h2]
          split at h
          · rename_i h3
            rw [if_pos h3]
            exact relSetBoth_spec h p q
          · rename_i h3
            rw [if_neg h3]
            cases h
            exact Triple.ret (fun _ h => h)
      · rename_i h1
        rw [if_neg h1]
        cases h
        exact Triple.ret (fun _ h => h)

end Osl.Mem
