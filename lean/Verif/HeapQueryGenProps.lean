import Verif.HeapQuery
import Verif.HeapQueryRelProps
import Verif.HeapScopProps
/-!
# Functions which only read lists and generics in memory (C75)
-/

set_option linter.unusedSectionVars false

namespace Osl.Mem

/-! ## Fields -/

theorem loadPtrs_query {p : Ptr} {l : List Ptr} : Query (p ↦ .ptrs l) (loadPtrs p) l := by
  unfold loadPtrs
  qstep Query.load
  exact Query.lift rfl

theorem getField_query {p x : Ptr} {l : List Ptr} {i : Nat} (h : nth l i = .ok x) : Query (p ↦ .ptrs l) (getField p i) x := by
  unfold getField
  qstep loadPtrs_query
  exact Query.lift h

theorem loadNode_query {p : Ptr} {is : List Int} {ps : List Ptr} : Query (p ↦ .node is ps) (loadNode p) (is, ps) := by
  unfold loadNode
  qstep Query.load
  exact Query.lift rfl

theorem getPtr_query {p x : Ptr} {is : List Int} {l : List Ptr} {i : Nat} (h : nth l i = .ok x) : Query (p ↦ .node is l) (getPtr p i) x := by
  unfold getPtr
  qstep loadNode_query
  exact Query.lift h

theorem getInt_query {p : Ptr} {x : Int} {is : List Int} {l : List Ptr} {i : Nat} (h : nth is i = .ok x) : Query (p ↦ .node is l) (getInt p i) x := by
  unfold getInt
  qstep loadNode_query
  exact Query.lift h

theorem loadIface_query {p u n : Ptr} {f : Fns} : Query (p ↦ .iface u f n) (loadIface p) ⟨u, f, n⟩ := by
  unfold loadIface
  qstep Query.load
  exact Query.lift rfl

theorem strEq_query {a b : Ptr} {s t : Str} : Query (a ↦ .chars s ∗ b ↦ .chars t) (strEq a b) (decide (s = t)) := by
  unfold strEq
  qstep Query.load
  qstep Query.lift rfl
  qstep Query.load
  qstep Query.lift rfl
  exact Query.ret _

/-! ## Lists of relations -/

section

variable {c : Cfg}

theorem node_next (p : Ptr) (a : Rel) (n : Ptr) : Query ((listChain c).at_ p a n) ((listChain c).get p) n := by
  refine Query.ex (fun x => ?_)
  show Query _ (getField p 1) n
  exact (getField_query rfl).left

theorem list_attrs_until : ∀ (l : RList) (loc a : Rel.Attrs), RList.attrsLoop c l loc a =
    until_ (fun (e : Rel) (_ : List Rel) (s : Rel.Attrs × Rel.Attrs) => match Rel.get_attributes c e s.1 with
      | .ok loc => Out.ok (.inl (loc, attrsMax s.2 loc)) | .err => .err | .ub => .ub) (fun s => s.2) l (loc, a)
  | [], _, _ => rfl
  | e :: l, loc, a => by
    simp only [RList.attrsLoop, until_]
    cases Rel.get_attributes c e loc with
    | ok x => exact list_attrs_until l x _
    | err => rfl
    | ub => rfl

/-- C75: `osl_relation_list_get_attributes` only reads. -/
theorem list_get_attributes_query {p : Ptr} {l : RList} {a v : Rel.Attrs} (h : RList.get_attributes c l a = .ok v) : Query (rlistAt c p l) (listAttributes c p a) v := by
  unfold RList.get_attributes at h
  rw [list_attrs_until] at h
  refine chase_query (N := listChain c) node_next (fun e k l1 _ p s x hx => ?_) h
  unfold listAttrsStep
  rw [Chain.list_cons]
  refine Query.ex (fun n => ?_)
  refine Query.left ?_
  refine Query.ex (fun y => ?_)
  qstep (getField_query rfl)
  cases ha : Rel.get_attributes c e s.1 with
  | err => rw [ha] at hx; cases hx
  | ub => rw [ha] at hx; cases hx
  | ok loc =>
    rw [ha] at hx
    cases hx
    qstep (relation_get_attributes_query ha)
    exact Query.ret _

theorem list_integrity_until {t o i np : Int} : ∀ l : RList, RList.integrity_check c t o i np l =
    until_ (fun (e : Rel) (_ : List Rel) (_ : Unit) => match Rel.integrity_check c e t o i np with
      | .ok true => Out.ok (.inl ()) | .ok false => .ok (.inr false) | .err => .err | .ub => .ub) (fun _ => true) l ()
  | [] => rfl
  | e :: l => by
    simp only [RList.integrity_check, until_]
    cases Rel.integrity_check c e t o i np with
    | ok x => cases x with
      | true => exact list_integrity_until l
      | false => rfl
    | err => rfl
    | ub => rfl

/-- C75: `osl_relation_list_integrity_check` only reads. -/
theorem list_integrity_check_query {p : Ptr} {l : RList} {t o i np : Int} {b : Bool} (h : RList.integrity_check c t o i np l = .ok b) :
    Query (rlistAt c p l) (listIntegrity c p t o i np) b := by
  rw [list_integrity_until] at h
  refine chase_query (N := listChain c) node_next (fun e k l1 _ p s x hx => ?_) h
  unfold listIntegrityStep
  rw [Chain.list_cons]
  refine Query.ex (fun n => ?_)
  refine Query.left ?_
  refine Query.ex (fun y => ?_)
  qstep (getField_query rfl)
  cases ha : Rel.integrity_check c e t o i np with
  | err => rw [ha] at hx; cases hx
  | ub => rw [ha] at hx; cases hx
  | ok b =>
    rw [ha] at hx
    qstep (relation_integrity_check_query ha)
    cases b <;> (cases hx; exact Query.ret _)

/-! ## Comparisons of lists which may be shared -/

theorem sharedLoop_query {α : Type} {N : Chain α} (hget : ∀ p a n, Query (N.at_ p a n) (N.get p) n) {eq : Ptr → Ptr → M Bool} {g : α → α → Out Bool} :
    ∀ (f : Nat) (l k : List α) (p q : Ptr) (v : Bool), l.length ≤ f →
    (∀ a ∈ l, ∀ b ∈ k, ∀ p q n o x, g a b = .ok x → Query (N.at_ p a n ∗ N.at_ q b o) (eq p q) x) →
    sameAll g l k = .ok v → Query (N.list p l ∗ N.list q k) (sharedLoop N.toNext eq f p q) v
  | f, [], k, p, q, v, _, _, h => by
    rw [Chain.list_null]
    refine Query.fact (fun hp => ?_)
    subst hp
    cases k with
    | nil =>
      cases h
      refine Query.of_fact (φ := q = 0) (fun _ hh => hh.1) (fun hq => ?_)
      subst hq
      cases f <;> exact Query.ret _
    | cons b k =>
      cases h
      refine Query.of_fact (fun _ hh => Chain.list_cons_ne hh) (fun hq => ?_)
      have e : decide ((0 : Ptr) = 0 ∧ q = 0) = false := by simp [hq]
      cases f <;> (unfold sharedLoop; rw [if_pos (Or.inl rfl), e]; exact Query.ret _)
  | 0, a :: l, k, p, q, v, h, _, _ => by simp at h
  | f + 1, y :: l, [], p, q, v, _, _, h => by
    cases h
    rw [sep_comm, Chain.list_null]
    refine Query.fact (fun hq => ?_)
    subst hq
    refine Query.of_fact (fun _ hh => Chain.list_cons_ne hh) (fun hp => ?_)
    have e : decide (p = 0 ∧ (0 : Ptr) = 0) = false := by simp [hp]
    unfold sharedLoop
    rw [if_pos (Or.inr rfl), e]
    exact Query.ret _
  | f + 1, y :: l, z :: k, p, q, v, hf, heq, h => by
    refine Query.of_fact (φ := p ≠ 0 ∧ q ≠ 0 ∧ p ≠ q) (fun h0 hh => ?_) (fun hp => ?_)
    · refine ⟨?_, ?_, ?_⟩
      · obtain ⟨_, _, _, _, h1, h2⟩ := hh
        exact Chain.list_cons_ne h1
      · obtain ⟨_, _, _, _, h1, h2⟩ := hh
        exact Chain.list_cons_ne h2
      · rw [Chain.list_cons, Chain.list_cons, ex_sep] at hh
        obtain ⟨n, hh⟩ := hh
        have hh := hh
        rw [sep_ex] at hh
        obtain ⟨o, hh⟩ := hh
        have : (N.at_ p y n ∗ N.at_ q z o ∗ (N.list n l ∗ N.list o k)) h0 := hh.perm (by ac_rfl)
        exact Chain.at_ne _ this
    unfold sharedLoop
    rw [if_neg (by rintro (h | h); exact hp.1 h; exact hp.2.1 h), if_neg hp.2.2]
    rw [Chain.list_cons, Chain.list_cons, ex_sep]
    refine Query.ex (fun n => ?_)
    rw [sep_ex]
    refine Query.ex (fun o => ?_)
    rw [show ((N.at_ p y n ∗ N.list n l) ∗ N.at_ q z o ∗ N.list o k) = ((N.at_ p y n ∗ N.at_ q z o) ∗ N.list n l ∗ N.list o k) by ac_rfl]
    simp only [sameAll] at h
    cases hg : g y z with
    | ok x =>
      rw [hg] at h
      refine Query.bind (heq y (by simp) z (by simp) p q n o x hg).left ?_
      cases x with
      | false =>
        cases h
        exact Query.ret _
      | true =>
        dsimp only at h ⊢
        rw [if_pos rfl]
        refine Query.bind ((hget p y n).left.left) ?_
        refine Query.bind ((hget q z o).right.left) ?_
        refine Query.right ?_
        exact sharedLoop_query hget f l k n o v (by simpa using hf) (fun a ha b hb => heq a (by simp [ha]) b (by simp [hb])) h
    | err => rw [hg] at h; cases h
    | ub => rw [hg] at h; cases h

theorem sharedAll_query {α : Type} {N : Chain α} (hget : ∀ p a n, Query (N.at_ p a n) (N.get p) n) {eq : Ptr → Ptr → M Bool} {g : α → α → Out Bool} {l k : List α} {p q : Ptr} {v : Bool}
    (heq : ∀ a ∈ l, ∀ b ∈ k, ∀ p q n o x, g a b = .ok x → Query (N.at_ p a n ∗ N.at_ q b o) (eq p q) x) (h : sameAll g l k = .ok v) :
    Query (N.list p l ∗ N.list q k) (sharedAll N.toNext eq p q) v := by
  unfold sharedAll
  exact Query.heapSize ((Chain.seg_big l p 0).sep (Big.zero _)) (fun f hf => sharedLoop_query hget f l k p q v (by simpa using hf) heq h)

/-- A list is equal to itself: the very same pointer is given twice. -/
theorem sharedAll_self {α : Type} {N : Chain α} {eq : Ptr → Ptr → M Bool} {l : List α} {p : Ptr} : Query (N.list p l) (sharedAll N.toNext eq p p) true := by
  unfold sharedAll
  refine Query.heapSize (Chain.seg_big l p 0) (fun f hf => ?_)
  cases l with
  | nil =>
    refine Query.of_fact (φ := p = 0) (fun _ hh => hh.1) (fun hp => ?_)
    subst hp
    cases f <;> exact Query.ret _
  | cons a l =>
    refine Query.of_fact (fun _ hh => Chain.list_cons_ne hh) (fun hp => ?_)
    cases f with
    | zero => simp at hf
    | succ f =>
      unfold sharedLoop
      rw [if_neg (by simp [hp]), if_pos rfl]
      exact Query.ret _

theorem list_sameAll : ∀ (l k : RList), RList.equal c l k = sameAll (Rel.equal c) l k
  | [], [] => rfl
  | [], _ :: _ => rfl
  | _ :: _, [] => rfl
  | x :: l, y :: k => by
    simp only [RList.equal, sameAll]
    cases Rel.equal c x y with
    | ok b => cases b with
      | true => exact list_sameAll l k
      | false => rfl
    | err => rfl
    | ub => rfl

/-- C75: `osl_relation_list_equal` on two lists only reads them. -/
theorem list_equal_query {p q : Ptr} {l k : RList} {b : Bool} (h : RList.equal c l k = .ok b) : Query (rlistAt c p l ∗ rlistAt c q k) (listEqual c p q) b := by
  rw [list_sameAll] at h
  refine sharedAll_query (N := listChain c) node_next (fun x _ y _ p q n o v hv => ?_) h
  show Query (nodeAt c p x n ∗ nodeAt c q y o) _ _
  unfold nodeAt listNodeEqual
  rw [ex_sep]
  refine Query.ex (fun u => ?_)
  rw [sep_ex]
  refine Query.ex (fun w => ?_)
  qstep (getField_query (p := p) (i := 0) rfl)
  qstep (getField_query (p := q) (i := 0) rfl)
  rw [show ((p ↦ .ptrs [u, n] ∗ relAt c u x) ∗ q ↦ .ptrs [w, o] ∗ relAt c w y) = ((relAt c u x ∗ relAt c w y) ∗ (p ↦ .ptrs [u, n] ∗ q ↦ .ptrs [w, o])) by ac_rfl]
  exact (relation_equal_query hv).left

/-- C75: `osl_relation_list_equal` of a list with itself. -/
theorem list_equal_self_query {p : Ptr} {l : RList} : Query (rlistAt c p l) (listEqual c p p) true := sharedAll_self (N := listChain c)

end

/-! ## Interfaces -/

/-- C75: `osl_interface_equal` on two lists of interfaces only reads them. -/
theorem interface_equal_query {p q : Ptr} {l k : Ifaces} {b : Bool} (h : Ifaces.equal l.head? k.head? = .ok b) : Query (ifacesAt p l ∗ ifacesAt q k) (ifaceEqual p q) b := by
  unfold ifacesAt
  cases l with
  | nil =>
    rw [Chain.list_null]
    refine Query.fact (fun hp => ?_)
    subst hp
    cases k with
    | nil =>
      cases h
      refine Query.of_fact (φ := q = 0) (fun _ hh => hh.1) (fun hq => ?_)
      subst hq
      exact Query.ret _
    | cons j k =>
      cases h
      refine Query.of_fact (fun _ hh => Chain.list_cons_ne hh) (fun hq => ?_)
      unfold ifaceEqual
      rw [if_neg (fun e => hq e.symm), if_pos (Or.inl ⟨rfl, hq⟩)]
      exact Query.ret _
  | cons i l =>
    cases k with
    | nil =>
      cases h
      rw [sep_comm, Chain.list_null]
      refine Query.fact (fun hq => ?_)
      subst hq
      refine Query.of_fact (fun _ hh => Chain.list_cons_ne hh) (fun hp => ?_)
      unfold ifaceEqual
      rw [if_neg hp, if_pos (Or.inr ⟨hp, rfl⟩)]
      exact Query.ret _
    | cons j k =>
      rw [Chain.list_cons, Chain.list_cons, ex_sep]
      refine Query.ex (fun n => ?_)
      rw [sep_ex]
      refine Query.ex (fun o => ?_)
      rw [show ((ifaceChain.at_ p i n ∗ ifaceChain.list n l) ∗ ifaceChain.at_ q j o ∗ ifaceChain.list o k) =
        ((ifaceChain.at_ p i n ∗ ifaceChain.at_ q j o) ∗ ifaceChain.list n l ∗ ifaceChain.list o k) by ac_rfl]
      refine Query.left ?_
      obtain ⟨iu, fi⟩ := i
      obtain ⟨ju, fj⟩ := j
      cases iu with
      | none => cases h
      | some s =>
      cases ju with
      | none => cases h
      | some t =>
      injection h with h
      subst h
      refine Query.of_fact (φ := p ≠ 0 ∧ q ≠ 0 ∧ p ≠ q) (fun h0 hh => ?_) (fun hp => ?_)
      · refine ⟨?_, ?_, ?_⟩
        · obtain ⟨_, _, _, _, h1, h2⟩ := hh
          exact ifaceAt_ne _ h1
        · obtain ⟨_, _, _, _, h1, h2⟩ := hh
          exact ifaceAt_ne _ h2
        · rw [← sep_emp (ifaceChain.at_ q _ o)] at hh
          exact Chain.at_ne (N := ifaceChain) _ hh
      show Query (ifaceAt p ⟨some s, fi⟩ n ∗ ifaceAt q ⟨some t, fj⟩ o) _ _
      unfold ifaceEqual ifaceAt
      rw [if_neg hp.2.2, if_neg (by simp [hp.1, hp.2.1]), ex_sep]
      refine Query.ex (fun u => ?_)
      rw [sep_ex]
      refine Query.ex (fun w => ?_)
      unfold ifaceEqualNodes
      qstep (loadIface_query (p := p))
      qstep (loadIface_query (p := q))
      show Query ((p ↦ .iface u fi n ∗ u ↦ .chars s) ∗ q ↦ .iface w fj o ∗ w ↦ .chars t) _ _
      rw [show ((p ↦ .iface u fi n ∗ u ↦ .chars s) ∗ q ↦ .iface w fj o ∗ w ↦ .chars t) = ((u ↦ .chars s ∗ w ↦ .chars t) ∗ (p ↦ .iface u fi n ∗ q ↦ .iface w fj o)) by ac_rfl]
      qstep strEq_query
      exact Query.ret _

/-! ## Generics -/

variable {D : Type} [Allocator] {E : Env D} {O : DataMem D E}

theorem gen_next (p : Ptr) (g : Generic D) (n : Ptr) : Query ((genChain O).at_ p g n) ((genChain O).get p) n := by
  refine Query.ex (fun x => Query.ex (fun y => ?_))
  show Query _ (getField p 2) n
  exact (getField_query rfl).left

/-- C75: `osl_generic_number` and `osl_generic_count` only read. -/
theorem generic_number_query {p : Ptr} {l : GList D} : Query (glistAt O p l) (genCount p) l.length := countAll_query (N := genChain O) gen_next

/-- C75: `osl_generic_has_URI` for a constant URI only reads. -/
theorem generic_has_uri_query {p n : Ptr} {g : Generic D} {t : Str} : Query (genAt O p g n) (genIs t p) (GList.has_URI g t) := by
  refine Query.ex (fun x => Query.ex (fun y => ?_))
  unfold genIs
  qstep (getField_query rfl)
  refine Query.right ?_
  obtain ⟨i, d⟩ := g
  cases i with
  | none =>
    rw [contentAt_none]
    refine Query.of_fact (φ := x = 0) (fun _ hh => hh.1.1) (fun hx => ?_)
    unfold ifaceIs
    rw [if_pos hx]
    exact Query.ret _
  | some i =>
    rw [contentAt_some]
    refine Query.right (Query.left ?_)
    rw [ifacesAt_one]
    refine Query.of_fact (fun h hh => ifaceAt_ne h hh) (fun hx => ?_)
    unfold ifaceIs ifaceAt
    rw [if_neg hx]
    refine Query.ex (fun u => ?_)
    qstep loadIface_query
    refine Query.right ?_
    obtain ⟨o, fns⟩ := i
    cases o with
    | none =>
      refine Query.of_fact (φ := u = 0) (fun _ hh => hh.1) (fun hu => ?_)
      unfold strIs
      rw [if_pos hu]
      exact Query.ret _
    | some s =>
      show Query (u ↦ .chars s) _ _
      refine Query.of_fact (fun h hh => pto_ne h hh) (fun hu => ?_)
      unfold strIs
      rw [if_neg hu]
      qstep Query.load
      qstep Query.lift rfl
      have e : GList.has_URI (⟨some ⟨some s, fns⟩, d⟩ : Generic D) t = decide (s = t) := by
        simp [GList.has_URI]
      rw [e]
      exact Query.ret _

theorem genFindLoop_finds {t : Str} : ∀ (f : Nat) (l : GList D) (p : Ptr), l.length ≤ f → Finds (glistAt O p l) (genFindLoop t f p) (fun y => O.opt y (GList.lookup l t))
  | f, [], p, _ => by
    have e : (if p = 0 then pure 0 else undef : M Ptr) = (if p = 0 then pure 0 else undef) := rfl
    refine Finds.of_fact (φ := p = 0) (fun _ hh => hh.1) (fun hp => ?_)
    subst hp
    have : Finds (glistAt O 0 ([] : GList D)) (pure 0) (fun y => O.opt y (GList.lookup ([] : GList D) t)) := by
      refine Finds.ret (fun h hh => sep_anything ?_)
      exact hh
    cases f <;> exact this
  | 0, a :: l, p, h => by simp at h
  | f + 1, g :: l, p, hf => by
    refine Finds.of_fact (fun _ hh => Chain.list_cons_ne hh) (fun hp => ?_)
    unfold genFindLoop
    rw [if_neg hp]
    show Finds ((genChain O).list p (g :: l)) _ _
    rw [Chain.list_cons]
    refine Finds.ex (fun n => ?_)
    refine Finds.bind ((generic_has_uri_query (t := t)).left) ?_
    by_cases hu : GList.has_URI g t = true
    · rw [if_pos hu]
      simp only [GList.lookup, if_pos hu]
      refine Finds.left ?_
      refine Finds.ex (fun x => Finds.ex (fun y => ?_))
      refine Finds.of_query (v := y) ((getField_query rfl).left) (fun h hh => ?_)
      obtain ⟨i, d⟩ := g
      cases i with
      | none =>
        rw [contentAt_none, sep_comm] at hh
        obtain ⟨⟨_, h2, h3⟩, _⟩ := pur_sep_iff.mp hh
        subst h2
        dsimp only at h3 ⊢
        subst h3
        exact pur_sep_iff.mpr ⟨rfl, trivial⟩
      | some i =>
        rw [contentAt_some] at hh
        dsimp only
        have : (O.opt y d ∗ (p ↦ .ptrs [x, y, n] ∗ pur (O.fits i.fns d) ∗ ifacesAt x [i])) h := hh.perm (by ac_rfl)
        exact sep_mono (fun _ h => h) (fun _ _ => trivial) this
    · rw [if_neg hu]
      simp only [GList.lookup, if_neg hu]
      have hn : Query (genAt O p g n ∗ (genChain O).list n l) (getField p 2) n := (gen_next p g n).left
      refine Finds.bind hn ?_
      exact (genFindLoop_finds f l n (by simpa using hf)).right

/-- C75: `osl_generic_lookup` (for a constant URI) only reads: it finds the data under this URI. -/
theorem generic_lookup_finds {t : Str} {l : GList D} {p : Ptr} : Finds (glistAt O p l) (genFind t p) (fun y => O.opt y (GList.lookup l t)) := by
  unfold genFind
  exact Finds.heapSize (Chain.seg_big (N := genChain O) l p 0) (fun f hf => genFindLoop_finds f l p hf)

/-- The `equal` functions of the interfaces in memory (specification): they only read, and answer as on values. -/
structure EqMem (O : DataMem D E) where
  equal : Nat → Ptr → Ptr → M Bool
  equal_query : ∀ {f : Nat} {p q : Ptr} {d e : Option D} {b : Bool}, E.equal f d e = .ok b → Query (O.opt p d ∗ O.opt q e) (equal f p q) b

variable {Q : EqMem O}

/-- One turn of the inner loop of `osl_generic_equal`, on values. -/
def genPair (E : Env D) (g g' : Generic D) : Out (Unit ⊕ Bool) :=
  match Ifaces.equal g.interface g'.interface with
  | .ok true => (match g.interface with | some i => E.equal i.fns.equal g.data g'.data | none => .ok false) >>= fun b => .ok (.inr b)
  | .ok false => .ok (.inl ())
  | .err => .err
  | .ub => .ub

theorem genEqualStep_query {x y n o : Ptr} {g g' : Generic D} {r : Unit ⊕ Bool}
    (h : genPair E g g' = .ok r) : Query (genAt O x g n ∗ genAt O y g' o) (genEqualStep Q.equal x y ()) r := by
  unfold genAt
  rw [ex_sep]; refine Query.ex (fun i1 => ?_)
  rw [ex_sep]; refine Query.ex (fun d1 => ?_)
  rw [sep_ex]; refine Query.ex (fun i2 => ?_)
  rw [sep_ex]; refine Query.ex (fun d2 => ?_)
  unfold genEqualStep
  qstep (getField_query (p := x) (i := 0) rfl)
  qstep (getField_query (p := y) (i := 0) rfl)
  obtain ⟨a, d⟩ := g
  obtain ⟨b, e⟩ := g'
  have ie : ∀ v, Ifaces.equal a b = .ok v →
      Query ((x ↦ .ptrs [i1, d1, n] ∗ contentAt O i1 d1 ⟨a, d⟩) ∗ y ↦ .ptrs [i2, d2, o] ∗ contentAt O i2 d2 ⟨b, e⟩) (ifaceEqual i1 i2) v := by
    intro v hv
    have hq := interface_equal_query (p := i1) (q := i2) (l := a.toList) (k := b.toList) (b := v) (by cases a <;> cases b <;> exact hv)
    refine hq.mono (fun h hh => ?_)
    have sub : ∀ (i dd : Ptr) (a : Option Iface) (d : Option D) (h : PHeap), contentAt O i dd ⟨a, d⟩ h → (ifacesAt i a.toList ∗ anything) h := by
      intro i dd a d h hh
      cases a with
      | none => exact pur_sep_iff.mpr ⟨hh.1.1, trivial⟩
      | some a =>
        rw [contentAt_some] at hh
        have : (ifacesAt i [a] ∗ (pur (O.fits a.fns d) ∗ O.opt dd d)) h := hh.perm (by ac_rfl)
        exact sep_mono (fun _ h => h) (fun _ _ => trivial) this
    have h1 : ((contentAt O i1 d1 ⟨a, d⟩ ∗ contentAt O i2 d2 ⟨b, e⟩) ∗ (x ↦ .ptrs [i1, d1, n] ∗ y ↦ .ptrs [i2, d2, o])) h := hh.perm (by ac_rfl)
    have h2 : (((ifacesAt i1 a.toList ∗ anything) ∗ (ifacesAt i2 b.toList ∗ anything)) ∗ anything) h :=
      sep_mono (fun _ hx => sep_mono (sub i1 d1 a d) (sub i2 d2 b e) hx) (fun _ _ => trivial) h1
    have h3 : ((ifacesAt i1 a.toList ∗ ifacesAt i2 b.toList) ∗ (anything ∗ anything ∗ anything)) h := h2.perm (by ac_rfl)
    exact sep_mono (fun _ h => h) (fun _ _ => trivial) h3
  simp only [genPair] at h
  cases hi : Ifaces.equal a b with
  | err => rw [hi] at h; cases h
  | ub => rw [hi] at h; cases h
  | ok v =>
    rw [hi] at h
    refine Query.bind (ie v hi) ?_
    cases v with
    | false =>
      cases h
      exact Query.ret _
    | true =>
      dsimp only at h
      rw [if_pos rfl]
      obtain ⟨w, hw, h⟩ := Out.bind_eq_ok.mp h
      cases h
      cases a with
      | none =>
        cases hw
        rw [contentAt_none]
        refine Query.of_fact (φ := i1 = 0) (fun _ hh => ?_) (fun hx => ?_)
        · obtain ⟨_, _, _, _, ⟨_, _, _, _, _, h2⟩, _⟩ := hh
          exact h2.1.1
        refine Query.bind (v := false) ?_ (Query.ret _)
        unfold genEqualData
        rw [if_pos hx]
        exact Query.ret _
      | some i =>
        cases b with
        | none => cases hi
        | some j =>
        dsimp only at hw
        refine Query.bind (v := w) ?_ (Query.ret _)
        rw [contentAt_some, contentAt_some]
        rw [show ((x ↦ .ptrs [i1, d1, n] ∗ pur (O.fits i.fns d) ∗ ifacesAt i1 [i] ∗ O.opt d1 d) ∗ y ↦ .ptrs [i2, d2, o] ∗ pur (O.fits j.fns e) ∗ ifacesAt i2 [j] ∗ O.opt d2 e) =
          ((O.opt d1 d ∗ O.opt d2 e) ∗ ifacesAt i1 [i] ∗ x ↦ .ptrs [i1, d1, n] ∗ y ↦ .ptrs [i2, d2, o] ∗ (pur (O.fits i.fns d) ∗ pur (O.fits j.fns e) ∗ ifacesAt i2 [j])) by ac_rfl]
        refine Query.of_fact (φ := i1 ≠ 0) (fun _ hh => ?_) (fun hx => ?_)
        · obtain ⟨_, _, _, _, _, ⟨_, _, _, _, h2, _⟩⟩ := hh
          exact Chain.list_cons_ne h2
        unfold genEqualData
        rw [if_neg hx, ifacesAt_one]
        unfold ifaceAt
        rw [show ∀ P Q : Assn, (P ∗ (ex fun u => i1 ↦ .iface u i.fns 0 ∗ uriAt u i.URI) ∗ Q) = (ex fun u => P ∗ (i1 ↦ .iface u i.fns 0 ∗ uriAt u i.URI) ∗ Q) by
          intro P Q; rw [ex_sep, sep_ex]]
        refine Query.ex (fun u => ?_)
        qstep (loadIface_query (p := i1))
        qstep (getField_query (p := x) (i := 1) rfl)
        qstep (getField_query (p := y) (i := 1) rfl)
        exact (Q.equal_query hw).left

theorem findEqual_until (g : Generic D) : ∀ l : GList D, GList.findEqual E g l =
    until_ (fun (g' : Generic D) (_ : List (Generic D)) (_ : Unit) => genPair E g g') (fun _ => false) l ()
  | [] => rfl
  | y :: l => by
    simp only [GList.findEqual, until_, genPair]
    cases Ifaces.equal g.interface y.interface with
    | err => rfl
    | ub => rfl
    | ok b =>
      cases b with
      | false => exact findEqual_until g l
      | true =>
        dsimp only
        cases hg : g.interface with
        | none => rfl
        | some i =>
          dsimp only
          cases E.equal i.fns.equal g.data y.data <;> rfl

theorem genFindEqual_query {x q n : Ptr} {g : Generic D} {k : GList D} {b : Bool} (h : GList.findEqual E g k = .ok b) :
    Query (glistAt O q k ∗ genAt O x g n) (genFindEqual Q.equal x q) b := by
  rw [findEqual_until] at h
  refine chase_near (N := genChain O) gen_next (fun y k l1 _ p s r hr => ?_) h
  rw [Chain.list_cons, ex_sep]
  refine Query.ex (fun o => ?_)
  show Query ((genAt O p y o ∗ (genChain O).list o k) ∗ genAt O x g n) _ _
  rw [show ((genAt O p y o ∗ (genChain O).list o k) ∗ genAt O x g n) = ((genAt O x g n ∗ genAt O p y o) ∗ (genChain O).list o k) by ac_rfl]
  exact (genEqualStep_query hr).left

theorem equalLoop_until (k : GList D) : ∀ l : GList D, GList.equalLoop E k l =
    until_ (fun (g : Generic D) (_ : List (Generic D)) (_ : Unit) => match GList.findEqual E g k with
      | .ok true => Out.ok (.inl ()) | .ok false => .ok (.inr false) | .err => .err | .ub => .ub) (fun _ => true) l ()
  | [] => rfl
  | g :: l => by
    simp only [GList.equalLoop, until_]
    cases GList.findEqual E g k with
    | err => rfl
    | ub => rfl
    | ok b =>
      cases b with
      | false => rfl
      | true => exact equalLoop_until k l

/-- C75: `osl_generic_equal` on two lists of generics only reads them. -/
theorem generic_equal_query {p q : Ptr} {l k : GList D} {b : Bool} (h : GList.equal E l k = .ok b) : Query (glistAt O p l ∗ glistAt O q k) (genEqual Q.equal p q) b := by
  unfold genEqual
  by_cases hpq : p = q
  · subst hpq
    rw [if_pos rfl]
    cases l with
    | nil =>
      refine Query.of_fact (φ := p = 0) (fun _ hh => ?_) (fun hp => ?_)
      · obtain ⟨_, _, _, _, h1, _⟩ := hh
        exact h1.1
      cases k with
      | nil =>
        cases h
        exact Query.ret _
      | cons y k =>
        refine Query.of_fact (φ := False) (fun _ hh => ?_) (fun hf => hf.elim)
        obtain ⟨_, _, _, _, _, h1⟩ := hh
        exact Chain.list_cons_ne h1 hp
    | cons x l =>
      refine Query.of_fact (φ := False) (fun h0 hh => ?_) (fun hf => hf.elim)
      cases k with
      | nil =>
        obtain ⟨_, _, _, _, h1, h2⟩ := hh
        exact Chain.list_cons_ne h1 h2.1
      | cons y k =>
        have hh : ((genChain O).list p (x :: l) ∗ (genChain O).list p (y :: k)) h0 := hh
        rw [Chain.list_cons, Chain.list_cons, ex_sep] at hh
        obtain ⟨n, hh⟩ := hh
        have hh := hh
        rw [sep_ex] at hh
        obtain ⟨o, hh⟩ := hh
        have : ((genChain O).at_ p x n ∗ (genChain O).at_ p y o ∗ ((genChain O).list n l ∗ (genChain O).list o k)) h0 := hh.perm (by ac_rfl)
        exact Chain.at_ne _ this rfl
  · rw [if_neg hpq]
    unfold genEqualLists
    unfold GList.equal GList.count at h
    qstep (generic_number_query (O := O) (p := p))
    qstep (generic_number_query (O := O) (p := q))
    by_cases hn : l.length = k.length
    · rw [if_neg (by omega)]
      rw [if_neg (by simp [hn]), equalLoop_until] at h
      refine chase_near (N := genChain O) gen_next (fun g k1 l1 _ p s r hr => ?_) h
      rw [Chain.list_cons, ex_sep]
      refine Query.ex (fun n => ?_)
      show Query ((genAt O p g n ∗ (genChain O).list n k1) ∗ glistAt O q k) _ _
      rw [show ((genAt O p g n ∗ (genChain O).list n k1) ∗ glistAt O q k) = ((glistAt O q k ∗ genAt O p g n) ∗ (genChain O).list n k1) by ac_rfl]
      refine Query.left ?_
      unfold genEqualTurn
      cases hf : GList.findEqual E g k with
      | err => rw [hf] at hr; cases hr
      | ub => rw [hf] at hr; cases hr
      | ok b =>
        rw [hf] at hr
        refine Query.bind (genFindEqual_query hf) ?_
        cases b <;> (cases hr; exact Query.ret _)
    · rw [if_pos (by omega)]
      rw [if_pos (by simp; omega)] at h
      cases h
      exact Query.ret _

/-- C75: `osl_generic_equal` of a list with itself. -/
theorem generic_equal_self_query {p : Ptr} {P : Assn} {eqf : Nat → Ptr → Ptr → M Bool} : Query P (genEqual eqf p p) true := by
  unfold genEqual
  rw [if_pos rfl]
  exact Query.ret _

end Osl.Mem
