import Verif.HeapGeneric
/-!
# Interfaces and generics in memory: theorems (C53)
-/

namespace Osl.Mem

/-! ## Assertions for interfaces (specification) -/

/-- The memory of a URI. -/
def uriAt (u : Ptr) : Option Str → Assn
  | none => pur (u = 0)
  | some w => u ↦ .chars w

/-- The memory of one interface, and its `next` pointer. -/
def ifaceAt (p : Ptr) (i : Iface) (n : Ptr) : Assn := ex fun u => p ↦ .iface u i.fns n ∗ uriAt u i.URI

theorem loadIface_spec {p u n : Ptr} {f : Fns} : Triple (p ↦ .iface u f n) (loadIface p) (fun r => pur (r = ⟨u, f, n⟩) ∗ p ↦ .iface u f n) := by
  unfold loadIface
  refine Triple.loadStep (F := emp) (by rw [sep_emp]) ?_
  exact Triple.liftLast rfl

theorem ifaceAt_ne {p n : Ptr} {i : Iface} : ∀ h, ifaceAt p i n h → p ≠ 0 := by
  rintro h ⟨u, hh⟩
  exact pto_ne_sep h hh

/-- The chain of the nodes of an interface list. -/
def ifaceChain : Chain Iface where
  toNext := ifaceNext
  at_ := ifaceAt
  nonnull := fun h => ifaceAt_ne _ h
  own := by
    rintro p a n h ⟨u, hh⟩
    exact own_pto hh
  big := fun p e n => Big.ex (fun x => (Big.pto _ _).sep (Big.zero _))
  get_spec := by
    intro p i n
    refine Triple.exi (fun u => ?_)
    refine Triple.stepEq (F := uriAt u i.URI) loadIface_spec rfl ?_
    exact Triple.ret (fun h hh => pur_sep_iff.mpr ⟨rfl, u, hh⟩)
  set_spec := by
    intro p i n n'
    refine Triple.exi (fun u => ?_)
    refine Triple.stepEq (F := uriAt u i.URI) loadIface_spec rfl ?_
    exact Triple.last (F := uriAt u i.URI) (Triple.store p _ _) rfl (fun _ h hh => ⟨u, hh⟩)

/-- The memory of an interface list. -/
def ifacesAt (p : Ptr) (l : Ifaces) : Assn := ifaceChain.list p l

theorem ifacesAt_one {p : Ptr} {i : Iface} : ifacesAt p [i] = ifaceAt p i 0 := Chain.list_one

/-! ## Deallocation, count -/

theorem freeUri_spec {u : Ptr} {o : Option Str} : Triple (uriAt u o) (freeUri u) (fun _ => emp) := by
  unfold freeUri
  cases o with
  | none =>
    refine Triple.of_fact (φ := u = 0) (fun h hh => hh.1) (fun hu => ?_)
    rw [if_neg (by simp [hu])]
    exact Triple.ret (fun h hh => hh.2)
  | some w =>
    refine Triple.of_fact (P := u ↦ .chars w) pto_ne (fun hu => ?_)
    rw [if_pos hu]
    exact Triple.free u _

theorem ifaceFreeStep_spec (p : Ptr) (i : Iface) (n : Ptr) : Triple (ifaceAt p i n) (ifaceFreeStep p) (fun r => pur (r = n)) := by
  unfold ifaceFreeStep
  refine Triple.exi (fun u => ?_)
  refine Triple.stepEq (F := uriAt u i.URI) loadIface_spec rfl ?_
  refine Triple.step (F := p ↦ .iface u i.fns n) (freeUri_spec (o := i.URI)) (by ac_rfl) (fun _ => ?_)
  rw [emp_sep]
  refine Triple.bind (Triple.free p _) (fun _ => ?_)
  exact Triple.ret (fun h hh => ⟨rfl, hh⟩)

/-- C53: `osl_interface_free` frees the nodes of the list and their URIs, and nothing else. -/
theorem interface_free_memory (p : Ptr) (l : Ifaces) : Triple (ifacesAt p l) (ifaceFree p) (fun _ => emp) :=
  Chain.freeAll_spec (N := ifaceChain) ifaceFreeStep_spec l p

/-- C53: `osl_interface_number` only reads. -/
theorem interface_number_memory (p : Ptr) (l : Ifaces) : Triple (ifacesAt p l) (ifaceNumber p) (fun n => pur ((n : Int) = Ifaces.number l) ∗ ifacesAt p l) := by
  refine (Chain.countAll_spec (N := ifaceChain) l p).post (fun n h hh => ?_)
  obtain ⟨e, hh⟩ := pur_sep_iff.mp hh
  exact pur_sep_iff.mpr ⟨by subst e; rfl, hh⟩

/-! ## Search -/

theorem strEq_spec {a b : Ptr} {s t : Str} : Triple (a ↦ .chars s ∗ b ↦ .chars t) (strEq a b) (fun r => pur (r = decide (s = t)) ∗ a ↦ .chars s ∗ b ↦ .chars t) := by
  unfold strEq
  refine Triple.loadStep (F := b ↦ .chars t) rfl ?_
  refine Triple.liftStep (a := s) rfl ?_
  refine Triple.loadStep (F := a ↦ .chars s) (by ac_rfl) ?_
  refine Triple.liftStep (a := t) rfl ?_
  exact Triple.ret (fun h hh => pur_sep_iff.mpr ⟨rfl, hh⟩)

theorem uriEq_spec {u v : Ptr} {o : Option Str} {t : Str} :
    Triple (uriAt u o ∗ v ↦ .chars t) (uriEq u v) (fun r => pur (r = decide (o = some t)) ∗ uriAt u o ∗ v ↦ .chars t) := by
  unfold uriEq
  cases o with
  | none =>
    refine Triple.fact (fun hu => ?_)
    rw [if_neg (by simp [hu])]
    refine Triple.ret (fun h hh => pur_sep_iff.mpr ⟨by simp, ?_⟩)
    exact pur_sep_iff.mpr ⟨hu, hh⟩
  | some w =>
    refine Triple.of_fact (P := u ↦ .chars w ∗ v ↦ .chars t) pto_ne_sep (fun hu => ?_)
    rw [if_pos hu]
    refine strEq_spec.post (fun r h hh => ?_)
    obtain ⟨e, hh⟩ := pur_sep_iff.mp hh
    exact pur_sep_iff.mpr ⟨by rw [e]; simp, hh⟩

theorem ifaceTest_spec {v : Ptr} {t : Str} (p : Ptr) (i : Iface) (n : Ptr) :
    Triple (ifaceAt p i n ∗ v ↦ .chars t) (ifaceTest v p) (fun r => pur (r = decide (i.URI = some t)) ∗ ifaceAt p i n ∗ v ↦ .chars t) := by
  unfold ifaceTest
  have e : (ifaceAt p i n ∗ v ↦ .chars t) = ex fun u => p ↦ .iface u i.fns n ∗ uriAt u i.URI ∗ v ↦ .chars t := by
    show (ex fun u => p ↦ .iface u i.fns n ∗ uriAt u i.URI) ∗ _ = _
    rw [ex_sep]
    congr 1; funext u; ac_rfl
  rw [e]
  refine Triple.exi (fun u => ?_)
  refine Triple.stepEq (F := uriAt u i.URI ∗ v ↦ .chars t) loadIface_spec rfl ?_
  refine Triple.last (F := p ↦ .iface u i.fns n) (uriEq_spec (u := u) (o := i.URI) (t := t)) (by ac_rfl) (fun r h hh => ?_)
  rw [sep_assoc] at hh
  obtain ⟨hr, hh⟩ := pur_sep_iff.mp hh
  exact pur_sep_iff.mpr ⟨hr, u, hh.perm (by ac_rfl)⟩

/-- The property looked for. -/
def hasName (t : Str) (i : Iface) : Bool := decide (i.URI = some t)

theorem lookup_split (t : Str) : ∀ l : Ifaces, Ifaces.lookup l (some t) = (Chain.splitFirst (hasName t) l).map (·.2.1)
  | [] => rfl
  | i :: l => by
    simp only [Ifaces.lookup, Chain.splitFirst, hasName, decide_eq_true_eq]
    split
    · rfl
    · rw [lookup_split t l, Option.map_map]
      rfl

/-- C53: `osl_interface_lookup` only reads; it gives the first node with the URI, which stays in the list, or NULL. -/
theorem interface_lookup_memory (p v : Ptr) (l : Ifaces) (t : Str) :
    Triple (ifacesAt p l ∗ v ↦ .chars t) (ifaceLookup p v) (fun q => ifaceChain.found (hasName t) p l q ∗ v ↦ .chars t) := by
  unfold ifaceLookup
  refine Triple.of_fact (φ := v ≠ 0) ?_ (fun hv => ?_)
  · rintro h ⟨_, _, _, _, _, hh⟩
    exact hh.1
  rw [if_neg hv]
  exact Chain.findNode_spec (N := ifaceChain) (t := hasName t) ifaceTest_spec l p

/-- C53: a lookup changes nothing, and gives NULL exactly when the URI is unknown. -/
theorem interface_lookup_null (p v : Ptr) (l : Ifaces) (t : Str) :
    Triple (ifacesAt p l ∗ v ↦ .chars t) (ifaceLookup p v) (fun q => pur (q = 0 ↔ Ifaces.lookup l (some t) = none) ∗ ifacesAt p l ∗ v ↦ .chars t) := by
  refine (interface_lookup_memory p v l t).post (fun q h hh => ?_)
  refine pur_sep_iff.mpr ⟨?_, sep_mono Chain.found_list (fun _ h => h) hh⟩
  obtain ⟨_, _, _, _, hf, _⟩ := hh
  rw [lookup_split, Chain.found_null _ hf]
  cases Chain.splitFirst (hasName t) l <;> simp

/-! ## Addition -/

theorem checkLoop_ok {list : Ifaces} : ∀ {l : Ifaces}, Ifaces.checkLoop list l = .ok () → ∀ i ∈ l, ∃ u, i.URI = some u ∧ Ifaces.lookup list (some u) = none
  | [], _, _, h => by simp at h
  | j :: l, hc, i, hi => by
    simp only [Ifaces.checkLoop] at hc
    split at hc
    · cases hc
    · rename_i h1
      split at hc
      · cases hc
      · rename_i h2
        rcases List.mem_cons.mp hi with rfl | hi
        · cases hu : i.URI with
          | none => exact absurd hu h1
          | some u =>
            rw [hu] at h2
            refine ⟨u, rfl, ?_⟩
            cases hl : Ifaces.lookup list (some u) with
            | none => rfl
            | some x => exact absurd (by rw [hl]; simp) h2
        · exact checkLoop_ok hc i hi

theorem ifaceUnknown_spec {p v : Ptr} {l : Ifaces} {t : Str} (h : Ifaces.lookup l (some t) = none) :
    Triple (ifacesAt p l ∗ v ↦ .chars t) (ifaceUnknown p v) (fun _ => ifacesAt p l ∗ v ↦ .chars t) := by
  unfold ifaceUnknown
  refine Triple.bind (interface_lookup_null p v l t) (fun q => Triple.fact (fun hq => ?_))
  rw [if_neg (by simp [hq.mpr h])]
  exact Triple.ret (fun h hh => hh)

theorem ifaceCheck_spec {list : Ptr} {l : Ifaces} (p : Ptr) (i : Iface) (n : Ptr) (hi : ∃ u, i.URI = some u ∧ Ifaces.lookup l (some u) = none) :
    Triple (ifaceAt p i n ∗ ifacesAt list l) (ifaceCheck list p) (fun _ => ifaceAt p i n ∗ ifacesAt list l) := by
  obtain ⟨w, hw, hl⟩ := hi
  unfold ifaceCheck
  have e : (ifaceAt p i n ∗ ifacesAt list l) = ex fun u => p ↦ .iface u i.fns n ∗ u ↦ .chars w ∗ ifacesAt list l := by
    show (ex fun u => p ↦ .iface u i.fns n ∗ uriAt u i.URI) ∗ _ = _
    rw [ex_sep, hw]
    congr 1; funext u; show (_ ∗ u ↦ .chars w) ∗ _ = _; ac_rfl
  rw [e]
  refine Triple.exi (fun u => ?_)
  refine Triple.stepEq (F := u ↦ .chars w ∗ ifacesAt list l) loadIface_spec rfl ?_
  refine Triple.of_fact (φ := u ≠ 0) ?_ (fun hu => ?_)
  · rintro h ⟨_, _, _, _, _, ⟨_, _, _, _, hh, _⟩⟩
    exact hh.1
  rw [if_neg (show ¬((⟨u, i.fns, n⟩ : IfaceRec).uri = 0) from hu)]
  refine Triple.last (F := p ↦ .iface u i.fns n) (ifaceUnknown_spec (p := list) (v := u) hl) (by ac_rfl) (fun _ h hh => ⟨u, hh.perm (by ac_rfl)⟩)

theorem ifacesAt_cons_ne {p : Ptr} {i : Iface} {l : Ifaces} {F : Assn} : ∀ h, (F ∗ ifacesAt p (i :: l)) h → p ≠ 0 := by
  rintro h ⟨_, _, _, _, _, hh⟩
  exact Chain.list_cons_ne hh

/-- C53: `osl_interface_add` links the second list, without a copy, after the first one. -/
theorem interface_add_memory {l1 l2 l : Ifaces} (h : Ifaces.add l1 l2 = .ok l) (p1 p2 : Ptr) :
    Triple (ifacesAt p1 l1 ∗ ifacesAt p2 l2) (ifaceAdd p1 p2) (fun q => ifacesAt q l) := by
  obtain ⟨u, hc, h⟩ := Out.bind_eq_ok.mp h
  cases u
  injection h with h
  subst h
  unfold ifaceAdd
  cases l2 with
  | nil =>
    have e : (ifacesAt p1 l1 ∗ ifacesAt p2 []) = (pur (p2 = 0) ∗ ifacesAt p1 l1) := by
      show _ ∗ pur (p2 = 0) = _
      ac_rfl
    rw [e]
    refine Triple.fact (fun hp => ?_)
    rw [if_neg (by simp [hp]), List.append_nil]
    exact Triple.ret (fun h hh => hh)
  | cons i l2 =>
    refine Triple.of_fact ifacesAt_cons_ne (fun hp => ?_)
    rw [if_pos hp]
    have := Chain.eachNode_spec (N := ifaceChain) (g := id) (X := ifacesAt p1 l1) (ok := fun i => ∃ u, i.URI = some u ∧ Ifaces.lookup l1 (some u) = none)
      (act := ifaceCheck p1) ifaceCheck_spec (i :: l2) (checkLoop_ok hc) p2
    rw [List.map_id] at this
    refine Triple.step (F := emp) this (by rw [sep_emp]; exact sep_comm _ _) (fun _ => ?_)
    rw [sep_emp, sep_comm]
    exact Chain.append_spec (N := ifaceChain) l1 (i :: l2) p1 p2

/-! ## Copies -/

theorem setIface_spec {p u n u' : Ptr} {f f' : Fns} : Triple (p ↦ .iface u f n) (setIface p u' f') (fun _ => p ↦ .iface u' f' n) := by
  unfold setIface
  refine Triple.stepEq (F := emp) loadIface_spec (by rw [sep_emp]) ?_
  exact Triple.store p _ _

theorem uriDup_spec [Allocator] {u : Ptr} {o : Option Str} : Triple (uriAt u o) (hStrdup u) (fun d => uriAt u o ∗ uriAt d o) := by
  cases o with
  | none =>
    refine Triple.of_fact (φ := u = 0) (fun h hh => hh.1) (fun hu => ?_)
    unfold hStrdup
    rw [if_neg (by simp [hu])]
    refine Triple.ret (fun h hh => ?_)
    show (uriAt u none ∗ pur ((0 : Ptr) = 0)) h
    rw [pur_true rfl, sep_emp]
    exact hh
  | some w => exact hStrdup_spec

theorem ifaceCopy_spec [Allocator] (p : Ptr) (i : Iface) (n : Ptr) : Triple (ifaceAt p i n) (ifaceCopy p) (fun q => ifaceAt p i n ∗ ifaceAt q i 0) := by
  unfold ifaceCopy ifaceMalloc
  refine Triple.exi (fun u => ?_)
  refine Triple.step (P := emp) (Triple.alloc _) (by rw [emp_sep]) (fun q => ?_)
  refine Triple.stepEq (F := q ↦ .iface 0 nullFns 0 ∗ uriAt u i.URI) (loadIface_spec (p := p)) (by ac_rfl) ?_
  refine Triple.step (F := q ↦ .iface 0 nullFns 0 ∗ p ↦ .iface u i.fns n) (uriDup_spec (u := u) (o := i.URI)) (by ac_rfl) (fun d => ?_)
  refine Triple.step (F := (uriAt u i.URI ∗ uriAt d i.URI) ∗ p ↦ .iface u i.fns n) (setIface_spec (p := q)) (by ac_rfl) (fun _ => ?_)
  refine Triple.ret (fun h hh => ?_)
  have hh' : ((p ↦ .iface u i.fns n ∗ uriAt u i.URI) ∗ q ↦ .iface d i.fns 0 ∗ uriAt d i.URI) h := hh.perm (by ac_rfl)
  exact sep_mono (fun h hh => ⟨u, hh⟩) (fun h hh => ⟨d, hh⟩) hh'

theorem ifaceNcloneLoop_spec [Allocator] : ∀ (fuel : Nat) (n : Option Nat) (l acc l' l0 : Ifaces) (p p0 c : Ptr), l.length ≤ fuel →
    Ifaces.ncloneLoop n l acc = .ok l' →
    Triple (ifaceChain.seg p0 l0 p ∗ ifacesAt p l ∗ ifacesAt c acc) (ifaceNcloneLoop fuel n p c) (fun q => ifacesAt p0 (l0 ++ l) ∗ ifacesAt q l') := by
  have fin : ∀ (fuel : Nat) (n : Option Nat) (acc l' l0 : Ifaces) (p p0 c : Ptr), Ifaces.ncloneLoop n [] acc = .ok l' →
      Triple (ifaceChain.seg p0 l0 p ∗ ifacesAt p [] ∗ ifacesAt c acc) (ifaceNcloneLoop fuel n p c) (fun q => ifacesAt p0 (l0 ++ []) ∗ ifacesAt q l') := by
    intro fuel n acc l' l0 p p0 c h
    have e0 : Ifaces.ncloneLoop n [] acc = .ok acc := by unfold Ifaces.ncloneLoop; rfl
    rw [e0] at h
    injection h with h
    subst h
    have e : (ifaceChain.seg p0 l0 p ∗ ifacesAt p [] ∗ ifacesAt c acc) = (pur (p = 0) ∗ ifaceChain.seg p0 l0 p ∗ ifacesAt c acc) := by
      show _ ∗ pur (p = 0) ∗ _ = _
      ac_rfl
    rw [e]
    refine Triple.fact (fun hp => ?_)
    have e2 : ifaceNcloneLoop fuel n p c = pure c := by cases fuel <;> simp [ifaceNcloneLoop, hp]
    rw [e2, hp, List.append_nil]
    exact Triple.ret (fun h hh => hh)
  intro fuel
  induction fuel with
  | zero =>
    intro n l acc l' l0 p p0 c hl h
    have : l = [] := List.length_eq_zero_iff.mp (by omega)
    subst this
    exact fin 0 n acc l' l0 p p0 c h
  | succ fuel ih =>
    intro n l acc l' l0 p p0 c hl h
    cases l with
    | nil => exact fin _ n acc l' l0 p p0 c h
    | cons i l =>
      unfold ifaceNcloneLoop
      by_cases hn : n = some 0
      · subst hn
        have e0 : Ifaces.ncloneLoop (some 0) (i :: l) acc = .ok acc := by unfold Ifaces.ncloneLoop; rfl
        rw [e0] at h
        injection h with h
        subst h
        rw [if_pos (Or.inr rfl)]
        refine Triple.ret (fun h hh => ?_)
        rw [← sep_assoc] at hh
        exact sep_mono Chain.seg_append (fun _ h => h) hh
      · have e0 : Ifaces.ncloneLoop n (i :: l) acc = (Ifaces.add acc [i] >>= fun a => Ifaces.ncloneLoop (n.map (· - 1)) l a) := by
          rw [Ifaces.ncloneLoop.eq_def]
          cases n with
          | none => rfl
          | some k => cases k with
            | zero => exact absurd rfl hn
            | succ k => rfl
        rw [e0] at h
        obtain ⟨acc', ha, h⟩ := Out.bind_eq_ok.mp h
        refine Triple.of_fact (φ := p ≠ 0) ?_ (fun hp => ?_)
        · rintro h ⟨_, _, _, _, _, ⟨_, _, _, _, hh, _⟩⟩
          exact Chain.list_cons_ne hh
        rw [if_neg (by simp [hp, hn])]
        have e : (ifaceChain.seg p0 l0 p ∗ ifacesAt p (i :: l) ∗ ifacesAt c acc) =
            ex fun k => ifaceAt p i k ∗ ifaceChain.seg p0 l0 p ∗ ifacesAt k l ∗ ifacesAt c acc := by
          show _ ∗ (ex fun k => ifaceAt p i k ∗ ifacesAt k l) ∗ _ = _
          rw [ex_sep, sep_ex]
          congr 1; funext k; ac_rfl
        rw [e]
        refine Triple.exi (fun k => ?_)
        refine Triple.step (ifaceCopy_spec p i k) rfl (fun q => ?_)
        rw [← ifacesAt_one (p := q)]
        refine Triple.step (F := ifaceAt p i k ∗ ifaceChain.seg p0 l0 p ∗ ifacesAt k l) (interface_add_memory ha c q) (by ac_rfl) (fun c' => ?_)
        refine Triple.stepEq (F := ifacesAt c' acc' ∗ ifaceChain.seg p0 l0 p ∗ ifacesAt k l) (ifaceChain.get_spec p i k) (by show _ = ifaceAt p i k ∗ _; ac_rfl) ?_
        have := ih (n.map (· - 1)) l acc' l' (l0 ++ [i]) k p0 c' (by simpa using hl) h
        rw [List.append_assoc] at this
        refine this.pre (fun h hh => ?_)
        have hh' : ((ifaceChain.seg p0 l0 p ∗ ifaceAt p i k) ∗ ifacesAt k l ∗ ifacesAt c' acc') h := hh.perm (by ac_rfl)
        exact sep_mono (Chain.seg_at (N := ifaceChain)) (fun _ h => h) hh'

/-- C53: the copies of interfaces are in new memory. -/
theorem interface_nclone_memory [Allocator] {l l' : Ifaces} {n : Int} (h : Ifaces.nclone l n = .ok l') (p : Ptr) :
    Triple (ifacesAt p l) (ifaceNclone p n) (fun q => ifacesAt p l ∗ ifacesAt q l') := by
  unfold ifaceNclone
  refine Triple.bind (Triple.heapSize (Chain.seg_big (N := ifaceChain) l p 0)) (fun fuel => Triple.fact (fun hf => ?_))
  have := ifaceNcloneLoop_spec fuel _ l [] l' [] p p 0 hf h
  refine this.pre (fun h hh => pur_sep_iff.mpr ⟨rfl, ?_⟩)
  show (ifacesAt p l ∗ pur ((0 : Ptr) = 0)) h
  rw [pur_true rfl, sep_emp]
  exact hh

/-- C53: also for `osl_interface_clone`. -/
theorem interface_clone_memory [Allocator] {l l' : Ifaces} (h : Ifaces.clone l = .ok l') (p : Ptr) :
    Triple (ifacesAt p l) (ifaceClone p) (fun q => ifacesAt p l ∗ ifacesAt q l') := interface_nclone_memory h p

/-! ## Comparison -/

/-- C53: `osl_interface_equal` on two nodes of separate lists only reads. -/
theorem interface_equal_memory {i j : Iface} {b : Bool} (h : Ifaces.equal (some i) (some j) = .ok b) (p q m n : Ptr) :
    Triple (ifaceAt p i m ∗ ifaceAt q j n) (ifaceEqual p q) (fun r => pur (r = b) ∗ ifaceAt p i m ∗ ifaceAt q j n) := by
  obtain ⟨iu, fi⟩ := i
  obtain ⟨ju, fj⟩ := j
  cases iu with
  | none => cases h
  | some s =>
  cases ju with
  | none => cases h
  | some t =>
  injection h with h
  unfold ifaceEqual
  have e : (ifaceAt p ⟨some s, fi⟩ m ∗ ifaceAt q ⟨some t, fj⟩ n) =
      ex fun u => ex fun v => (p ↦ .iface u fi m ∗ u ↦ .chars s) ∗ q ↦ .iface v fj n ∗ v ↦ .chars t := by
    show (ex fun u => p ↦ .iface u fi m ∗ u ↦ .chars s) ∗ (ex fun v => q ↦ .iface v fj n ∗ v ↦ .chars t) = _
    rw [ex_sep]
    congr 1; funext u
    rw [sep_ex]
  refine Triple.of_fact (φ := p ≠ q ∧ p ≠ 0 ∧ q ≠ 0) ?_ (fun hpq => ?_)
  · intro h hh
    have := hh
    rw [← sep_emp (ifaceAt q _ n)] at this
    refine ⟨Chain.at_ne (N := ifaceChain) h this, ?_⟩
    obtain ⟨_, _, _, _, h1, h2⟩ := hh
    exact ⟨ifaceAt_ne _ h1, ifaceAt_ne _ h2⟩
  rw [if_neg hpq.1, if_neg (by simp [hpq.2]), e]
  refine Triple.exi (fun u => Triple.exi (fun v => ?_))
  unfold ifaceEqualNodes
  refine Triple.stepEq (F := u ↦ .chars s ∗ q ↦ .iface v fj n ∗ v ↦ .chars t) (loadIface_spec (p := p)) (by ac_rfl) ?_
  refine Triple.stepEq (F := (p ↦ .iface u fi m ∗ u ↦ .chars s) ∗ v ↦ .chars t) (loadIface_spec (p := q)) (by ac_rfl) ?_
  refine Triple.stepEq (F := p ↦ .iface u fi m ∗ q ↦ .iface v fj n) (strEq_spec (a := u) (b := v)) (by ac_rfl) ?_
  exact Triple.ret (fun h hh => pur_sep_iff.mpr ⟨‹_ = b›, u, v, hh⟩)

/-! ## The registry -/

theorem ifaceMake_spec [Allocator] {k : Nat} {u : String} : Triple emp (ifaceMake k u.toList) (fun q => ifacesAt q [Ifaces.mk k u]) := by
  unfold ifaceMake ifaceMalloc
  refine Triple.bind (Triple.alloc _) (fun q => ?_)
  refine Triple.step (P := emp) (Triple.alloc _) (by rw [emp_sep]) (fun w => ?_)
  refine Triple.step (F := w ↦ .chars u.toList) (setIface_spec (p := q)) (by ac_rfl) (fun _ => ?_)
  refine Triple.ret (fun h hh => ?_)
  rw [ifacesAt_one]
  exact ⟨w, hh⟩

theorem ifaceAddAll_spec [Allocator] : ∀ (us : List String) (k : Nat) (l l' : Ifaces) (p : Ptr), Ifaces.addAll (Ifaces.numbered k us) l = .ok l' →
    Triple (ifacesAt p l) (ifaceAddAll k us p) (fun q => ifacesAt q l')
  | [], k, l, l', p, h => by
    injection h with h
    subst h
    exact Triple.ret (fun h hh => hh)
  | u :: us, k, l, l', p, h => by
    obtain ⟨l2, h1, h⟩ := Out.bind_eq_ok.mp h
    unfold ifaceAddAll
    refine Triple.step (P := emp) (ifaceMake_spec (k := k) (u := u)) (by rw [emp_sep]) (fun q => ?_)
    rw [sep_comm]
    refine Triple.bind (interface_add_memory h1 p q) (fun r => ?_)
    exact ifaceAddAll_spec us (k + 1) l2 l' r h

/-- C53: the default registry is made of new nodes. -/
theorem default_registry_memory [Allocator] {l : Ifaces} (h : Ifaces.get_default_registry = .ok l) : Triple emp ifaceDefault (fun p => ifacesAt p l) := by
  have := ifaceAddAll_spec Ifaces.defaultURIs 0 [] l 0 h
  refine this.pre (fun h hh => ?_)
  exact ⟨rfl, hh⟩

end Osl.Mem
