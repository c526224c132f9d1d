import Verif.HeapGenericProps
/-!
# Generics in memory: theorems (C53)
-/

namespace Osl.Mem

variable {D : Type}

/-- The memory of a pointer to data, NULL for `none`. -/
def optAt (f : Ptr → D → Assn) (p : Ptr) : Option D → Assn
  | none => pur (p = 0)
  | some d => f p d

/-- The memory of the data of the interfaces (specification): where a value is, and what `free` and `clone` do, for the data which are of
the kind the functions stand for (`fits`). -/
structure DataMem [Allocator] (D : Type) (E : Env D) extends DataFns where
  at_ : Ptr → D → Assn
  nonnull : ∀ {p d h}, at_ p d h → p ≠ 0
  fits : Fns → Option D → Prop
  fits_clone : ∀ {f d d'}, fits f d → E.clone f.clone d = .ok d' → fits f d'
  free_opt : ∀ {f p d}, fits f d → Triple (optAt at_ p d) (free f.free p) (fun _ => emp)
  clone_opt : ∀ {f p d d'}, fits f d → E.clone f.clone d = .ok d' → Triple (optAt at_ p d) (clone f.clone p) (fun q => optAt at_ p d ∗ optAt at_ q d')

variable [Allocator] {E : Env D} {O : DataMem D E}

namespace DataMem

/-- The memory of the data field of a generic. -/
def opt (O : DataMem D E) : Ptr → Option D → Assn := optAt O.at_

theorem opt_null {p : Ptr} {d : Option D} : ∀ h, O.opt p d h → (p = 0 ↔ d = none) := by
  intro h hh
  cases d with
  | none => simp [hh.1]
  | some d => simp [O.nonnull hh]

end DataMem

/-- The memory of the interface and the data of a generic.  A generic without interface has no data here: `osl_generic_free` cannot free the data
of an unregistered generic properly (it calls `free` on it, source/generic.c:477-480). -/
def contentAt (O : DataMem D E) (x y : Ptr) (g : Generic D) : Assn :=
  match g.interface with
  | none => pur (x = 0 ∧ y = 0 ∧ g.data = none)
  | some i => pur (O.fits i.fns g.data) ∗ ifacesAt x [i] ∗ O.opt y g.data

/-- The memory of one generic, with its `next` pointer. -/
def genAt (O : DataMem D E) (p : Ptr) (g : Generic D) (n : Ptr) : Assn := ex fun x => ex fun y => p ↦ .ptrs [x, y, n] ∗ contentAt O x y g

theorem genAt_ne {p n : Ptr} {g : Generic D} : ∀ h, genAt O p g n h → p ≠ 0 := by
  rintro h ⟨x, y, hh⟩
  exact pto_ne_sep h hh

/-- The chain of the nodes of a list of generics. -/
def genChain (O : DataMem D E) : Chain (Generic D) where
  toNext := genNext
  at_ := genAt O
  nonnull := fun h => genAt_ne _ h
  own := by
    rintro p a n h ⟨x, y, hh⟩
    exact own_pto hh
  big := fun p e n => Big.ex (fun x => Big.ex (fun y => (Big.pto _ _).sep (Big.zero _)))
  get_spec := by
    intro p g n
    refine Triple.exi (fun x => Triple.exi (fun y => ?_))
    refine Triple.last (F := contentAt O x y g) (getField_spec (l := [x, y, n]) (x := n) rfl) rfl (fun r h hh => ?_)
    rw [sep_assoc] at hh
    obtain ⟨hr, hh⟩ := pur_sep_iff.mp hh
    exact pur_sep_iff.mpr ⟨hr, x, y, hh⟩
  set_spec := by
    intro p g n n'
    refine Triple.exi (fun x => Triple.exi (fun y => ?_))
    exact Triple.last (F := contentAt O x y g) (setField_spec (l' := [x, y, n']) rfl) rfl (fun _ h hh => ⟨x, y, hh⟩)

/-- The memory of a list of generics. -/
def glistAt (O : DataMem D E) (p : Ptr) (l : GList D) : Assn := (genChain O).list p l

theorem glistAt_one {p : Ptr} {g : Generic D} : glistAt O p [g] = genAt O p g 0 := Chain.list_one

/-! ## Deallocation, count -/

theorem contentAt_none {x y : Ptr} {d : Option D} : contentAt O x y ⟨none, d⟩ = pur (x = 0 ∧ y = 0 ∧ d = none) := rfl

theorem contentAt_some {x y : Ptr} {i : Iface} {d : Option D} : contentAt O x y ⟨some i, d⟩ = (pur (O.fits i.fns d) ∗ ifacesAt x [i] ∗ O.opt y d) := rfl

omit [Allocator] in
theorem ifacesAt_one_ne {x : Ptr} {i : Iface} {F : Assn} : ∀ h, (ifacesAt x [i] ∗ F) h → x ≠ 0 := by
  rintro h ⟨_, _, _, _, hh, _⟩
  exact Chain.list_cons_ne hh

omit [Allocator] in
theorem ifaceFns_spec {x : Ptr} {i : Iface} : ∀ {β : Type} {k : IfaceRec → M β} {F : Assn} {Q : β → Assn},
    (∀ u, Triple (ifacesAt x [i] ∗ F) (k ⟨u, i.fns, 0⟩) Q) → Triple (ifacesAt x [i] ∗ F) (loadIface x >>= k) Q := by
  intro β k F Q hk
  have e : (ifacesAt x [i] ∗ F) = ex fun u => x ↦ .iface u i.fns 0 ∗ uriAt u i.URI ∗ F := by
    rw [ifacesAt_one]
    show (ex fun u => x ↦ .iface u i.fns 0 ∗ uriAt u i.URI) ∗ F = _
    rw [ex_sep]
    congr 1; funext u; ac_rfl
  rw [e]
  refine Triple.exi (fun u => ?_)
  refine Triple.stepEq (F := uriAt u i.URI ∗ F) (loadIface_spec (p := x)) rfl ?_
  refine (hk u).pre (fun h hh => ?_)
  rw [e]
  exact ⟨u, hh⟩

theorem genFreeContent_spec {x y : Ptr} {g : Generic D} : Triple (contentAt O x y g) (genFreeContent O.toDataFns x y) (fun _ => emp) := by
  obtain ⟨i, d⟩ := g
  unfold genFreeContent
  cases i with
  | none =>
    rw [contentAt_none]
    refine Triple.of_fact (φ := x = 0 ∧ y = 0) (fun h hh => ⟨hh.1.1, hh.1.2.1⟩) (fun hx => ?_)
    rw [if_neg (by simp [hx.1])]
    unfold genFreeRaw
    rw [if_neg (by simp [hx.2])]
    exact Triple.ret (fun h hh => hh.2)
  | some i =>
    rw [contentAt_some]
    refine Triple.fact (fun hf => ?_)
    refine Triple.of_fact ifacesAt_one_ne (fun hx => ?_)
    rw [if_pos hx]
    refine ifaceFns_spec (fun u => ?_)
    refine Triple.step (F := ifacesAt x [i]) (O.free_opt (p := y) hf) (by ac_rfl) (fun _ => ?_)
    rw [emp_sep]
    exact interface_free_memory x [i]

theorem genFreeStep_spec (p : Ptr) (g : Generic D) (n : Ptr) : Triple (genAt O p g n) (genFreeStep O.toDataFns p) (fun r => pur (r = n)) := by
  unfold genFreeStep
  refine Triple.exi (fun x => Triple.exi (fun y => ?_))
  refine Triple.stepEq (F := contentAt O x y g) (getField_spec (l := [x, y, n]) (x := n) rfl) rfl ?_
  refine Triple.stepEq (F := contentAt O x y g) (getField_spec (l := [x, y, n]) (x := x) rfl) rfl ?_
  refine Triple.stepEq (F := contentAt O x y g) (getField_spec (l := [x, y, n]) (x := y) rfl) rfl ?_
  refine Triple.step (F := p ↦ .ptrs [x, y, n]) (genFreeContent_spec (g := g)) (by ac_rfl) (fun _ => ?_)
  rw [emp_sep]
  refine Triple.bind (Triple.free p _) (fun _ => ?_)
  exact Triple.ret (fun h hh => ⟨rfl, hh⟩)

/-- C53: `osl_generic_free` frees the nodes, their interfaces and their data, and nothing else. -/
theorem generic_free_memory (p : Ptr) (l : GList D) : Triple (glistAt O p l) (genFree O.toDataFns p) (fun _ => emp) :=
  Chain.freeAll_spec (N := genChain O) genFreeStep_spec l p

/-- C53: `osl_generic_number` and `osl_generic_count` only read. -/
theorem generic_count_memory (p : Ptr) (l : GList D) : Triple (glistAt O p l) (genCount p) (fun n => pur ((n : Int) = GList.count l) ∗ glistAt O p l) := by
  refine (Chain.countAll_spec (N := genChain O) l p).post (fun n h hh => ?_)
  obtain ⟨e, hh⟩ := pur_sep_iff.mp hh
  exact pur_sep_iff.mpr ⟨by subst e; rfl, hh⟩

/-! ## Search -/

theorem ifaceHasURI_spec {v : Ptr} {t : Str} {x y : Ptr} {g : Generic D} :
    Triple (contentAt O x y g ∗ v ↦ .chars t) (ifaceHasURI x v) (fun r => pur (r = GList.has_URI g t) ∗ contentAt O x y g ∗ v ↦ .chars t) := by
  obtain ⟨i, d⟩ := g
  unfold ifaceHasURI
  cases i with
  | none =>
    rw [contentAt_none]
    refine Triple.fact (fun hx => ?_)
    rw [if_neg (by simp [hx.1])]
    refine Triple.ret (fun h hh => pur_sep_iff.mpr ⟨rfl, ?_⟩)
    exact pur_sep_iff.mpr ⟨hx, hh⟩
  | some i =>
    rw [contentAt_some, sep_assoc]
    refine Triple.fact (fun hf => ?_)
    rw [sep_assoc]
    refine Triple.of_fact ifacesAt_one_ne (fun hx => ?_)
    rw [if_pos hx, ifacesAt_one]
    refine Triple.last (F := O.opt y d) (ifaceTest_spec (v := v) (t := t) x i 0) (by ac_rfl) (fun r h hh => ?_)
    rw [sep_assoc] at hh
    obtain ⟨hr, hh⟩ := pur_sep_iff.mp hh
    refine pur_sep_iff.mpr ⟨hr, ?_⟩
    refine pur_sep_iff.mpr ⟨hf, ?_⟩
    exact hh.perm (by ac_rfl)

theorem genHasURI_spec {v : Ptr} {t : Str} (p : Ptr) (g : Generic D) (n : Ptr) :
    Triple (genAt O p g n ∗ v ↦ .chars t) (genHasURI v p) (fun r => pur (r = GList.has_URI g t) ∗ genAt O p g n ∗ v ↦ .chars t) := by
  unfold genHasURI
  refine Triple.of_fact (φ := p ≠ 0) ?_ (fun hp => ?_)
  · rintro h ⟨_, _, _, _, hh, _⟩
    exact genAt_ne _ hh
  rw [if_neg hp]
  have e : (genAt O p g n ∗ v ↦ .chars t) = ex fun x => ex fun y => p ↦ .ptrs [x, y, n] ∗ contentAt O x y g ∗ v ↦ .chars t := by
    show (ex fun x => ex fun y => p ↦ .ptrs [x, y, n] ∗ contentAt O x y g) ∗ _ = _
    rw [ex_sep]
    congr 1; funext x
    rw [ex_sep]
    congr 1; funext y; ac_rfl
  rw [e]
  refine Triple.exi (fun x => Triple.exi (fun y => ?_))
  refine Triple.stepEq (F := contentAt O x y g ∗ v ↦ .chars t) (getField_spec (l := [x, y, n]) (x := x) rfl) rfl ?_
  refine Triple.last (F := p ↦ .ptrs [x, y, n]) (ifaceHasURI_spec (g := g) (t := t) (v := v) (y := y)) (by ac_rfl) (fun r h hh => ?_)
  rw [sep_assoc] at hh
  obtain ⟨hr, hh⟩ := pur_sep_iff.mp hh
  exact pur_sep_iff.mpr ⟨hr, x, y, hh.perm (by ac_rfl)⟩

/-- The property looked for. -/
def hasURI (t : Str) (g : Generic D) : Bool := GList.has_URI g t

omit [Allocator] in
theorem glookup_split (t : Str) : ∀ l : GList D, GList.lookup l t = (Chain.splitFirst (hasURI t) l).bind (·.2.1.data)
  | [] => rfl
  | g :: l => by
    simp only [GList.lookup, Chain.splitFirst]
    by_cases hg : GList.has_URI g t = true
    · rw [if_pos hg, if_pos (show hasURI t g = true from hg)]
      rfl
    · rw [if_neg hg, if_neg (show ¬(hasURI t g = true) from hg), glookup_split t l]
      cases Chain.splitFirst (hasURI t) l <;> rfl

/-- C53: `osl_generic_lookup` changes nothing; the result is the address of the data of the first generic with the URI, inside the list: the memory
of the list is the memory of this data and of the rest (`F`), from which the list can be recovered. -/
theorem generic_lookup_memory (p v : Ptr) (l : GList D) (t : Str) :
    Triple (glistAt O p l ∗ v ↦ .chars t) (genLookup p v)
      (fun y => (ex fun F => pur (∀ h, (F ∗ O.opt y (GList.lookup l t)) h → glistAt O p l h) ∗ F ∗ O.opt y (GList.lookup l t)) ∗ v ↦ .chars t) := by
  unfold genLookup
  refine Triple.bind (Chain.findNode_spec (N := genChain O) (t := hasURI t) genHasURI_spec l p) (fun q => ?_)
  rw [glookup_split]
  cases hs : Chain.splitFirst (hasURI t) l with
  | none =>
    rw [Chain.found_none hs, sep_assoc]
    refine Triple.fact (fun hq => ?_)
    unfold genData
    rw [if_neg (by simp [hq])]
    refine Triple.ret (fun h hh => sep_mono (fun h hh => ⟨glistAt O p l, ?_⟩) (fun _ h => h) hh)
    have e : O.opt 0 ((none : Option (GList D × Generic D × GList D)).bind (·.2.1.data)) = emp := pur_true rfl
    rw [e]
    refine pur_sep_iff.mpr ⟨fun h hh => ?_, ?_⟩
    · rw [sep_emp] at hh; exact hh
    · rw [sep_emp]; exact hh
  | some x =>
    obtain ⟨l1, g, l2⟩ := x
    obtain ⟨el, hg, _⟩ := Chain.splitFirst_some hs
    rw [Chain.found_some hs]
    obtain ⟨i, d⟩ := g
    cases i with
    | none => cases hg
    | some i =>
    show Triple _ _ (fun y => (ex fun F => pur (∀ h, (F ∗ O.opt y d) h → glistAt O p l h) ∗ F ∗ O.opt y d) ∗ v ↦ .chars t)
    have e : ((ex fun n => (genChain O).seg p l1 q ∗ (genChain O).at_ q ⟨some i, d⟩ n ∗ (genChain O).list n l2) ∗ v ↦ .chars t) =
        ex fun n => ex fun x => ex fun y => q ↦ .ptrs [x, y, n] ∗ contentAt O x y ⟨some i, d⟩ ∗ ((genChain O).seg p l1 q ∗ (genChain O).list n l2) ∗ v ↦ .chars t := by
      show ((ex fun n => (genChain O).seg p l1 q ∗ (ex fun x => ex fun y => q ↦ .ptrs [x, y, n] ∗ contentAt O x y ⟨some i, d⟩) ∗ (genChain O).list n l2) ∗ _) = _
      rw [ex_sep]
      congr 1; funext n
      rw [ex_sep, sep_ex, ex_sep]
      congr 1; funext x
      rw [ex_sep, sep_ex, ex_sep]
      congr 1; funext y
      ac_rfl
    rw [e]
    refine Triple.exi (fun n => Triple.exi (fun x => Triple.exi (fun y => ?_)))
    refine Triple.of_fact pto_ne_sep (fun hq => ?_)
    unfold genData
    rw [if_pos hq]
    refine Triple.last (F := contentAt O x y ⟨some i, d⟩ ∗ ((genChain O).seg p l1 q ∗ (genChain O).list n l2) ∗ v ↦ .chars t)
      (getField_spec (l := [x, y, n]) (x := y) rfl) rfl (fun r h hh => ?_)
    rw [sep_assoc] at hh
    obtain ⟨hr, hh⟩ := pur_sep_iff.mp hh
    subst hr
    rw [contentAt_some] at hh
    have hh1 : (pur (O.fits i.fns d) ∗ (((q ↦ .ptrs [x, r, n] ∗ ifacesAt x [i]) ∗ (genChain O).seg p l1 q ∗ (genChain O).list n l2) ∗ O.opt r d) ∗ v ↦ .chars t) h :=
      hh.perm (by ac_rfl)
    obtain ⟨hf, hh2⟩ := pur_sep_iff.mp hh1
    refine sep_mono (fun h hh => ⟨(q ↦ .ptrs [x, r, n] ∗ ifacesAt x [i]) ∗ (genChain O).seg p l1 q ∗ (genChain O).list n l2, ?_⟩) (fun _ h => h) hh2
    refine pur_sep_iff.mpr ⟨fun h hh => ?_, hh⟩
    rw [el]
    have h3 : ((genChain O).seg p l1 q ∗ (q ↦ .ptrs [x, r, n] ∗ ifacesAt x [i] ∗ O.opt r d) ∗ (genChain O).list n l2) h := hh.perm (by ac_rfl)
    refine Chain.seg_append h (sep_mono (fun _ h => h) (fun h hh => ⟨n, ?_⟩) h3)
    refine sep_mono (fun h hh => ⟨x, r, ?_⟩) (fun _ h => h) hh
    refine sep_mono (fun _ h => h) (fun h hh => ?_) hh
    rw [contentAt_some]
    exact pur_sep_iff.mpr ⟨hf, hh⟩

theorem generic_lookup_null (p v : Ptr) (l : GList D) (t : Str) :
    Triple (glistAt O p l ∗ v ↦ .chars t) (genLookup p v) (fun y => pur (y = 0 ↔ GList.lookup l t = none) ∗ glistAt O p l ∗ v ↦ .chars t) := by
  refine (generic_lookup_memory p v l t).post (fun y h hh => ?_)
  have hh2 := hh
  rw [ex_sep] at hh2
  obtain ⟨F, hh2⟩ := hh2
  rw [sep_assoc] at hh2
  obtain ⟨hF, hh2⟩ := pur_sep_iff.mp hh2
  refine pur_sep_iff.mpr ⟨?_, sep_mono hF (fun _ h => h) hh2⟩
  obtain ⟨_, _, _, _, ⟨_, _, _, _, _, ho⟩, _⟩ := hh2
  exact DataMem.opt_null _ ho

/-! ## Addition -/

omit [Allocator] in
theorem gcheckLoop_ok {list : GList D} : ∀ {l : GList D}, GList.checkLoop list l = .ok () →
    ∀ g ∈ l, ∃ i u, g.interface = some i ∧ i.URI = some u ∧ GList.lookup list u = none
  | [], _, _, h => by simp at h
  | j :: l, hc, g, hg => by
    obtain ⟨i, d⟩ := j
    simp only [GList.checkLoop] at hc
    cases i with
    | none => cases hc
    | some i =>
    cases hu : i.URI with
    | none => simp [hu] at hc
    | some u =>
    simp only [hu] at hc
    cases hl : GList.lookup list u with
    | some x => simp [hl] at hc
    | none =>
      simp only [hl] at hc
      rcases List.mem_cons.mp hg with rfl | hg
      · exact ⟨i, u, rfl, hu, hl⟩
      · exact gcheckLoop_ok hc g hg

theorem genUnknown_spec {p v : Ptr} {l : GList D} {t : Str} (h : GList.lookup l t = none) :
    Triple (glistAt O p l ∗ v ↦ .chars t) (genUnknown p v) (fun _ => glistAt O p l ∗ v ↦ .chars t) := by
  unfold genUnknown
  refine Triple.bind (generic_lookup_null p v l t) (fun q => Triple.fact (fun hq => ?_))
  rw [if_neg (by simp [hq.mpr h])]
  exact Triple.ret (fun h hh => hh)

theorem genCheckIface_spec {list x y : Ptr} {l : GList D} {g : Generic D} (hg : ∃ i u, g.interface = some i ∧ i.URI = some u ∧ GList.lookup l u = none) :
    Triple (contentAt O x y g ∗ glistAt O list l) (genCheckIface list x) (fun _ => contentAt O x y g ∗ glistAt O list l) := by
  obtain ⟨i, w, hi, hw, hl⟩ := hg
  obtain ⟨gi, d⟩ := g
  cases hi
  unfold genCheckIface
  have e : (contentAt O x y ⟨some i, d⟩ ∗ glistAt O list l) =
      ex fun u => x ↦ .iface u i.fns 0 ∗ u ↦ .chars w ∗ (pur (O.fits i.fns d) ∗ O.opt y d) ∗ glistAt O list l := by
    rw [contentAt_some, ifacesAt_one]
    show (_ ∗ (ex fun u => x ↦ .iface u i.fns 0 ∗ uriAt u i.URI) ∗ _) ∗ _ = _
    rw [ex_sep, sep_ex, ex_sep, hw]
    congr 1; funext u; show (_ ∗ (_ ∗ u ↦ .chars w) ∗ _) ∗ _ = _; ac_rfl
  rw [e]
  refine Triple.exi (fun u => ?_)
  refine Triple.of_fact pto_ne_sep (fun hx => ?_)
  rw [if_neg hx]
  refine Triple.stepEq (F := u ↦ .chars w ∗ (pur (O.fits i.fns d) ∗ O.opt y d) ∗ glistAt O list l) (loadIface_spec (p := x)) rfl ?_
  refine Triple.of_fact (φ := u ≠ 0) ?_ (fun hu => ?_)
  · rintro h ⟨_, _, _, _, _, ⟨_, _, _, _, hh, _⟩⟩
    exact hh.1
  rw [if_neg (show ¬((⟨u, i.fns, 0⟩ : IfaceRec).uri = 0) from hu)]
  exact Triple.last (F := x ↦ .iface u i.fns 0 ∗ pur (O.fits i.fns d) ∗ O.opt y d) (genUnknown_spec (O := O) (p := list) (v := u) hl) (by ac_rfl)
    (fun _ h hh => ⟨u, hh.perm (by ac_rfl)⟩)

theorem genCheck_spec {list : Ptr} {l : GList D} (p : Ptr) (g : Generic D) (n : Ptr)
    (hg : ∃ i u, g.interface = some i ∧ i.URI = some u ∧ GList.lookup l u = none) :
    Triple (genAt O p g n ∗ glistAt O list l) (genCheck list p) (fun _ => genAt O p g n ∗ glistAt O list l) := by
  unfold genCheck
  have e : (genAt O p g n ∗ glistAt O list l) = ex fun x => ex fun y => p ↦ .ptrs [x, y, n] ∗ contentAt O x y g ∗ glistAt O list l := by
    show (ex fun x => ex fun y => p ↦ .ptrs [x, y, n] ∗ contentAt O x y g) ∗ _ = _
    rw [ex_sep]
    congr 1; funext x
    rw [ex_sep]
    congr 1; funext y; ac_rfl
  rw [e]
  refine Triple.exi (fun x => Triple.exi (fun y => ?_))
  refine Triple.stepEq (F := contentAt O x y g ∗ glistAt O list l) (getField_spec (l := [x, y, n]) (x := x) rfl) rfl ?_
  exact Triple.last (F := p ↦ .ptrs [x, y, n]) (genCheckIface_spec (O := O) (list := list) (x := x) (y := y) hg) (by ac_rfl)
    (fun _ h hh => ⟨x, y, hh.perm (by ac_rfl)⟩)

theorem glistAt_cons_ne {p : Ptr} {g : Generic D} {l : GList D} {F : Assn} : ∀ h, (F ∗ glistAt O p (g :: l)) h → p ≠ 0 := by
  rintro h ⟨_, _, _, _, _, hh⟩
  exact Chain.list_cons_ne hh

/-- C53: `osl_generic_add` links the second list, without a copy, after the first one. -/
theorem generic_add_memory {l1 l2 l : GList D} (h : GList.add l1 l2 = .ok l) (p1 p2 : Ptr) :
    Triple (glistAt O p1 l1 ∗ glistAt O p2 l2) (genAdd p1 p2) (fun q => glistAt O q l) := by
  obtain ⟨u, hc, h⟩ := Out.bind_eq_ok.mp h
  cases u
  injection h with h
  subst h
  unfold genAdd
  cases l2 with
  | nil =>
    have e : (glistAt O p1 l1 ∗ glistAt O p2 []) = (pur (p2 = 0) ∗ glistAt O p1 l1) := by
      show _ ∗ pur (p2 = 0) = _
      ac_rfl
    rw [e]
    refine Triple.fact (fun hp => ?_)
    rw [if_neg (by simp [hp]), List.append_nil]
    exact Triple.ret (fun h hh => hh)
  | cons i l2 =>
    refine Triple.of_fact glistAt_cons_ne (fun hp => ?_)
    rw [if_pos hp]
    have := Chain.eachNode_spec (N := genChain O) (g := id) (X := glistAt O p1 l1)
      (ok := fun g => ∃ i u, g.interface = some i ∧ i.URI = some u ∧ GList.lookup l1 u = none)
      (act := genCheck p1) genCheck_spec (i :: l2) (gcheckLoop_ok hc) p2
    rw [List.map_id] at this
    refine Triple.step (F := emp) this (by rw [sep_emp]; exact sep_comm _ _) (fun _ => ?_)
    rw [sep_emp, sep_comm]
    exact Chain.append_spec (N := genChain O) l1 (i :: l2) p1 p2

/-! ## Removal -/

/-- C53: `osl_generic_remove_node` unlinks the node and frees it with its interface and its data. -/
theorem generic_remove_node_memory (l1 l2 : GList D) (g : Generic D) (p x n : Ptr) :
    Triple ((genChain O).seg p l1 x ∗ genAt O x g n ∗ glistAt O n l2) (genRemoveNode O.toDataFns p x) (fun q => glistAt O q (l1 ++ l2)) := by
  unfold genRemoveNode
  refine Triple.of_fact (φ := x ≠ 0) ?_ (fun hx => ?_)
  · rintro h ⟨_, _, _, _, _, ⟨_, _, _, _, hh, _⟩⟩
    exact genAt_ne _ hh
  rw [if_pos hx]
  have ffree : ∀ x, Triple (genAt O x g 0) (genFree O.toDataFns x) (fun _ => emp) := by
    intro x
    rw [← glistAt_one]
    exact generic_free_memory x [g]
  cases l1 with
  | nil =>
    show Triple (pur (p = x) ∗ _) _ _
    refine Triple.fact (fun hp => ?_)
    subst hp
    rw [if_pos hx, if_pos rfl]
    refine Triple.stepEq (F := glistAt O n l2) ((genChain O).get_spec p g n) rfl ?_
    refine Triple.step (F := glistAt O n l2) ((genChain O).set_spec p g n 0) rfl (fun _ => ?_)
    refine Triple.step (F := glistAt O n l2) (ffree p) rfl (fun _ => ?_)
    rw [emp_sep]
    exact Triple.ret (fun h hh => hh)
  | cons a l1 =>
    have e : ((genChain O).seg p (a :: l1) x ∗ genAt O x g n ∗ glistAt O n l2) =
        ex fun k => genAt O p a k ∗ genAt O x g n ∗ (genChain O).seg k l1 x ∗ glistAt O n l2 := by
      show (ex fun k => genAt O p a k ∗ (genChain O).seg k l1 x) ∗ _ = _
      rw [ex_sep]
      congr 1; funext k; ac_rfl
    rw [e]
    refine Triple.exi (fun k => ?_)
    refine Triple.of_fact (Chain.at_ne (N := genChain O)) (fun hne => ?_)
    refine Triple.of_fact (φ := p ≠ 0) ?_ (fun hp => ?_)
    · rintro h ⟨_, _, _, _, hh, _⟩
      exact genAt_ne _ hh
    rw [if_pos hp, if_neg hne]
    unfold genUnlink
    show Triple (genAt O p a k ∗ genAt O x g n ∗ (genChain O).seg k l1 x ∗ glistAt O n l2) _ _
    have e2 : (genAt O p a k ∗ genAt O x g n ∗ (genChain O).seg k l1 x ∗ glistAt O n l2) =
        ((genChain O).seg p [] p ∗ genAt O p a k ∗ (genChain O).seg k l1 x ∗ genAt O x g n ∗ glistAt O n l2) := by
      have : (genChain O).seg p [] p = emp := pur_true rfl
      rw [this, emp_sep]
      ac_rfl
    rw [e2]
    have hb : Big ((genChain O).seg p [] p ∗ genAt O p a k ∗ (genChain O).seg k l1 x ∗ genAt O x g n ∗ glistAt O n l2) (0 + (1 + (l1.length + (0 + 0)))) :=
      (Big.zero _).sep (((genChain O).big p a k).sep ((Chain.seg_big (N := genChain O) l1 k x).sep ((Big.zero _).sep (Big.zero _))))
    refine Triple.bind (Triple.heapSize hb) (fun f => Triple.fact (fun hf => ?_))
    refine Triple.bind (Chain.beforeLoop_spec (N := genChain O) f l1 [] a p k (by omega)) (fun r => ?_)
    refine Triple.exi (fun l0 => Triple.exi (fun y => Triple.fact (fun hl => ?_)))
    show Triple ((genChain O).seg p l0 r ∗ genAt O r y x ∗ genAt O x g n ∗ glistAt O n l2) _ _
    refine Triple.stepEq (F := (genChain O).seg p l0 r ∗ genAt O x g n ∗ glistAt O n l2) ((genChain O).get_spec r y x) (by
      show _ = genAt O r y x ∗ _; ac_rfl) ?_
    rw [if_pos rfl]
    refine Triple.stepEq (F := ((genChain O).seg p l0 r ∗ genAt O r y x) ∗ glistAt O n l2) ((genChain O).get_spec x g n) (by
      show _ ∗ genAt O r y x ∗ genAt O x g n ∗ glistAt O n l2 = genAt O x g n ∗ _; ac_rfl) ?_
    refine Triple.step (F := (genChain O).seg p l0 r ∗ genAt O x g n ∗ glistAt O n l2) ((genChain O).set_spec r y x n) (by
      show _ ∗ genAt O r y x ∗ genAt O x g n ∗ glistAt O n l2 = genAt O r y x ∗ _; ac_rfl) (fun _ => ?_)
    refine Triple.step (F := ((genChain O).seg p l0 r ∗ genAt O r y n) ∗ glistAt O n l2) ((genChain O).set_spec x g n 0) (by
      show genAt O r y n ∗ _ = genAt O x g n ∗ _; ac_rfl) (fun _ => ?_)
    refine Triple.step (F := ((genChain O).seg p l0 r ∗ genAt O r y n) ∗ glistAt O n l2) (ffree x) rfl (fun _ => ?_)
    rw [emp_sep]
    refine Triple.ret (fun h hh => ?_)
    have := sep_mono (Chain.seg_at (N := genChain O)) (fun _ h => h) hh
    have := Chain.seg_append h this
    rw [hl] at this
    exact this

omit [Allocator] in
theorem remove_none {t : Str} : ∀ {l : GList D}, (∀ g ∈ l, hasURI t g = false) → GList.remove l t = l
  | [], _ => rfl
  | a :: l, h => by
    simp only [GList.remove]
    rw [if_neg (by rw [show GList.has_URI a t = false from h a (by simp)]; simp), remove_none (fun g hg => h g (by simp [hg]))]

omit [Allocator] in
theorem remove_some {t : Str} {g : Generic D} {l2 : GList D} (hg : hasURI t g = true) : ∀ {l1 : GList D}, (∀ g ∈ l1, hasURI t g = false) →
    GList.remove (l1 ++ g :: l2) t = l1 ++ l2
  | [], _ => by
    simp only [List.nil_append, GList.remove]
    rw [if_pos (show GList.has_URI g t = true from hg)]
  | a :: l, h => by
    simp only [List.cons_append, GList.remove]
    rw [if_neg (by rw [show GList.has_URI a t = false from h a (by simp)]; simp), remove_some hg (fun g hg => h g (by simp [hg]))]

/-- C53: `osl_generic_remove` unlinks and frees the first generic with the URI, and nothing else. -/
theorem generic_remove_memory (p v : Ptr) (l : GList D) (t : Str) :
    Triple (glistAt O p l ∗ v ↦ .chars t) (genRemove O.toDataFns p v) (fun q => glistAt O q (GList.remove l t) ∗ v ↦ .chars t) := by
  unfold genRemove
  refine Triple.bind (Chain.findNode_spec (N := genChain O) (t := hasURI t) genHasURI_spec l p) (fun q => ?_)
  cases hs : Chain.splitFirst (hasURI t) l with
  | none =>
    rw [Chain.found_none hs, sep_assoc]
    refine Triple.fact (fun hq => ?_)
    rw [if_neg (by simp [hq]), remove_none (Chain.splitFirst_none hs)]
    exact Triple.ret (fun h hh => hh)
  | some x =>
    obtain ⟨l1, g, l2⟩ := x
    obtain ⟨el, hg, hl⟩ := Chain.splitFirst_some hs
    rw [Chain.found_some hs, el, remove_some hg hl, ex_sep]
    refine Triple.exi (fun n => ?_)
    refine Triple.of_fact (φ := q ≠ 0) ?_ (fun hq => ?_)
    · rintro h ⟨_, _, _, _, ⟨_, _, _, _, _, ⟨_, _, _, _, hh, _⟩⟩, _⟩
      exact genAt_ne _ hh
    rw [if_pos hq]
    exact (generic_remove_node_memory l1 l2 g p q n).frame (v ↦ .chars t)

/-! ## Creation, copies -/

/-- C53: `osl_generic_shell` takes over the data and the interface. -/
theorem generic_shell_memory {i : Iface} {d : Option D} (hf : O.fits i.fns d) (x y : Ptr) :
    Triple (ifacesAt x [i] ∗ O.opt y d) (genShell y x) (fun p => glistAt O p [{ interface := some i, data := d }]) := by
  unfold genShell genMalloc
  refine Triple.step (P := emp) (Triple.alloc _) (by rw [emp_sep]) (fun p => ?_)
  refine Triple.step (setField_spec (l := [0, 0, 0]) (l' := [0, y, 0]) rfl) rfl (fun _ => ?_)
  refine Triple.step (setField_spec (l := [0, y, 0]) (l' := [x, y, 0]) rfl) rfl (fun _ => ?_)
  refine Triple.ret (fun h hh => ?_)
  rw [glistAt_one]
  refine ⟨x, y, sep_mono (fun _ h => h) (fun h hh => ?_) hh⟩
  rw [contentAt_some]
  exact pur_sep_iff.mpr ⟨hf, hh⟩

omit [Allocator] in
theorem clone_one {i : Iface} {l : Ifaces} (h : Ifaces.clone [i] = .ok l) : l = [i] := by
  obtain ⟨u, f⟩ := i
  cases u with
  | none => cases h
  | some u =>
    injection h with h
    exact h.symm

theorem genCopy_spec {x y : Ptr} {i : Iface} {d d' : Option D} {is : Ifaces} (hf : O.fits i.fns d) (hc : E.clone i.fns.clone d = .ok d') (hi : Ifaces.clone [i] = .ok is) :
    Triple (ifacesAt x [i] ∗ O.opt y d) (genCopy O.toDataFns x y)
      (fun q => (ifacesAt x [i] ∗ O.opt y d) ∗ glistAt O q [{ interface := is.head?, data := d' }]) := by
  unfold genCopy genMalloc
  refine ifaceFns_spec (fun u => ?_)
  refine Triple.step (F := ifacesAt x [i]) (O.clone_opt (p := y) hf hc) (by ac_rfl) (fun z => ?_)
  refine Triple.step (F := O.opt y d ∗ O.opt z d') (interface_clone_memory hi x) (by ac_rfl) (fun j => ?_)
  refine Triple.step (P := emp) (Triple.alloc _) (by rw [emp_sep]) (fun p => ?_)
  refine Triple.step (setField_spec (l := [0, 0, 0]) (l' := [j, 0, 0]) rfl) rfl (fun _ => ?_)
  refine Triple.step (setField_spec (l := [j, 0, 0]) (l' := [j, z, 0]) rfl) rfl (fun _ => ?_)
  refine Triple.ret (fun h hh => ?_)
  have := clone_one hi
  subst this
  have hh' : ((ifacesAt x [i] ∗ O.opt y d) ∗ p ↦ .ptrs [j, z, 0] ∗ ifacesAt j [i] ∗ O.opt z d') h := hh.perm (by ac_rfl)
  refine sep_mono (fun _ h => h) (fun h hh => ?_) hh'
  rw [glistAt_one]
  refine ⟨j, z, sep_mono (fun _ h => h) (fun h hh => ?_) hh⟩
  show contentAt O j z ⟨some i, d'⟩ h
  rw [contentAt_some]
  exact pur_sep_iff.mpr ⟨O.fits_clone hf hc, hh⟩

theorem genCopyAdd_spec {p c n : Ptr} {g : Generic D} {acc acc' : GList D}
    (h : (match g.interface with
      | none => Out.ok acc
      | some i => do
        let x ← E.clone i.fns.clone g.data
        let is ← Ifaces.clone [i]
        GList.add acc [{ interface := is.head?, data := x }]) = .ok acc') :
    Triple (genAt O p g n ∗ glistAt O c acc) (genCopyAdd O.toDataFns p c) (fun c' => genAt O p g n ∗ glistAt O c' acc') := by
  unfold genCopyAdd
  have e : (genAt O p g n ∗ glistAt O c acc) = ex fun x => ex fun y => p ↦ .ptrs [x, y, n] ∗ contentAt O x y g ∗ glistAt O c acc := by
    show (ex fun x => ex fun y => p ↦ .ptrs [x, y, n] ∗ contentAt O x y g) ∗ _ = _
    rw [ex_sep]
    congr 1; funext x
    rw [ex_sep]
    congr 1; funext y; ac_rfl
  rw [e]
  refine Triple.exi (fun x => Triple.exi (fun y => ?_))
  refine Triple.stepEq (F := contentAt O x y g ∗ glistAt O c acc) (getField_spec (l := [x, y, n]) (x := x) rfl) rfl ?_
  refine Triple.stepEq (F := contentAt O x y g ∗ glistAt O c acc) (getField_spec (l := [x, y, n]) (x := y) rfl) rfl ?_
  obtain ⟨gi, d⟩ := g
  cases gi with
  | none =>
    injection h with h
    subst h
    rw [contentAt_none]
    have e2 : (p ↦ .ptrs [x, y, n] ∗ pur (x = 0 ∧ y = 0 ∧ d = none) ∗ glistAt O c acc) = (pur (x = 0 ∧ y = 0 ∧ d = none) ∗ p ↦ .ptrs [x, y, n] ∗ glistAt O c acc) := by ac_rfl
    rw [e2]
    refine Triple.fact (fun hx => ?_)
    rw [if_neg (by simp [hx.1])]
    refine Triple.ret (fun h hh => ?_)
    refine sep_mono (fun h hh => ⟨x, y, ?_⟩) (fun _ h => h) hh
    show (p ↦ .ptrs [x, y, n] ∗ contentAt O x y ⟨none, d⟩) h
    rw [contentAt_none, sep_comm]
    exact pur_sep_iff.mpr ⟨hx, hh⟩
  | some i =>
    obtain ⟨d', hd, h⟩ := Out.bind_eq_ok.mp h
    obtain ⟨is, hi, h⟩ := Out.bind_eq_ok.mp h
    rw [contentAt_some]
    have e2 : (p ↦ .ptrs [x, y, n] ∗ (pur (O.fits i.fns d) ∗ ifacesAt x [i] ∗ O.opt y d) ∗ glistAt O c acc) =
        (pur (O.fits i.fns d) ∗ (ifacesAt x [i] ∗ O.opt y d) ∗ p ↦ .ptrs [x, y, n] ∗ glistAt O c acc) := by ac_rfl
    rw [e2]
    refine Triple.fact (fun hf => ?_)
    refine Triple.of_fact (φ := x ≠ 0) ?_ (fun hx => ?_)
    · rintro h ⟨_, _, _, _, ⟨_, _, _, _, hh, _⟩, _⟩
      exact Chain.list_cons_ne hh
    rw [if_pos hx]
    refine Triple.step (genCopy_spec (O := O) hf hd hi) rfl (fun q => ?_)
    refine Triple.last (F := (ifacesAt x [i] ∗ O.opt y d) ∗ p ↦ .ptrs [x, y, n]) (generic_add_memory h c q) (by ac_rfl) (fun c' h hh => ?_)
    have hh' : (pur True ∗ (p ↦ .ptrs [x, y, n] ∗ ifacesAt x [i] ∗ O.opt y d) ∗ glistAt O c' acc') h := by
      rw [pur_true trivial, emp_sep]
      exact hh.perm (by ac_rfl)
    refine sep_mono (fun h hh => ⟨x, y, ?_⟩) (fun _ h => h) (pur_sep_iff.mp hh').2
    show (p ↦ .ptrs [x, y, n] ∗ contentAt O x y ⟨some i, d⟩) h
    rw [contentAt_some]
    exact sep_mono (fun _ h => h) (fun h hh => pur_sep_iff.mpr ⟨hf, hh⟩) hh

theorem genNcloneLoop_spec : ∀ (k : Nat) (l acc l' l0 : GList D) (p p0 c : Ptr), GList.ncloneLoop E k l acc = .ok l' →
    Triple ((genChain O).seg p0 l0 p ∗ glistAt O p l ∗ glistAt O c acc) (genNcloneLoop O.toDataFns k p c)
      (fun q => glistAt O p0 (l0 ++ l) ∗ glistAt O q l') := by
  intro k
  induction k with
  | zero =>
    intro l acc l' l0 p p0 c h
    have e0 : GList.ncloneLoop E 0 l acc = .ok acc := by unfold GList.ncloneLoop; rfl
    rw [e0] at h
    injection h with h
    subst h
    refine Triple.ret (fun h hh => ?_)
    rw [← sep_assoc] at hh
    exact sep_mono Chain.seg_append (fun _ h => h) hh
  | succ k ih =>
    intro l acc l' l0 p p0 c h
    cases l with
    | nil =>
      have e0 : GList.ncloneLoop E (k + 1) [] acc = .ok acc := by unfold GList.ncloneLoop; rfl
      rw [e0] at h
      injection h with h
      subst h
      have e : ((genChain O).seg p0 l0 p ∗ glistAt O p [] ∗ glistAt O c acc) = (pur (p = 0) ∗ (genChain O).seg p0 l0 p ∗ glistAt O c acc) := by
        show _ ∗ pur (p = 0) ∗ _ = _
        ac_rfl
      rw [e]
      refine Triple.fact (fun hp => ?_)
      unfold genNcloneLoop
      rw [if_pos hp, hp, List.append_nil]
      exact Triple.ret (fun h hh => hh)
    | cons g l =>
      obtain ⟨acc', ha, h⟩ : ∃ acc', (match g.interface with
          | none => Out.ok acc
          | some i => do
            let x ← E.clone i.fns.clone g.data
            let is ← Ifaces.clone [i]
            GList.add acc [{ interface := is.head?, data := x }]) = .ok acc' ∧ GList.ncloneLoop E k l acc' = .ok l' := by
        rw [GList.ncloneLoop.eq_def] at h
        obtain ⟨gi, d⟩ := g
        cases gi with
        | none => exact ⟨acc, rfl, h⟩
        | some i =>
          obtain ⟨d', hd, h⟩ := Out.bind_eq_ok.mp h
          obtain ⟨is, hi, h⟩ := Out.bind_eq_ok.mp h
          obtain ⟨acc', ha, h⟩ := Out.bind_eq_ok.mp h
          exact ⟨acc', Out.bind_eq_ok.mpr ⟨d', hd, Out.bind_eq_ok.mpr ⟨is, hi, ha⟩⟩, h⟩
      refine Triple.of_fact (φ := p ≠ 0) ?_ (fun hp => ?_)
      · rintro h ⟨_, _, _, _, _, ⟨_, _, _, _, hh, _⟩⟩
        exact Chain.list_cons_ne hh
      unfold genNcloneLoop
      rw [if_neg hp]
      have e : ((genChain O).seg p0 l0 p ∗ glistAt O p (g :: l) ∗ glistAt O c acc) =
          ex fun n => (genAt O p g n ∗ glistAt O c acc) ∗ (genChain O).seg p0 l0 p ∗ glistAt O n l := by
        show _ ∗ (ex fun n => genAt O p g n ∗ glistAt O n l) ∗ _ = _
        rw [ex_sep, sep_ex]
        congr 1; funext n; ac_rfl
      rw [e]
      refine Triple.exi (fun n => ?_)
      refine Triple.step (genCopyAdd_spec (O := O) ha) rfl (fun c' => ?_)
      refine Triple.stepEq (F := glistAt O c' acc' ∗ (genChain O).seg p0 l0 p ∗ glistAt O n l) ((genChain O).get_spec p g n) (by show _ = genAt O p g n ∗ _; ac_rfl) ?_
      have := ih l acc' l' (l0 ++ [g]) n p0 c' h
      rw [List.append_assoc] at this
      refine this.pre (fun h hh => ?_)
      have hh' : (((genChain O).seg p0 l0 p ∗ genAt O p g n) ∗ glistAt O n l ∗ glistAt O c' acc') h := hh.perm (by ac_rfl)
      exact sep_mono (Chain.seg_at (N := genChain O)) (fun _ h => h) hh'

theorem genNcloneN_spec {k : Nat} {l l' : GList D} (h : GList.ncloneLoop E k l [] = .ok l') (p : Ptr) :
    Triple (glistAt O p l) (genNcloneN O.toDataFns p k) (fun q => glistAt O p l ∗ glistAt O q l') := by
  have := genNcloneLoop_spec (O := O) k l [] l' [] p p 0 h
  refine this.pre (fun h hh => pur_sep_iff.mpr ⟨rfl, ?_⟩)
  show (glistAt O p l ∗ pur ((0 : Ptr) = 0)) h
  rw [pur_true rfl, sep_emp]
  exact hh

/-- C53: the copies of generics, with their interfaces and their data, are in new memory. -/
theorem generic_nclone_memory {l l' : GList D} {n : Int} (h : GList.nclone E l n = .ok l') (p : Ptr) :
    Triple (glistAt O p l) (genNclone O.toDataFns p n) (fun q => glistAt O p l ∗ glistAt O q l') := by
  unfold genNclone
  unfold GList.nclone at h
  by_cases hn : n < 0
  · rw [if_pos hn] at h
    rw [if_pos hn]
    refine Triple.bind (generic_count_memory p l) (fun k => Triple.fact (fun hk => ?_))
    rw [← hk] at h
    exact genNcloneN_spec (by simpa using h) p
  · rw [if_neg hn] at h
    rw [if_neg hn]
    exact genNcloneN_spec h p

/-- C53: also for `osl_generic_clone`. -/
theorem generic_clone_memory {l l' : GList D} (h : GList.clone E l = .ok l') (p : Ptr) :
    Triple (glistAt O p l) (genClone O.toDataFns p) (fun q => glistAt O p l ∗ glistAt O q l') := generic_nclone_memory h p

end Osl.Mem
