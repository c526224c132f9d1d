import Verif.HeapScoplibProps
/-!
# Printing in the SCoPLib format in memory (C79): parts and relations
-/

set_option linter.unusedSectionVars false

namespace Osl.Mem

variable [Allocator]

/-- C79: `osl_relation_column_string_scoplib` gives a new string. -/
theorem column_string_scoplib_memory {a : Part} {strings : Ptr} {ws : List Str} {t : Str} (h : Rel.column_string_scoplib a ws = .ok t) :
    Triple (arrayAt strings ws) (scColumns (hdr a) strings) (fun q => arrayAt strings ws ∗ q ↦ .chars t) := by
  unfold scColumns
  refine Triple.bind (Q := fun q => arrayAt strings ws ∗ q ↦ .chars []) ?_ (fun q => ?_)
  · hlast Triple.alloc
    hret
  hopen arrayAt
  hstep (loadPtrs_spec (p := strings))
  have rw1 := readWords_spec (arr := strings) ps [] [] ws (ps ++ [0]).length 0 rfl (by simp) rfl
  simp only [List.nil_append] at rw1
  hstep rw1
  have h' : Rel.column_string_scoplib (hdrPart (hdr a) []) ws = .ok t := by
    rw [← h]
    have : ∀ (l : List Str) (i : Int), Rel.columnsScoplib (hdrPart (hdr a) []) l i = Rel.columnsScoplib a l i := by
      intro l
      induction l with
      | nil => intro i; rfl
      | cons x l ih => intro i; simp only [Rel.columnsScoplib, ih]; rfl
    unfold Rel.column_string_scoplib
    rw [this]
  hstep (lift_spec h')
  hstep (Triple.store (p := q))
  refine Triple.ret (fun h hh => ?_)
  exact sep_mono (P := strings ↦ .ptrs (ps ++ [0]) ∗ wordsAt ps ws) (fun _ h => ⟨ps, h⟩) (fun _ h => h) (hh.perm (by ac_rfl))

/-- The names of the columns, as pieces. -/
def colPieces (a : Part) (ws : List Str) : Out (List Str) :=
  if a.nb_rows > 0 then do
    let s ← Rel.column_string_scoplib a ws
    return [s]
  else .ok []

theorem scPrintColumns_adds {a : Part} {strings : Ptr} {ws : List Str} {l : List Str} (h : colPieces a ws = .ok l) :
    Adds (arrayAt strings ws) (fun b => scPrintColumns (hdr a) strings b) l.flatten := fun b t => by
  unfold colPieces at h
  dsimp only
  unfold scPrintColumns
  by_cases h0 : a.nb_rows > 0
  · rw [if_pos h0] at h
    obtain ⟨s, hs, h⟩ := Out.bind_eq_ok.mp h
    cases h
    have h0 : (hdr a).nb_rows > 0 := h0
    rw [if_pos h0]
    hstep (column_string_scoplib_memory hs)
    hlast bufExpr_spec
    have hb : s.length < MAX_STRING := by
      unfold Rel.column_string_scoplib Rel.buffered at hs
      split at hs
      · cases hs; assumption
      · cases hs
    rw [List.nil_append, truncated_short hb]
    simp only [List.flatten_cons, List.flatten_nil, List.append_nil]
    hret
  · rw [if_neg h0] at h
    cases h
    have h0 : ¬ (hdr a).nb_rows > 0 := h0
    rw [if_neg h0]
    simp only [List.flatten_nil, List.append_nil]
    exact Triple.ret (fun _ h => h)

theorem flatten_replicate_between {n : Int} {s : Str} : ((Rel.between 0 n).map fun _ => [s]).flatten.flatten = (List.replicate n.toNat s).flatten := by
  have e : (Rel.between 0 n).map (fun _ => [s]) = List.replicate n.toNat [s] := by
    rw [← upto_between]
    unfold Rel.upto
    rw [List.map_map, List.eq_replicate_iff]
    refine ⟨by simp, fun b hb => ?_⟩
    obtain ⟨_, _, rfl⟩ := List.mem_map.mp hb
    rfl
  rw [e]
  generalize n.toNat = k
  induction k with
  | zero => rfl
  | succ k ih => simp only [List.replicate_succ, List.flatten_cons, List.flatten_append, List.flatten_nil, List.append_nil, ih]

theorem scSizeDomain_adds {F : Assn} {a : Part} {fake : Bool} : Adds F (fun b => scSizeDomain (hdr a) fake b)
    (if fake then
        [Rel.sizeLine (a.nb_rows + 1) (a.nb_columns - a.nb_input_dims + 1), "   0 ".toList, "   1 ".toList] ++
          List.replicate a.nb_parameters.toNat "   0 ".toList ++ ["    0  ## fakeiter == 0\n".toList]
      else [Rel.sizeLine a.nb_rows (a.nb_columns - a.nb_input_dims)]).flatten := by
  unfold scSizeDomain
  cases fake with
  | false => exact Adds.cat.text (by simp only [Bool.false_eq_true, if_false, List.flatten_cons, List.flatten_nil, List.append_nil]; rfl)
  | true =>
    generalize "   0 ".toList = z
    generalize "   1 ".toList = o
    generalize "    0  ## fakeiter == 0\n".toList = e
    have h1 : Out.mapOut (fun _ : Int => Out.ok [z]) (Rel.between 0 a.nb_parameters) = .ok _ := mapOut_ok _ _
    have loop := Adds.loop (F := F) (f := fun _ b => bufCat b z) (fun j s hs => by cases hs; exact Adds.cat.text (by simp)) h1
    rw [flatten_replicate_between] at loop
    refine (Adds.bind Adds.cats (Adds.bind loop Adds.cat)).text ?_
    simp only [if_true, List.flatten_append, List.flatten_cons, List.flatten_nil, List.append_nil, List.append_assoc]
    rfl

theorem scSizeOther_adds {F : Assn} {a : Part} {fake : Bool} : Adds F (fun b => scSizeOther (hdr a) fake b)
    (if fake then [Rel.sizeLine (a.nb_rows + 2) (a.nb_columns - a.nb_output_dims + 1)] else [Rel.sizeLine a.nb_rows (a.nb_columns - a.nb_output_dims)]).flatten := by
  unfold scSizeOther
  cases fake with
  | false => exact Adds.cat.text (by simp only [Bool.false_eq_true, if_false, List.flatten_cons, List.flatten_nil, List.append_nil]; rfl)
  | true => exact Adds.cat.text (by simp only [if_true, List.flatten_cons, List.flatten_nil, List.append_nil]; rfl)

theorem scSize_adds {a : Part} {strings : Ptr} {ws : List Str} {access fake : Bool} {l : List Str} (h : (if access then .ok [] else Rel.sizePieces a ws fake) = Out.ok l) :
    Adds (arrayAt strings ws) (fun b => scSize (hdr a) strings access fake b) l.flatten := by
  unfold scSize
  cases access with
  | true =>
    rw [if_pos rfl] at h
    cases h
    exact Adds.none
  | false =>
    rw [if_neg (by simp)] at h
    unfold Rel.sizePieces at h
    obtain ⟨col, h1, h⟩ := Out.bind_eq_ok.mp h
    have h1 : colPieces a ws = .ok col := h1
    simp only [Out.pure_eq, Out.ok.injEq] at h
    subst h
    by_cases ht : a.type = TYPE_DOMAIN
    · have ht' : (hdr a).type = TYPE_DOMAIN := ht
      simp only [ht', if_true, Bool.not_false]
      refine (Adds.bind scSizeDomain_adds (scPrintColumns_adds h1)).text ?_
      rw [List.flatten_append, if_pos ht]
    · have ht' : ¬ (hdr a).type = TYPE_DOMAIN := ht
      simp only [ht', if_true, if_false, Bool.not_false]
      refine (Adds.bind scSizeOther_adds (scPrintColumns_adds h1)).text ?_
      rw [List.flatten_append, if_neg ht]

section

variable {c : Cfg} {p : Ptr} {a : Part} {m n : Ptr} {rest : Rel} {strings : Ptr} {ws : List Str} {v : Nat → Ptr} {names : Ptr} {nm : Names}

/-- One part. -/
theorem scPart_spec (hc : c.Valid) (hm : MatFits c a.precision a.m) {nb part : Nat} {access nth fake : Bool} {l : List Str} {b : StrBuf} {t : Str}
    (h : Rel.partPiecesScoplib c nb part a rest nm access nth fake = .ok l) :
    Triple ((p ↦ .rel (hdr a) m n ∗ partMat c m a ∗ relAt c n rest) ∗ namesPin v names nm ∗ bufAt b t) (scPart c nb part access nth fake p names b)
      (fun r => pur (r.1 = n) ∗ (p ↦ .rel (hdr a) m n ∗ partMat c m a ∗ relAt c n rest) ∗ namesPin v names nm ∗ bufAt r.2 (t ++ l.flatten)) := by
  unfold Rel.partPiecesScoplib at h
  obtain ⟨ws, h1, h⟩ := Out.bind_eq_ok.mp h
  obtain ⟨size, h2, h⟩ := Out.bind_eq_ok.mp h
  obtain ⟨rows, h3, h⟩ := Out.bind_eq_ok.mp h
  simp only [Out.pure_eq, Out.ok.injEq] at h
  subst h
  unfold scPart
  hstep (loadRel_spec (p := p))
  refine Triple.bind (Q := fun q => printAt c p a m n rest q ws v names nm ∗ bufAt b t) ?_ (fun q => ?_)
  · hlast (relation_strings_pin h1)
    unfold printAt
    hret
  refine Triple.bind bufCats_spec.withF (fun b1 => ?_)
  refine Triple.bind bufCats_spec.withF (fun b2 => ?_)
  refine Triple.bind ((scSize_adds h2).frame printAt_array b2 _) (fun b3 => ?_)
  refine Triple.bind (scRows_adds hc hm h3 b3 _) (fun b4 => ?_)
  hopen printAt
  have hl : (hdr a).nb_columns = ws.length := strings_length h1
  hstep (relFreeNames_spec (strings := q) hl)
  simp only [List.flatten_append, List.append_assoc]
  hret

end

/-- The union parts. -/
theorem scParts_spec {c : Cfg} (hc : c.Valid) {nb : Nat} {access nth fake : Bool} {v : Nat → Ptr} {names : Ptr} {nm : Names} : ∀ {r : Rel} {part : Nat} {p : Ptr} {b : StrBuf} {t : Str}
    {l : List Str}, (∀ a ∈ r, MatFits c a.precision a.m) → Rel.partsPiecesScoplib c nb nm access nth fake part r = .ok l →
    Triple (relAt c p r ∗ namesPin v names nm ∗ bufAt b t) (scParts c nb access nth fake names r.length part p b)
      (fun b' => relAt c p r ∗ namesPin v names nm ∗ bufAt b' (t ++ l.flatten))
  | [], part, p, b, t, l, _, h => by
    cases h
    simp only [List.flatten_nil, List.append_nil]
    exact Triple.ret (fun _ h => h)
  | pa :: r, part, p, b, t, l, hm, h => by
    unfold Rel.partsPiecesScoplib at h
    obtain ⟨l1, h1, h⟩ := Out.bind_eq_ok.mp h
    obtain ⟨l2, h2, h⟩ := Out.bind_eq_ok.mp h
    cases h
    rw [relAt_open]
    refine Triple.opened (fun h0 hh => ?_)
    obtain ⟨n, m, hh⟩ := hh
    refine ⟨p ↦ .rel (hdr pa) m n ∗ partMat c m pa ∗ relAt c n r, ?_, ?_⟩
    · unfold openAt at hh
      exact hh.perm (by unfold partMat; ac_rfl)
    simp only [List.length_cons, scParts]
    refine Triple.bind (scPart_spec hc (hm pa (List.mem_cons_self ..)) h1) (fun x => Triple.fact (fun hx => ?_))
    rw [hx]
    have ih := scParts_spec hc (v := v) (nb := nb) (names := names) (part := part + 1) (p := n) (b := x.2) (t := t ++ l1.flatten) (fun a' h' => hm a' (List.mem_cons_of_mem _ h')) h2
    hlast ih
    simp only [List.flatten_append, List.append_assoc]
    refine Triple.ret (fun h hh => ?_)
    refine sep_mono (P := p ↦ .rel (hdr pa) m n ∗ partMat c m pa ∗ relAt c n r) (fun h' hx => ⟨n, m, ?_⟩) (fun _ h => h) (hh.perm (by ac_rfl))
    unfold openAt
    exact hx.perm (by unfold partMat; ac_rfl)

/-- The header of the first part. -/
theorem relFirst_spec {c : Cfg} {p : Ptr} {x : Part} {r : Rel} : Triple (relAt c p (x :: r)) (loadRel p) (fun y => pur (y.1 = hdr x) ∗ relAt c p (x :: r)) := by
  rw [relAt_open]
  refine Triple.exi (fun n => Triple.exi (fun m => ?_))
  unfold openAt
  have e := loadRel_spec (p := p) (h := hdr x) (m := m) (n := n)
  refine Triple.last e (F := matAt (kind c x.precision) m x.nb_rows x.nb_columns x.m ∗ relAt c n r) (by ac_rfl) (fun y h hh => ?_)
  rw [sep_assoc, pur_sep_iff] at hh
  obtain ⟨rfl, hh⟩ := hh
  refine pur_sep_iff.mpr ⟨rfl, n, m, ?_⟩
  exact hh.perm (by ac_rfl)

/-- `osl_relation_spprint_polylib_scoplib`, the names being kept at their places. -/
theorem spprint_polylib_scoplib_pin {c : Cfg} (hc : c.Valid) {p q : Ptr} {r : Rel} {v : Nat → Ptr} {names : Option Names} {nth fake : Bool} {t : Str}
    (hm : ∀ a ∈ r, MatFits c a.precision a.m) (h : Rel.spprint_polylib_scoplib c r names nth fake = .ok t) :
    Triple (relAt c p r ∗ namesOpt v q names) (relSpprintPolylibScoplib c p q nth fake) (fun s => relAt c p r ∗ namesOpt v q names ∗ s ↦ .chars t) := by
  unfold relSpprintPolylibScoplib
  cases r with
  | nil =>
    rw [relAt_nil_eq]
    refine Triple.fact (fun hp => ?_)
    subst hp
    rw [if_pos rfl]
    cases h
    hlast Triple.alloc
    hret
  | cons x r =>
    refine Triple.frame_fact relAt_cons_ne (fun hp => ?_)
    rw [if_neg hp]
    unfold Rel.spprint_polylib_scoplib at h
    obtain ⟨nm, h1, h⟩ := Out.bind_eq_ok.mp h
    obtain ⟨parts, h2, h⟩ := Out.bind_eq_ok.mp h
    have ht := emit_ok h
    subst ht
    generalize hT : ((if (x :: r).length > 1 then
          ["# Union with ".toList ++ showNat (x :: r).length ++ " parts\n".toList ++ showNat (x :: r).length ++ ['\n']] else []) ++ parts).flatten = T
    have named : ∀ (v : Nat → Ptr) (q : Ptr) (b : StrBuf), Triple (relAt c p (x :: r) ∗ namesPin v q nm ∗ bufAt b []) (scNamed c nth fake p q b)
        (fun b' => relAt c p (x :: r) ∗ namesPin v q nm ∗ bufAt b' T) := by
      intro v q b
      unfold scNamed
      hstep (Chain.countAll_spec (N := relChain c) (x :: r) p)
      refine Triple.bind (Q := fun b' => relAt c p (x :: r) ∗ namesPin v q nm ∗ bufAt b' ([] ++ (if (x :: r).length > 1 then
          ["# Union with ".toList ++ showNat (x :: r).length ++ " parts\n".toList ++ showNat (x :: r).length ++ ['\n']] else []).flatten)) ?_ (fun b1 => ?_)
      · hlast bufCats_spec
        hret
      refine Triple.bind (Triple.last relFirst_spec (S := fun y => pur (y.1 = hdr x) ∗ relAt c p (x :: r) ∗ namesPin v q nm ∗ bufAt b1 ([] ++ (if (x :: r).length > 1 then
          ["# Union with ".toList ++ showNat (x :: r).length ++ " parts\n".toList ++ showNat (x :: r).length ++ ['\n']] else []).flatten)) rfl (fun y h hh => by rw [sep_assoc] at hh; exact hh))
        (fun y => Triple.fact (fun hy => ?_))
      rw [hy]
      refine (scParts_spec hc hm h2).post (fun b' h hh => ?_)
      rw [List.nil_append, ← List.flatten_append, hT] at hh
      exact hh
    have poly : Triple (relAt c p (x :: r) ∗ namesOpt v q names) (scPolylib c nth fake p q) (fun b' => relAt c p (x :: r) ∗ namesOpt v q names ∗ bufAt b' T) := by
      unfold scPolylib
      refine Triple.bind (Q := fun b => relAt c p (x :: r) ∗ namesOpt v q names ∗ bufAt b []) ?_ (fun b => ?_)
      · hlast bufNew_spec
        hret
      cases names with
      | none =>
        simp only [namesOpt]
        hnorm
        rw [if_pos rfl]
        have gen : Triple (relAt c p (x :: r)) (relNames c p) (fun q => relAt c p (x :: r) ∗ namesAt q (some nm)) := by
          unfold relNames
          have h1 : Rel.relation_names c (x :: r) = .ok nm := h1
          obtain ⟨at1, ha, hg⟩ := Out.bind_eq_ok.mp h1
          hstep ((relation_get_attributes_query ha).triple)
          hlast (names_generate_memory hg)
          hret
        refine Triple.bind (Q := fun q => relAt c p (x :: r) ∗ namesAt q (some nm) ∗ bufAt b []) ?_ (fun q => ?_)
        · hlast gen
          hret
        rw [namesAt_pin]
        refine Triple.bind (Q := fun b' => relAt c p (x :: r) ∗ namesAt q (some nm) ∗ bufAt b' T) ?_ (fun b1 => ?_)
        · rw [ex_sep, sep_ex]
          refine Triple.exi (fun v' => ?_)
          refine (named v' q b).post (fun b' h hh => ?_)
          rw [namesAt_pin]
          exact sep_mono (fun _ h => h) (fun _ hx => sep_mono (fun _ hx => ⟨v', hx⟩) (fun _ h => h) hx) hh
        hstep (names_free_memory q (some nm))
        refine Triple.ret (fun h hh => ?_)
        show (_ ∗ pur (0 = 0) ∗ _) h
        rw [pur_true rfl, emp_sep]
        exact hh
      | some n1 =>
        cases h1
        refine Triple.of_fact (φ := q ≠ 0) ?_ (fun hq => ?_)
        · intro h hh
          obtain ⟨_, _, _, _, _, hh⟩ := hh
          obtain ⟨_, _, _, _, hh, _⟩ := hh
          exact pto_ne_sep _ hh
        rw [if_neg hq]
        exact named v q b
    hstep poly
    hconv bufAt_text
    hret

/-- `osl_relation_spprint_scoplib`, the names being kept at their places. -/
theorem relation_spprint_scoplib_pin {c : Cfg} (hc : c.Valid) {p q : Ptr} {r : Rel} {v : Nat → Ptr} {names : Option Names} {nth fake : Bool} {t : Str}
    (hm : ∀ a ∈ r, MatFits c a.precision a.m) (h : Rel.spprint_scoplib c r names nth fake = .ok t) :
    Triple (relAt c p r ∗ namesOpt v q names) (relSpprintScoplib c p q nth fake) (fun s => relAt c p r ∗ namesOpt v q names ∗ s ↦ .chars t) := by
  unfold relSpprintScoplib
  refine Triple.bind (Q := fun b => relAt c p r ∗ namesOpt v q names ∗ bufAt b []) ?_ (fun b => ?_)
  · hlast bufNew_spec
    hret
  cases r with
  | nil =>
    have ht := emit_ok h
    subst ht
    refine Triple.frame_fact (P := relAt c p []) (φ := p = 0) (fun h hh => ((relAt_nil_eq (c := c) (p := p)) ▸ hh : pur (p = 0) h).1) (fun hp => ?_)
    rw [if_neg (by simp [hp])]
    hconv bufAt_text
    hret
  | cons x r =>
    refine Triple.frame_fact relAt_cons_ne (fun hp => ?_)
    rw [if_pos hp]
    unfold Rel.spprint_scoplib at h
    obtain ⟨u, h1, h⟩ := Out.bind_eq_ok.mp h
    have ht := emit_ok h
    subst ht
    refine Triple.bind (Q := fun temp => (relAt c p (x :: r) ∗ namesOpt v q names) ∗ bufAt b [] ∗ temp ↦ .chars u) ?_ (fun temp => ?_)
    · hlast (spprint_polylib_scoplib_pin hc hm h1)
      hret
    refine Triple.bind bufTake_spec.withF (fun b3 => ?_)
    refine Triple.ret (fun h hh => ?_)
    replace hh := sep_mono (fun _ h => h) bufAt_text hh
    simp only [List.flatten_cons, List.flatten_nil, List.append_nil, List.nil_append] at hh ⊢
    exact hh.perm (by ac_rfl)

/-- `osl_relation_pprint_scoplib`, the names being kept at their places. -/
theorem relation_pprint_scoplib_pin {c : Cfg} (hc : c.Valid) {p q : Ptr} {r : Rel} {v : Nat → Ptr} {names : Option Names} {nth fake : Bool} {t : Str}
    (hm : ∀ a ∈ r, MatFits c a.precision a.m) (h : Rel.spprint_scoplib c r names nth fake = .ok t) :
    Triple (relAt c p r ∗ namesOpt v q names) (relPprintScoplib c p q nth fake) (fun s => pur (s = t) ∗ relAt c p r ∗ namesOpt v q names) := by
  unfold relPprintScoplib
  hstep (relation_spprint_scoplib_pin hc hm h)
  hlast writeFree_spec
  hret

/-- C79: `osl_relation_spprint_scoplib` gives a new string; the relation and the names are unchanged, the names which it generates are freed. -/
theorem relation_spprint_scoplib_memory {c : Cfg} (hc : c.Valid) {p q : Ptr} {r : Rel} {names : Option Names} {nth fake : Bool} {t : Str} (hm : ∀ a ∈ r, MatFits c a.precision a.m)
    (h : Rel.spprint_scoplib c r names nth fake = .ok t) :
    Triple (relAt c p r ∗ namesAt q names) (relSpprintScoplib c p q nth fake) (fun s => relAt c p r ∗ namesAt q names ∗ s ↦ .chars t) :=
  (Triple.unpin (Q := fun s => relAt c p r ∗ s ↦ .chars t) (fun v => (relation_spprint_scoplib_pin (v := v) hc hm h).post (fun _ _ hh => hh.perm (by ac_rfl)))).post
    (fun _ _ hh => hh.perm (by ac_rfl))

/-- C79: `osl_relation_pprint_scoplib` writes this text; the memory is the same before and after. -/
theorem relation_pprint_scoplib_memory {c : Cfg} (hc : c.Valid) {p q : Ptr} {r : Rel} {names : Option Names} {nth fake : Bool} {t : Str} (hm : ∀ a ∈ r, MatFits c a.precision a.m)
    (h : Rel.spprint_scoplib c r names nth fake = .ok t) :
    Triple (relAt c p r ∗ namesAt q names) (relPprintScoplib c p q nth fake) (fun s => pur (s = t) ∗ relAt c p r ∗ namesAt q names) :=
  (Triple.unpin (Q := fun s => pur (s = t) ∗ relAt c p r) (fun v => (relation_pprint_scoplib_pin (v := v) hc hm h).post (fun _ _ hh => hh.perm (by ac_rfl)))).post
    (fun _ _ hh => hh.perm (by ac_rfl))

end Osl.Mem
