import Verif.HeapPrintProps3
/-!
# Printing relations in memory (C74): rows, parts and relations
-/

set_option linter.unusedSectionVars false

namespace Osl.Mem

variable [Allocator]

theorem relPrintCell_spec {c : Cfg} {a : Part} {m : Ptr} {i j v : Int} {u u' : Str} {b : StrBuf} {t : Str} (hv : get2 a.m i j = .ok v) (hu : OInt.sprint c a.precision v = .ok u)
    (hb : Rel.buffered u = .ok u') : Triple (partMat c m a ∗ bufAt b t) (relPrintCell c (hdr a) m i j b) (fun b' => partMat c m a ∗ bufAt b' (t ++ (u' ++ [' ']))) := by
  unfold relPrintCell
  hstep (part_get hv)
  hstep (lift_spec (x := OInt.sprint c (hdr a).precision v) hu)
  hstep (lift_spec hb)
  hstep safe_strcat_memory
  hlast safe_strcat_memory
  rw [List.append_assoc]
  hret

theorem Triple.withF {α : Type} {F P : Assn} {m : M α} {Q : α → Assn} (h : Triple P m Q) : Triple (F ∗ P) m (fun r => F ∗ Q r) :=
  ((h.frame F).pre (fun _ hh => hh.perm (sep_comm _ _))).post (fun _ _ hh => hh.perm (sep_comm _ _))

/-- The memory used when a part is printed: the union from the part on, the names of the columns, the names. -/
def printAt (c : Cfg) (p : Ptr) (a : Part) (m n : Ptr) (rest : Rel) (strings : Ptr) (ws : List Str) (v : Nat → Ptr) (names : Ptr) (nm : Names) : Assn :=
  p ↦ .rel (hdr a) m n ∗ partMat c m a ∗ relAt c n rest ∗ arrayAt strings ws ∗ namesPin v names nm

/-- Where the names of the arrays are. -/
theorem names_arrays {v : Nat → Ptr} {names : Ptr} {nm : Names} {s : Strings} (hs : nm.arrays = some s) {α : Type} {f : Ptr → M α} {F : Assn} {Q : α → Assn}
    (h : ∀ arrays, Triple (F ∗ stringAt arrays s.string) (f arrays) (fun r => Q r ∗ stringAt arrays s.string)) :
    Triple (F ∗ namesPin v names nm) (getField names 4 >>= fun x => getField x 0 >>= f) (fun r => Q r ∗ namesPin v names nm) := by
  hopen namesPin
  hstep (getField_spec (p := names) (i := 4) (x := v 4) rfl)
  generalize hpa : stringsAt (v 0) nm.parameters = wa
  generalize hpb : stringsAt (v 1) nm.iterators = wb
  generalize hpc : stringsAt (v 2) nm.scatt_dims = wc
  generalize hpd : stringsAt (v 3) nm.local_dims = wd
  rw [hs]
  hopen stringsAt
  hstep (getField_spec (p := v 4) (i := 0) (x := a) rfl)
  have := h a
  revert a
  intro q this
  hlast this
  subst hpa hpb hpc hpd
  refine Triple.ret (fun hp hh => ?_)
  refine sep_mono (fun _ h => h) (P := Q a) (Q := names ↦ .ptrs [v 0, v 1, v 2, v 3, v 4] ∗ stringsAt (v 0) nm.parameters ∗ stringsAt (v 1) nm.iterators ∗ stringsAt (v 2) nm.scatt_dims ∗ stringsAt (v 3) nm.local_dims ∗ (v 4 ↦ .ptrs [q] ∗ stringAt q s.string)) ?_ (hh.perm (by ac_rfl))
  intro hp hx
  unfold namesPin
  rw [hs]
  refine sep_mono (fun _ h => h) (fun _ hx => sep_mono (fun _ h => h) (fun _ hx => sep_mono (fun _ h => h) (fun _ hx => sep_mono (fun _ h => h) (fun _ hx => sep_mono (fun _ h => h) (fun _ hx => ⟨q, hx⟩) hx) hx) hx) hx) hx

section

variable {c : Cfg} {p : Ptr} {a : Part} {m n : Ptr} {rest : Rel} {strings : Ptr} {ws : List Str} {v : Nat → Ptr} {names : Ptr} {nm : Names}

/-- One row: the same memory afterwards, the text of the row after the string. -/
theorem relPrintRow_spec (hc : c.Valid) (hm : MatFits c a.precision a.m) {i : Int} {l : List Str} {b : StrBuf} {t : Str} (h : Rel.rowPieces c a rest ws nm i = .ok l) :
    Triple (printAt c p a m n rest strings ws v names nm ∗ bufAt b t) (relPrintRow c p (hdr a) m strings names i b)
      (fun b' => printAt c p a m n rest strings ws v names nm ∗ bufAt b' (t ++ l.flatten)) := by
  unfold Rel.rowPieces at h
  obtain ⟨cells, h1, h⟩ := Out.bind_eq_ok.mp h
  obtain ⟨comment, h2, h⟩ := Out.bind_eq_ok.mp h
  cases h
  rw [upto_idx] at h1
  have loop := Triple.forNS_map (A := fun (b : StrBuf) (l : List (List Str)) => partMat c m a ∗ bufAt b (t ++ l.flatten.flatten))
    (body := fun j b => relPrintCell c (hdr a) m i j b) (f := _) (fun j b l x hx => by
      obtain ⟨val, hv, hx⟩ := Out.bind_eq_ok.mp hx
      obtain ⟨u, hu, hx⟩ := Out.bind_eq_ok.mp hx
      obtain ⟨u', hu', hx⟩ := Out.bind_eq_ok.mp hx
      cases hx
      have := relPrintCell_spec (m := m) (b := b) (t := t ++ l.flatten.flatten) hv hu hu'
      simpa using this) a.nb_columns.toNat 0 b [] cells h1
  have loop : Triple (partMat c m a ∗ bufAt b t) (forS 0 (hdr a).nb_columns (fun j b => relPrintCell c (hdr a) m i j b) b)
      (fun b' => partMat c m a ∗ bufAt b' (t ++ cells.flatten.flatten)) := by
    unfold forS
    rw [Int.sub_zero]
    simp only [List.flatten_nil, List.append_nil, List.nil_append] at loop
    exact loop
  unfold relPrintRow
  hopen printAt
  refine Triple.bind (Q := fun b' => (bufAt b' (t ++ cells.flatten.flatten) ∗ p ↦ .rel (hdr a) m n ∗ partMat c m a ∗ relAt c n rest ∗ arrayAt strings ws) ∗ namesPin v names nm) ?_ (fun b1 => ?_)
  · hlast loop
    hret
  unfold Rel.rowComment at h2
  split at h2
  · rename_i s hs
    have tail := names_arrays (v := v) (names := names) hs (F := bufAt b1 (t ++ cells.flatten.flatten) ∗ p ↦ .rel (hdr a) m n ∗ partMat c m a ∗ relAt c n rest ∗ arrayAt strings ws)
      (f := fun arrays => do
        let comment ← relComment c p (hdr a) m i strings arrays
        let b ← bufTake b1 comment.ptr
        bufCat b ['\n'])
      (Q := fun b' => bufAt b' (t ++ (cells.flatten ++ [comment, ['\n']]).flatten) ∗ p ↦ .rel (hdr a) m n ∗ partMat c m a ∗ relAt c n rest ∗ arrayAt strings ws)
      (fun arrays => by
        have h3 := sprint_comment_memory (p := p) (m := m) (n := n) (strings := strings) (arrays := arrays) (arrs := s.string) hc hm h2
        refine Triple.bind (Q := fun b2 => (rowAt c p a m n rest strings ws arrays s.string ∗ bufAt b2 comment) ∗ bufAt b1 (t ++ cells.flatten.flatten)) ?_ (fun b2 => ?_)
        · refine (h3.frame (bufAt b1 (t ++ cells.flatten.flatten))).pre (fun h hh => ?_)
          unfold rowAt
          exact hh.perm (by ac_rfl)
        · hopen rowAt
          refine Triple.bind (Q := fun b3 => bufAt b3 ((t ++ cells.flatten.flatten) ++ comment) ∗ p ↦ .rel (hdr a) m n ∗ partMat c m a ∗ relAt c n rest ∗ arrayAt strings ws ∗ stringAt arrays s.string) ?_ (fun b3 => ?_)
          · have := bufTake_spec (b := b1) (t := t ++ cells.flatten.flatten) (s := comment) (temp := b2.ptr)
            hconv (bufAt_text (b := b2))
            hlast this
            hret
          · hlast safe_strcat_memory
            simp only [List.flatten_append, List.flatten_cons, List.flatten_nil, List.append_nil, List.append_assoc]
            hret)
    refine tail.post (fun b' h hh => ?_)
    unfold printAt
    exact hh.perm (by ac_rfl)
  · cases h2

theorem strings_length {ws : List Str} (h : Rel.relation_strings a nm = .ok ws) : a.nb_columns = ws.length := by
  unfold Rel.relation_strings at h
  split at h
  · rename_i hd
    obtain ⟨outs, h1, h⟩ := Out.bind_eq_ok.mp h
    obtain ⟨ins, h2, h⟩ := Out.bind_eq_ok.mp h
    obtain ⟨locs, h3, h⟩ := Out.bind_eq_ok.mp h
    obtain ⟨pars, h4, h⟩ := Out.bind_eq_ok.mp h
    cases h
    rw [outputNames_eq] at h1
    obtain ⟨d1, d2, d3, d4, d5⟩ := hd
    have l1 := Out.mapOut_length h1
    have l2 := Out.mapOut_length h2
    have l3 := Out.mapOut_length h3
    have l4 := Out.mapOut_length h4
    simp only [Rel.upto, List.length_map, List.length_range] at l1 l2 l3 l4
    simp only [List.length_append, List.length_cons, List.length_nil]
    omega
  · cases h

theorem header_hdr (a : Part) : Rel.headerLine (hdrPart (hdr a) []) = Rel.headerLine a := rfl

/-- One part. -/
theorem relPrintPart_spec (hc : c.Valid) (hm : MatFits c a.precision a.m) {nb part : Nat} {l : List Str} {b : StrBuf} {t : Str} (h : Rel.partPieces c nb part a rest nm = .ok l) :
    Triple ((p ↦ .rel (hdr a) m n ∗ partMat c m a ∗ relAt c n rest) ∗ namesPin v names nm ∗ bufAt b t) (relPrintPart c nb part p names b)
      (fun r => pur (r.1 = n) ∗ (p ↦ .rel (hdr a) m n ∗ partMat c m a ∗ relAt c n rest) ∗ namesPin v names nm ∗ bufAt r.2 (t ++ l.flatten)) := by
  unfold Rel.partPieces at h
  obtain ⟨ws, h1, h⟩ := Out.bind_eq_ok.mp h
  obtain ⟨cols, h2, h⟩ := Out.bind_eq_ok.mp h
  obtain ⟨rows, h3, h⟩ := Out.bind_eq_ok.mp h
  cases h
  unfold relPrintPart
  hstep (loadRel_spec (p := p))
  refine Triple.bind (Q := fun q => printAt c p a m n rest q ws v names nm ∗ bufAt b t) ?_ (fun q => ?_)
  · hlast (relation_strings_pin h1)
    unfold printAt
    hret
  refine Triple.bind bufCats_spec.withF (fun b1 => ?_)
  rw [header_hdr]
  refine Triple.bind safe_strcat_memory.withF (fun b2 => ?_)
  generalize hx : (t ++ (if nb > 1 then ["# Union part No.".toList ++ showNat part ++ ['\n']] else []).flatten) ++ Rel.headerLine a = x
  refine Triple.bind (Q := fun b' => printAt c p a m n rest q ws v names nm ∗ bufAt b' (x ++ cols.flatten)) ?_ (fun b3 => ?_)
  · hopen printAt
    hlast (relPrintColumns_spec h2)
    unfold printAt
    hret
  rw [upto_idx] at h3
  have loop := Triple.forNS_map (A := fun (b : StrBuf) (l : List (List Str)) => printAt c p a m n rest q ws v names nm ∗ bufAt b (x ++ cols.flatten ++ l.flatten.flatten))
    (body := relPrintRow c p (hdr a) m q names) (f := Rel.rowPieces c a rest ws nm) (fun i b l y hy => by
      have := relPrintRow_spec (v := v) (p := p) (m := m) (n := n) (strings := q) (names := names) (b := b) (t := x ++ cols.flatten ++ l.flatten.flatten) hc hm hy
      simpa using this) a.nb_rows.toNat 0 b3 [] rows h3
  have loop : Triple (printAt c p a m n rest q ws v names nm ∗ bufAt b3 (x ++ cols.flatten)) (forS 0 (hdr a).nb_rows (relPrintRow c p (hdr a) m q names) b3)
      (fun b' => printAt c p a m n rest q ws v names nm ∗ bufAt b' (x ++ cols.flatten ++ rows.flatten.flatten)) := by
    unfold forS
    rw [Int.sub_zero]
    simp only [List.flatten_nil, List.append_nil, List.nil_append] at loop
    exact loop
  refine Triple.bind loop (fun b4 => ?_)
  hopen printAt
  have hl : (hdr a).nb_columns = ws.length := strings_length h1
  hstep (relFreeNames_spec (strings := q) hl)
  subst hx
  simp only [List.flatten_append, List.flatten_cons, List.cons_append, List.append_assoc]
  hret

end

/-- The union parts. -/
theorem relPrintParts_spec {c : Cfg} (hc : c.Valid) {nb : Nat} {v : Nat → Ptr} {names : Ptr} {nm : Names} : ∀ {r : Rel} {part : Nat} {p : Ptr} {b : StrBuf} {t : Str} {l : List Str},
    (∀ a ∈ r, MatFits c a.precision a.m) → Rel.partsPieces c nb nm part r = .ok l →
    Triple (relAt c p r ∗ namesPin v names nm ∗ bufAt b t) (relPrintParts c nb names r.length part p b)
      (fun b' => relAt c p r ∗ namesPin v names nm ∗ bufAt b' (t ++ l.flatten))
  | [], part, p, b, t, l, _, h => by
    cases h
    simp only [List.flatten_nil, List.append_nil]
    exact Triple.ret (fun _ h => h)
  | pa :: r, part, p, b, t, l, hm, h => by
    unfold Rel.partsPieces at h
    obtain ⟨l1, h1, h⟩ := Out.bind_eq_ok.mp h
    obtain ⟨l2, h2, h⟩ := Out.bind_eq_ok.mp h
    cases h
    rw [relAt_open]
    refine Triple.opened (fun h0 hh => ?_)
    obtain ⟨n, m, hh⟩ := hh
    refine ⟨p ↦ .rel (hdr pa) m n ∗ partMat c m pa ∗ relAt c n r, ?_, ?_⟩
    · unfold openAt at hh
      exact hh.perm (by unfold partMat; ac_rfl)
    simp only [List.length_cons, relPrintParts]
    refine Triple.bind (relPrintPart_spec hc (hm pa (List.mem_cons_self ..)) h1) (fun x => Triple.fact (fun hx => ?_))
    rw [hx]
    have ih := relPrintParts_spec hc (v := v) (nb := nb) (names := names) (part := part + 1) (p := n) (b := x.2) (t := t ++ l1.flatten) (fun a' h' => hm a' (List.mem_cons_of_mem _ h')) h2
    hlast ih
    simp only [List.flatten_append, List.append_assoc]
    refine Triple.ret (fun h hh => ?_)
    refine sep_mono (P := p ↦ .rel (hdr pa) m n ∗ partMat c m pa ∗ relAt c n r) (fun h' hx => ⟨n, m, ?_⟩) (fun _ h => h) (hh.perm (by ac_rfl))
    unfold openAt
    exact hx.perm (by unfold partMat; ac_rfl)

theorem emit_ok {l : List Str} {t : Str} (h : Util.emit l = .ok t) : t = l.flatten := by
  rw [Util.emit_eq] at h
  cases h
  rfl

/-- `osl_relation_spprint_polylib`, the names being kept at their places. -/
theorem spprint_polylib_pin {c : Cfg} (hc : c.Valid) {p q : Ptr} {r : Rel} {v : Nat → Ptr} {names : Option Names} {t : Str} (hm : ∀ a ∈ r, MatFits c a.precision a.m)
    (h : Rel.spprint_polylib c r names = .ok t) :
    Triple (relAt c p r ∗ namesOpt v q names) (relSpprintPolylib c p q) (fun s => relAt c p r ∗ namesOpt v q names ∗ s ↦ .chars t) := by
  unfold relSpprintPolylib
  cases r with
  | nil =>
    rw [relAt_nil_eq]
    refine Triple.fact (fun hp => ?_)
    subst hp
    rw [if_pos rfl]
    cases h
    hlast Triple.alloc
    hret
  | cons x r =>
    refine Triple.frame_fact relAt_cons_ne (fun hp => ?_)
    rw [if_neg hp]
    unfold Rel.spprint_polylib at h
    obtain ⟨nm, h1, h⟩ := Out.bind_eq_ok.mp h
    obtain ⟨parts, h2, h⟩ := Out.bind_eq_ok.mp h
    have ht := emit_ok h
    subst ht
    have named : ∀ (v : Nat → Ptr) (q : Ptr) (b : StrBuf), Triple (relAt c p (x :: r) ∗ namesPin v q nm ∗ bufAt b []) (relPrintNamed c p q b)
        (fun b' => relAt c p (x :: r) ∗ namesPin v q nm ∗ bufAt b' (((if (x :: r).length > 1 then
          ["# Union with ".toList ++ showNat (x :: r).length ++ " parts\n".toList ++ showNat (x :: r).length ++ ['\n']] else []) ++ parts).flatten)) := by
      intro v q b
      unfold relPrintNamed
      hstep (Chain.countAll_spec (N := relChain c) (x :: r) p)
      refine Triple.bind (Q := fun b' => relAt c p (x :: r) ∗ namesPin v q nm ∗ bufAt b' ([] ++ (if (x :: r).length > 1 then
          ["# Union with ".toList ++ showNat (x :: r).length ++ " parts\n".toList ++ showNat (x :: r).length ++ ['\n']] else []).flatten)) ?_ (fun b1 => ?_)
      · hlast bufCats_spec
        hret
      refine (relPrintParts_spec hc hm h2).post (fun b' h hh => ?_)
      simp only [List.flatten_append, List.nil_append] at hh ⊢
      exact hh
    have poly : Triple (relAt c p (x :: r) ∗ namesOpt v q names) (relPolylib c p q) (fun b' => relAt c p (x :: r) ∗ namesOpt v q names ∗
        bufAt b' (((if (x :: r).length > 1 then
          ["# Union with ".toList ++ showNat (x :: r).length ++ " parts\n".toList ++ showNat (x :: r).length ++ ['\n']] else []) ++ parts).flatten)) := by
      unfold relPolylib
      refine Triple.bind (Q := fun b => relAt c p (x :: r) ∗ namesOpt v q names ∗ bufAt b []) ?_ (fun b => ?_)
      · hlast bufNew_spec
        hret
      cases names with
      | none =>
        simp only [namesOpt]
        hnorm
        rw [if_pos rfl]
        have gen : Triple (relAt c p (x :: r)) (relNames c p) (fun q => relAt c p (x :: r) ∗ namesAt q (some nm)) := by
          unfold relNames
          have h1 : Rel.relation_names c (x :: r) = .ok nm := h1
          obtain ⟨at1, ha, hg⟩ := Out.bind_eq_ok.mp h1
          hstep ((relation_get_attributes_query ha).triple)
          hlast (names_generate_memory hg)
          hret
        refine Triple.bind (Q := fun q => relAt c p (x :: r) ∗ namesAt q (some nm) ∗ bufAt b []) ?_ (fun q => ?_)
        · hlast gen
          hret
        rw [namesAt_pin]
        refine Triple.bind (Q := fun b' => relAt c p (x :: r) ∗ namesAt q (some nm) ∗ bufAt b' (((if (x :: r).length > 1 then
          ["# Union with ".toList ++ showNat (x :: r).length ++ " parts\n".toList ++ showNat (x :: r).length ++ ['\n']] else []) ++ parts).flatten)) ?_ (fun b1 => ?_)
        · rw [ex_sep, sep_ex]
          refine Triple.exi (fun v' => ?_)
          refine (named v' q b).post (fun b' h hh => ?_)
          rw [namesAt_pin]
          exact sep_mono (fun _ h => h) (fun _ hx => sep_mono (fun _ hx => ⟨v', hx⟩) (fun _ h => h) hx) hh
        hstep (names_free_memory q (some nm))
        refine Triple.ret (fun h hh => ?_)
        show (_ ∗ pur (0 = 0) ∗ _) h
        rw [pur_true rfl, emp_sep]
        exact hh
      | some n1 =>
        cases h1
        refine Triple.of_fact (φ := q ≠ 0) ?_ (fun hq => ?_)
        · intro h hh
          obtain ⟨_, _, _, _, _, hh⟩ := hh
          obtain ⟨_, _, _, _, hh, _⟩ := hh
          exact pto_ne_sep _ hh
        rw [if_neg hq]
        exact named v q b
    hstep poly
    hconv bufAt_text
    hret

/-- `osl_relation_spprint`, the names being kept at their places. -/
theorem relation_spprint_pin {c : Cfg} (hc : c.Valid) {p q : Ptr} {r : Rel} {v : Nat → Ptr} {names : Option Names} {t : Str} (hm : ∀ a ∈ r, MatFits c a.precision a.m)
    (h : Rel.spprint c r names = .ok t) :
    Triple (relAt c p r ∗ namesOpt v q names) (relSpprint c p q) (fun s => relAt c p r ∗ namesOpt v q names ∗ s ↦ .chars t) := by
  unfold relSpprint
  refine Triple.bind (Q := fun b => relAt c p r ∗ namesOpt v q names ∗ bufAt b []) ?_ (fun b => ?_)
  · hlast bufNew_spec
    hret
  hstep (Chain.countAll_spec (N := relChain c) r p)
  cases r with
  | nil =>
    have ht := emit_ok h
    subst ht
    rw [if_neg (by simp)]
    hconv bufAt_text
    hret
  | cons x r =>
    rw [if_pos (by simp)]
    unfold Rel.spprint at h
    obtain ⟨u, h1, h⟩ := Out.bind_eq_ok.mp h
    have ht := emit_ok h
    subst ht
    have ty : Triple (relAt c p (x :: r)) (loadRel p) (fun y => pur (y.1.type = x.type) ∗ relAt c p (x :: r)) := by
      rw [relAt_open]
      refine Triple.exi (fun n => Triple.exi (fun m => ?_))
      unfold openAt
      have e := loadRel_spec (p := p) (h := hdr x) (m := m) (n := n)
      refine Triple.last e (F := matAt (kind c x.precision) m x.nb_rows x.nb_columns x.m ∗ relAt c n r) (by ac_rfl) (fun y h hh => ?_)
      rw [sep_assoc, pur_sep_iff] at hh
      obtain ⟨rfl, hh⟩ := hh
      refine pur_sep_iff.mpr ⟨rfl, n, m, ?_⟩
      exact hh.perm (by ac_rfl)
    refine Triple.bind (Q := fun y => pur (y.1.type = x.type) ∗ relAt c p (x :: r) ∗ namesOpt v q names ∗ bufAt b []) ?_ (fun y => Triple.fact (fun hy => ?_))
    · hlast ty
      hret
    rw [hy]
    refine Triple.bind (Q := fun temp => (relAt c p (x :: r) ∗ namesOpt v q names) ∗ bufAt b [] ∗ temp ↦ .chars (Rel.sprint_type x.type)) ?_ (fun temp => ?_)
    · unfold relSprintType
      hlast Triple.alloc
      hret
    refine Triple.bind bufTake_spec.withF (fun b1 => ?_)
    refine Triple.bind safe_strcat_memory.withF (fun b2 => ?_)
    refine Triple.bind (Q := fun temp => (relAt c p (x :: r) ∗ namesOpt v q names) ∗ bufAt b2 ([] ++ Rel.sprint_type x.type ++ ['\n']) ∗ temp ↦ .chars u) ?_ (fun temp => ?_)
    · hlast (spprint_polylib_pin hc hm h1)
      hret
    refine Triple.bind bufTake_spec.withF (fun b3 => ?_)
    refine Triple.ret (fun h hh => ?_)
    replace hh := sep_mono (fun _ h => h) bufAt_text hh
    simp only [List.flatten_cons, List.flatten_nil, List.append_nil, List.nil_append, List.append_assoc] at hh ⊢
    exact hh.perm (by ac_rfl)

/-- C74: `osl_relation_spprint_polylib` gives a new string; the relation and the names are unchanged, and the names which it generates are freed. -/
theorem spprint_polylib_memory {c : Cfg} (hc : c.Valid) {p q : Ptr} {r : Rel} {names : Option Names} {t : Str} (hm : ∀ a ∈ r, MatFits c a.precision a.m)
    (h : Rel.spprint_polylib c r names = .ok t) :
    Triple (relAt c p r ∗ namesAt q names) (relSpprintPolylib c p q) (fun s => relAt c p r ∗ namesAt q names ∗ s ↦ .chars t) :=
  (Triple.unpin (Q := fun s => relAt c p r ∗ s ↦ .chars t) (fun v => (spprint_polylib_pin (v := v) hc hm h).post (fun _ _ hh => hh.perm (by ac_rfl)))).post
    (fun _ _ hh => hh.perm (by ac_rfl))

/-- C74: `osl_relation_spprint`. -/
theorem relation_spprint_memory {c : Cfg} (hc : c.Valid) {p q : Ptr} {r : Rel} {names : Option Names} {t : Str} (hm : ∀ a ∈ r, MatFits c a.precision a.m)
    (h : Rel.spprint c r names = .ok t) :
    Triple (relAt c p r ∗ namesAt q names) (relSpprint c p q) (fun s => relAt c p r ∗ namesAt q names ∗ s ↦ .chars t) :=
  (Triple.unpin (Q := fun s => relAt c p r ∗ s ↦ .chars t) (fun v => (relation_spprint_pin (v := v) hc hm h).post (fun _ _ hh => hh.perm (by ac_rfl)))).post
    (fun _ _ hh => hh.perm (by ac_rfl))

/-- C74: `osl_relation_sprint`. -/
theorem relation_sprint_memory {c : Cfg} (hc : c.Valid) {p : Ptr} {r : Rel} {t : Str} (hm : ∀ a ∈ r, MatFits c a.precision a.m) (h : Rel.sprint c r = .ok t) :
    Triple (relAt c p r) (relSprint c p) (fun s => relAt c p r ∗ s ↦ .chars t) := by
  have := relation_spprint_memory hc (p := p) (q := 0) hm h
  simp only [namesAt, pur_true, sep_emp, emp_sep] at this
  exact this

/-- `osl_relation_pprint`, the names being kept at their places. -/
theorem relation_pprint_pin {c : Cfg} (hc : c.Valid) {p q : Ptr} {r : Rel} {v : Nat → Ptr} {names : Option Names} {t : Str} (hm : ∀ a ∈ r, MatFits c a.precision a.m)
    (h : Rel.spprint c r names = .ok t) :
    Triple (relAt c p r ∗ namesOpt v q names) (relPprint c p q) (fun s => pur (s = t) ∗ relAt c p r ∗ namesOpt v q names) := by
  unfold relPprint
  hstep (relation_spprint_pin hc hm h)
  hlast writeFree_spec
  hret

/-- C74: `osl_relation_pprint` writes the text of `osl_relation_spprint`; the memory is the same before and after. -/
theorem relation_pprint_memory {c : Cfg} (hc : c.Valid) {p q : Ptr} {r : Rel} {names : Option Names} {t : Str} (hm : ∀ a ∈ r, MatFits c a.precision a.m)
    (h : Rel.spprint c r names = .ok t) :
    Triple (relAt c p r ∗ namesAt q names) (relPprint c p q) (fun s => pur (s = t) ∗ relAt c p r ∗ namesAt q names) :=
  (Triple.unpin (Q := fun s => pur (s = t) ∗ relAt c p r) (fun v => (relation_pprint_pin (v := v) hc hm h).post (fun _ _ hh => hh.perm (by ac_rfl)))).post
    (fun _ _ hh => hh.perm (by ac_rfl))

/-- C74: `osl_relation_print`. -/
theorem relation_print_memory {c : Cfg} (hc : c.Valid) {p : Ptr} {r : Rel} {t : Str} (hm : ∀ a ∈ r, MatFits c a.precision a.m) (h : Rel.sprint c r = .ok t) :
    Triple (relAt c p r) (relPrint c p) (fun s => pur (s = t) ∗ relAt c p r) := by
  unfold relPrint relPprint
  have := relation_sprint_memory hc (p := p) hm h
  unfold relSprint at this
  hstep this
  hlast writeFree_spec
  hret

end Osl.Mem
