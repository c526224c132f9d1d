import Verif.HeapPrintProps2
/-!
# Printing relations in memory (C74): the names of the columns
-/

set_option linter.unusedSectionVars false

namespace Osl.Mem

variable [Allocator]

/-! ## Arrays of names being filled -/

/-- An array of strings which is being filled: `k` entries are NULL. -/
def fillAt (arr : Ptr) (ws : List Str) (k : Nat) : Assn := ex fun ps => arr ↦ .ptrs (ps ++ List.replicate k 0) ∗ wordsAt ps ws

theorem fillAt_full {arr : Ptr} {ws : List Str} : fillAt arr ws 1 = arrayAt arr ws := rfl

theorem fill_set {arr d : Ptr} {ws : List Str} {w : Str} {k : Nat} {i : Int} (hi : i = ws.length) :
    Triple (fillAt arr ws (k + 1) ∗ d ↦ .chars w) (setField arr i.toNat d) (fun _ => fillAt arr (ws ++ [w]) k) := by
  hopen fillAt
  hfact (fun h (hh : wordsAt ps ws h) => wordsAt_length hh)
  intro hl
  have hs : setNth (ps ++ List.replicate (k + 1) 0) i.toNat d = .ok ((ps ++ [d]) ++ List.replicate k 0) := by
    rw [List.replicate_succ, List.append_assoc]
    exact setNth_append_mid (by omega)
  hlast (setField_spec (p := arr) hs)
  refine Triple.ret (fun h hh => ⟨ps ++ [d], ?_⟩)
  exact sep_mono (fun _ h => h) (words_last) (hh.perm (by ac_rfl))

theorem fillNames_spec {get : Int → M Ptr} {f : Int → Out Str} {F : Assn} (hg : ∀ i w, f i = .ok w → Triple F (get i) (fun d => F ∗ d ↦ .chars w)) {arr : Ptr} {offset : Int} :
    ∀ (n : Nat) (j : Int) (ws vs : List Str) (k : Nat), offset + j = ws.length → Out.mapOut f (idx n j) = .ok vs →
      Triple (F ∗ fillAt arr ws (k + n)) (forN (fun i => do
        let d ← get (i - offset)
        setField arr i.toNat d) n (offset + j)) (fun _ => F ∗ fillAt arr (ws ++ vs) k)
  | 0, j, ws, vs, k, _, h => by
    cases h
    rw [List.append_nil]
    exact Triple.ret (fun _ h => h)
  | n + 1, j, ws, vs, k, hj, h => by
    obtain ⟨w, vs, h1, h2, rfl⟩ := Out.mapOut_cons_eq_ok.mp h
    unfold forN
    have e : offset + j - offset = j := by omega
    have b : Triple (F ∗ fillAt arr ws (k + (n + 1))) (do
        let d ← get (offset + j - offset)
        setField arr (offset + j).toNat d) (fun _ => F ∗ fillAt arr (ws ++ [w]) (k + n)) := by
      rw [e]
      hstep (hg j w h1)
      hlast (fill_set (arr := arr) (w := w) (k := k + n) (ws := ws) hj)
      hret
    refine Triple.bind b (fun _ => ?_)
    have := fillNames_spec hg (arr := arr) (offset := offset) n (j + 1) (ws ++ [w]) vs k (by simp; omega) h2
    rw [← Int.add_assoc] at this
    simpa using this

theorem fillList_spec {get : Int → M Ptr} {f : Int → Out Str} {F : Assn} (hg : ∀ i w, f i = .ok w → Triple F (get i) (fun d => F ∗ d ↦ .chars w)) {arr : Ptr} {offset n : Int} {ws vs : List Str}
    {k : Nat} (ho : offset = ws.length) (h : Out.mapOut f (Rel.upto n) = .ok vs) :
    Triple (F ∗ fillAt arr ws (k + n.toNat)) (fillNames get arr offset n) (fun _ => F ∗ fillAt arr (ws ++ vs) k) := by
  unfold fillNames forM
  rw [upto_idx] at h
  have e : (n + offset - offset).toNat = n.toNat := by congr 1; omega
  rw [e]
  have := fillNames_spec hg (arr := arr) (offset := offset) n.toNat 0 ws vs k (by omega) h
  rw [Int.add_zero] at this
  exact this

/-! ## Names -/

theorem nameAt_some {s : Option Strings} {i : Int} {w : Str} (h : Rel.nameAt s i = .ok w) : ∃ l, s = some ⟨some l⟩ ∧ l[i.toNat]? = some w := by
  unfold Rel.nameAt at h
  split at h
  · rename_i l
    split at h
    · rename_i w' hw
      cases h
      exact ⟨l, rfl, hw⟩
    · cases h
  · cases h

theorem strDup_spec {x : Ptr} {s : Option Strings} {i : Int} {w : Str} (h : Rel.nameAt s i = .ok w) :
    Triple (stringsAt x s) (do
      let b ← getField x 0
      let q ← getField b i.toNat
      hStrdup q) (fun d => stringsAt x s ∗ d ↦ .chars w) := by
  obtain ⟨l, rfl, hl⟩ := nameAt_some h
  have w1 : ∀ b, Triple (arrayAt b l ∗ emp) (getField b i.toNat >>= fun q => hStrdup q) (fun d => arrayAt b l ∗ d ↦ .chars w) := fun b =>
    with_word hl (f := fun q => hStrdup q) (Q := fun d => d ↦ .chars w) (fun q => by
      rw [sep_emp]
      exact hStrdup_spec)
  simp only [stringsAt, stringAt]
  refine Triple.exi (fun b => ?_)
  hstep (getField_spec (p := x) (i := 0) (x := b) rfl)
  have := w1 b
  rw [sep_emp] at this
  hlast this
  refine Triple.ret (fun hp hh => ?_)
  exact sep_mono (P := ex fun b => x ↦ .ptrs [b] ∗ arrayAt b l) (P' := ex fun b => x ↦ .ptrs [b] ∗ arrayAt b l) (fun _ h => h) (fun _ h => h)
    (sep_mono (P := x ↦ .ptrs [b] ∗ arrayAt b l) (fun _ h => ⟨b, h⟩) (fun _ h => h) (hh.perm (by ac_rfl)))

/-- The field of an `osl_names_t`. -/
def nameField (n : Names) : Nat → Option Strings
  | 0 => n.parameters
  | 1 => n.iterators
  | 2 => n.scatt_dims
  | 3 => n.local_dims
  | _ => n.arrays

/-- The memory of an `osl_names_t` whose fields are the pointers `v`. -/
def namesPin (v : Nat → Ptr) (p : Ptr) (n : Names) : Assn := p ↦ .ptrs [v 0, v 1, v 2, v 3, v 4] ∗ stringsAt (v 0) n.parameters ∗
  stringsAt (v 1) n.iterators ∗ stringsAt (v 2) n.scatt_dims ∗ stringsAt (v 3) n.local_dims ∗ stringsAt (v 4) n.arrays

/-- The same memory, NULL when there are no names. -/
def namesOpt (v : Nat → Ptr) (p : Ptr) : Option Names → Assn
  | none => pur (p = 0)
  | some n => namesPin v p n

theorem namesAt_pin (p : Ptr) (n : Names) : namesAt p (some n) = ex fun v => namesPin v p n := by
  funext h
  refine propext ⟨fun hh => ?_, fun hh => ?_⟩
  · obtain ⟨a, b, c, d, e, hh⟩ := hh
    exact ⟨fun i => match i with | 0 => a | 1 => b | 2 => c | 3 => d | _ => e, hh⟩
  · obtain ⟨v, hh⟩ := hh
    exact ⟨v 0, v 1, v 2, v 3, v 4, hh⟩

theorem namesAt_opt (p : Ptr) (n : Option Names) : namesAt p n = ex fun v => namesOpt v p n := by
  cases n with
  | none =>
    funext h
    exact propext ⟨fun hh => ⟨fun _ => 0, hh⟩, fun ⟨_, hh⟩ => hh⟩
  | some n => exact namesAt_pin p n

/-- A triple which keeps the names at their places is a triple for the names. -/
theorem Triple.unpin {α : Type} {P : Assn} {q : Ptr} {n : Option Names} {m : M α} {Q : α → Assn} (h : ∀ v, Triple (P ∗ namesOpt v q n) m (fun r => Q r ∗ namesOpt v q n)) :
    Triple (P ∗ namesAt q n) m (fun r => Q r ∗ namesAt q n) := by
  rw [namesAt_opt, sep_ex]
  refine Triple.exi (fun v => (h v).post (fun r h hh => ?_))
  exact sep_mono (fun _ h => h) (fun _ hx => ⟨v, hx⟩) hh

theorem nameDup_spec {names : Ptr} {n : Names} {v : Nat → Ptr} {field : Nat} (hf : field < 5) {i : Int} {w : Str} (h : Rel.nameAt (nameField n field) i = .ok w) :
    Triple (namesPin v names n) (nameDup names field i) (fun d => namesPin v names n ∗ d ↦ .chars w) := by
  unfold nameDup
  have hx : field = 0 ∨ field = 1 ∨ field = 2 ∨ field = 3 ∨ field = 4 := by omega
  hopen namesPin
  rcases hx with rfl | rfl | rfl | rfl | rfl
  · hstep (getField_spec (p := names) (i := 0) (x := v 0) rfl)
    hlast (strDup_spec (x := v 0) h)
    unfold namesPin
    simp only [nameField]
    hret
  · hstep (getField_spec (p := names) (i := 1) (x := v 1) rfl)
    hlast (strDup_spec (x := v 1) h)
    unfold namesPin
    simp only [nameField]
    hret
  · hstep (getField_spec (p := names) (i := 2) (x := v 2) rfl)
    hlast (strDup_spec (x := v 2) h)
    unfold namesPin
    simp only [nameField]
    hret
  · hstep (getField_spec (p := names) (i := 3) (x := v 3) rfl)
    hlast (strDup_spec (x := v 3) h)
    unfold namesPin
    simp only [nameField]
    hret
  · hstep (getField_spec (p := names) (i := 4) (x := v 4) rfl)
    hlast (strDup_spec (x := v 4) h)
    unfold namesPin
    simp only [nameField]
    hret

theorem mapOut_map {α β : Type} (g : α → β) : ∀ l : List α, Out.mapOut (fun i => Out.ok (g i)) l = .ok (l.map g)
  | [] => rfl
  | x :: l => by
    refine Out.mapOut_cons_eq_ok.mpr ⟨g x, l.map g, rfl, mapOut_map g l, rfl⟩

/-- The name of an output dimension. -/
def outName (a : Part) (n : Names) (i : Int) : Out Str :=
  if Rel.isAccessPart a then .ok (if i = 0 then "Arr".toList else '[' :: showInt i ++ [']'])
  else if a.type = TYPE_DOMAIN ∨ a.type = TYPE_CONTEXT then Rel.nameAt n.iterators i
  else Rel.nameAt n.scatt_dims i

theorem outputNames_eq (a : Part) (n : Names) : Rel.outputNames a n = Out.mapOut (outName a n) (Rel.upto a.nb_output_dims) := by
  unfold Rel.outputNames
  by_cases h1 : Rel.isAccessPart a = true
  · rw [if_pos h1]
    have : outName a n = fun i => .ok (if i = 0 then "Arr".toList else '[' :: showInt i ++ [']']) := by
      funext i
      unfold outName
      rw [if_pos h1]
    rw [this, mapOut_map]
  · rw [if_neg h1]
    by_cases h2 : a.type = TYPE_DOMAIN ∨ a.type = TYPE_CONTEXT
    · rw [if_pos h2]
      have : outName a n = Rel.nameAt n.iterators := by
        funext i
        unfold outName
        rw [if_neg h1, if_pos h2]
      rw [this]
    · rw [if_neg h2]
      have : outName a n = Rel.nameAt n.scatt_dims := by
        funext i
        unfold outName
        rw [if_neg h1, if_neg h2]
      rw [this]

theorem outputName_spec {a : Part} {names : Ptr} {n : Names} {v : Nat → Ptr} {i : Int} {w : Str} (h : outName a n i = .ok w) :
    Triple (namesPin v names n) (outputName (hdr a) names i) (fun d => namesPin v names n ∗ d ↦ .chars w) := by
  unfold outputName
  rw [access_hdr]
  unfold outName at h
  split at h
  · rename_i h1
    cases h
    rw [if_pos h1]
    unfold accessName
    hlast Triple.alloc
    hret
  · rename_i h1
    rw [if_neg h1]
    split at h
    · rename_i h2
      have h2 : (hdr a).type = TYPE_DOMAIN ∨ (hdr a).type = TYPE_CONTEXT := h2
      rw [if_pos h2]
      exact nameDup_spec (by decide) h
    · rename_i h2
      have h2 : ¬ ((hdr a).type = TYPE_DOMAIN ∨ (hdr a).type = TYPE_CONTEXT) := h2
      rw [if_neg h2]
      exact nameDup_spec (by decide) h

/-- `osl_relation_strings`, the names being kept at their places. -/
theorem relation_strings_pin {a : Part} {names : Ptr} {n : Names} {v : Nat → Ptr} {ws : List Str} (h : Rel.relation_strings a n = .ok ws) :
    Triple (namesPin v names n) (relStrings (hdr a) names) (fun q => namesPin v names n ∗ arrayAt q ws) := by
  unfold Rel.relation_strings at h
  split at h
  · rename_i hd
    obtain ⟨outs, h1, h⟩ := Out.bind_eq_ok.mp h
    obtain ⟨ins, h2, h⟩ := Out.bind_eq_ok.mp h
    obtain ⟨locs, h3, h⟩ := Out.bind_eq_ok.mp h
    obtain ⟨pars, h4, h⟩ := Out.bind_eq_ok.mp h
    cases h
    rw [outputNames_eq] at h1
    obtain ⟨d1, d2, d3, d4, d5⟩ := hd
    have l1 := Out.mapOut_length h1
    have l2 := Out.mapOut_length h2
    have l3 := Out.mapOut_length h3
    have l4 := Out.mapOut_length h4
    simp only [Rel.upto, List.length_map, List.length_range] at l1 l2 l3 l4
    unfold relStrings
    have hd' : (hdrPart (hdr a) []).Dims := ⟨d1, d2, d3, d4, d5⟩
    rw [if_pos hd']
    hstep (lift_spec (x := .ok ()) rfl)
    refine Triple.bind (Q := fun strings => namesPin v names n ∗ fillAt strings [] (1 + 1 + a.nb_parameters.toNat + a.nb_local_dims.toNat + a.nb_input_dims.toNat + a.nb_output_dims.toNat + 1)) ?_ (fun strings => ?_)
    · have e : (hdr a).nb_columns.toNat + 1 = 1 + 1 + a.nb_parameters.toNat + a.nb_local_dims.toNat + a.nb_input_dims.toNat + a.nb_output_dims.toNat + 1 := by
        show a.nb_columns.toNat + 1 = _
        omega
      hlast Triple.alloc
      refine Triple.ret (fun h hh => ?_)
      refine sep_mono (fun _ h => h) (fun _ hx => ⟨[], ?_⟩) (hh.perm (sep_comm _ _))
      rw [← e]
      show (_ ∗ emp) _
      rw [sep_emp]
      exact hx
    refine Triple.bind (Q := fun s => s ↦ .chars "e/i".toList ∗ namesPin v names n ∗ fillAt strings [] (1 + 1 + a.nb_parameters.toNat + a.nb_local_dims.toNat + a.nb_input_dims.toNat + a.nb_output_dims.toNat + 1)) ?_ (fun s => ?_)
    · hlast Triple.alloc
      hret
    have f0 : Triple (s ↦ .chars "e/i".toList ∗ namesPin v names n ∗ fillAt strings [] (1 + 1 + a.nb_parameters.toNat + a.nb_local_dims.toNat + a.nb_input_dims.toNat + a.nb_output_dims.toNat + 1))
        (setField strings 0 s) (fun _ => namesPin v names n ∗ fillAt strings (["e/i".toList]) (1 + 1 + a.nb_parameters.toNat + a.nb_local_dims.toNat + a.nb_input_dims.toNat + a.nb_output_dims.toNat)) := by
      have := fill_set (arr := strings) (d := s) (ws := []) (w := "e/i".toList) (k := 1 + 1 + a.nb_parameters.toNat + a.nb_local_dims.toNat + a.nb_input_dims.toNat + a.nb_output_dims.toNat) (i := 0) rfl
      hlast this
      hret
    refine Triple.bind f0 (fun _ => ?_)
    refine Triple.bind (fillList_spec (f := outName a n) (fun i w h => outputName_spec h) rfl h1) (fun _ => ?_)
    refine Triple.bind (fillList_spec (f := Rel.nameAt n.iterators) (fun i w h => nameDup_spec (n := n) (field := 1) (by decide) h) ?_ h2) (fun _ => ?_)
    · show 1 + a.nb_output_dims = _
      simp only [List.length_append, List.length_cons, List.length_nil]
      omega
    refine Triple.bind (fillList_spec (f := Rel.nameAt n.local_dims) (fun i w h => nameDup_spec (n := n) (field := 3) (by decide) h) ?_ h3) (fun _ => ?_)
    · show 1 + a.nb_output_dims + a.nb_input_dims = _
      simp only [List.length_append, List.length_cons, List.length_nil]
      omega
    refine Triple.bind (fillList_spec (f := Rel.nameAt n.parameters) (fun i w h => nameDup_spec (n := n) (field := 0) (by decide) h) ?_ h4) (fun _ => ?_)
    · show 1 + a.nb_output_dims + a.nb_input_dims + a.nb_local_dims = _
      simp only [List.length_append, List.length_cons, List.length_nil]
      omega
    refine Triple.bind (Q := fun s => s ↦ .chars ['1'] ∗ namesPin v names n ∗ fillAt strings (["e/i".toList] ++ outs ++ ins ++ locs ++ pars) (1 + 1)) ?_ (fun s1 => ?_)
    · hlast Triple.alloc
      hret
    have := fill_set (arr := strings) (d := s1) (ws := ["e/i".toList] ++ outs ++ ins ++ locs ++ pars) (w := ['1']) (k := 1)
      (i := 1 + (hdr a).nb_output_dims + (hdr a).nb_input_dims + (hdr a).nb_local_dims + (hdr a).nb_parameters) (by
        show 1 + a.nb_output_dims + a.nb_input_dims + a.nb_local_dims + a.nb_parameters = _
        simp only [List.length_append, List.length_cons, List.length_nil]
        omega)
    hstep this
    rw [fillAt_full]
    hret
  · cases h

/-- C74: `osl_relation_strings` gives a new array of new strings, one for each column. -/
theorem relation_strings_memory {a : Part} {names : Ptr} {n : Names} {ws : List Str} (h : Rel.relation_strings a n = .ok ws) :
    Triple (namesAt names (some n)) (relStrings (hdr a) names) (fun q => namesAt names (some n) ∗ arrayAt q ws) := by
  rw [namesAt_pin]
  refine Triple.exi (fun v => (relation_strings_pin (v := v) h).post (fun q h hh => ?_))
  exact sep_mono (fun _ hx => ⟨v, hx⟩) (fun _ h => h) hh

/-! ## The line of the columns -/

theorem readWords_spec {arr : Ptr} : ∀ (ps qs : List Ptr) (us vs : List Str) (f i : Nat), qs.length = i → ps.length < f → us.length = i →
    Triple (arr ↦ .ptrs (qs ++ ps ++ [0]) ∗ wordsAt ps vs) (readWords arr f i) (fun r => pur (r = vs) ∗ arr ↦ .ptrs (qs ++ ps ++ [0]) ∗ wordsAt ps vs)
  | ps, qs, us, vs, 0, i, _, h, _ => by omega
  | [], qs, us, vs, f + 1, i, hq, _, _ => by
    unfold readWords
    simp only [List.append_nil]
    hstep (getField_spec (p := arr) (nth_append_mid (b := []) hq))
    rw [if_pos rfl]
    cases vs with
    | nil => hret
    | cons v vs => simp only [wordsAt]; hnorm; contradiction
  | p :: ps, qs, us, [], f + 1, i, _, _, _ => by
    simp only [wordsAt]; hnorm; contradiction
  | p :: ps, qs, us, v :: vs, f + 1, i, hq, hf, hu => by
    unfold readWords
    simp only [wordsAt, List.append_assoc, List.cons_append]
    hstep (getField_spec (p := arr) (nth_append_mid hq))
    hfact (fun h (hh : (p ↦ .chars v) h) => pto_ne h hh)
    intro hp
    rw [if_neg hp]
    hstep (loadChars_spec (p := p) (w := v))
    have ih := readWords_spec (arr := arr) ps (qs ++ [p]) (us ++ [[]]) vs f (i + 1) (by simp [hq]) (by simpa using hf) (by simp [hu])
    simp only [List.append_assoc, List.cons_append, List.nil_append] at ih
    hstep ih
    hret

theorem truncated_short {s : Str} (h : s.length < MAX_STRING) : Rel.truncated s = s := by
  unfold Rel.truncated
  exact List.take_of_length_le (by omega)

/-- C74: `osl_relation_column_string` gives a new string. -/
theorem column_string_memory {a : Part} {strings : Ptr} {ws : List Str} {t : Str} (h : Rel.column_string a ws = .ok t) :
    Triple (arrayAt strings ws) (relColumns (hdr a) strings) (fun q => arrayAt strings ws ∗ q ↦ .chars t) := by
  unfold relColumns
  refine Triple.bind (Q := fun q => arrayAt strings ws ∗ q ↦ .chars []) ?_ (fun q => ?_)
  · hlast Triple.alloc
    hret
  hopen arrayAt
  hstep (loadPtrs_spec (p := strings))
  have rw1 := readWords_spec (arr := strings) ps [] [] ws (ps ++ [0]).length 0 rfl (by simp) rfl
  simp only [List.nil_append] at rw1
  hstep rw1
  have h' : Rel.column_string (hdrPart (hdr a) []) ws = .ok t := by
    rw [← h]
    have : ∀ (l : List Str) (i : Int), Rel.columns (hdrPart (hdr a) []) l i = Rel.columns a l i := by
      intro l
      induction l with
      | nil => intro i; rfl
      | cons x l ih => intro i; simp only [Rel.columns, ih]; rfl
    unfold Rel.column_string
    rw [this]
  hstep (lift_spec h')
  hstep (Triple.store (p := q))
  refine Triple.ret (fun h hh => ?_)
  exact sep_mono (P := strings ↦ .ptrs (ps ++ [0]) ∗ wordsAt ps ws) (fun _ h => ⟨ps, h⟩) (fun _ h => h) (hh.perm (by ac_rfl))

theorem relPrintColumns_spec {a : Part} {strings : Ptr} {ws : List Str} {l : List Str} {b : StrBuf} {t : Str} (h : Rel.columnPieces a ws = .ok l) :
    Triple (arrayAt strings ws ∗ bufAt b t) (relPrintColumns (hdr a) strings b) (fun b' => arrayAt strings ws ∗ bufAt b' (t ++ l.flatten)) := by
  unfold Rel.columnPieces at h
  unfold relPrintColumns
  split at h
  · rename_i h0
    obtain ⟨s, hs, h⟩ := Out.bind_eq_ok.mp h
    cases h
    have h0 : (hdr a).nb_rows > 0 := h0
    rw [if_pos h0]
    hstep (column_string_memory hs)
    hlast bufExpr_spec
    have hb : s.length < MAX_STRING := by
      unfold Rel.column_string Rel.buffered at hs
      split at hs
      · cases hs; assumption
      · cases hs
    rw [List.nil_append, truncated_short hb]
    simp only [List.flatten_cons, List.flatten_nil, List.append_nil]
    hret
  · rename_i h0
    cases h
    have h0 : ¬ (hdr a).nb_rows > 0 := h0
    rw [if_neg h0]
    simp only [List.flatten_nil, List.append_nil]
    exact Triple.ret (fun _ h => h)

/-- The deallocation of the strings. -/
theorem relFreeNames_spec {strings : Ptr} {ws : List Str} {n : Int} (hn : n = ws.length) : Triple (arrayAt strings ws) (relFreeNames strings n) (fun _ => emp) := by
  unfold relFreeNames
  hopen arrayAt
  hfact (fun h (hh : wordsAt ps ws h) => wordsAt_length hh)
  intro hl
  have loop := Triple.forM (Inv := fun i => strings ↦ .ptrs (ps ++ [0]) ∗ wordsAt (ps.drop i.toNat) (ws.drop i.toNat)) (lo := 0) (hi := n)
    (body := fun i => do
      let s ← getField strings i.toNat
      free s) (by omega) (fun i h1 h2 => by
      have hi : i.toNat < ps.length := by omega
      have hi' : i.toNat < ws.length := by omega
      rw [List.drop_eq_getElem_cons hi, List.drop_eq_getElem_cons hi']
      have e : (i + 1).toNat = i.toNat + 1 := by omega
      simp only [wordsAt, e]
      have hg : nth (ps ++ [0]) i.toNat = .ok ps[i.toNat] := by
        have := split_at hi
        have e2 : ps ++ [0] = ps.take i.toNat ++ ps[i.toNat] :: (ps.drop (i.toNat + 1) ++ [0]) := by
          have h3 : ps ++ [0] = (ps.take i.toNat ++ ps[i.toNat] :: ps.drop (i.toNat + 1)) ++ [0] := by rw [← this]
          rw [h3]
          simp only [List.append_assoc, List.cons_append]
        rw [e2]
        exact nth_append_mid (by simp; omega)
      hstep (getField_spec (p := strings) hg)
      hlast (Triple.free (p := ps[i.toNat]))
      hret)
  simp only [Int.toNat_zero, List.drop_zero] at loop
  hstep loop
  have e1 : ps.drop n.toNat = [] := List.drop_eq_nil_of_le (by omega)
  have e2 : ws.drop n.toNat = [] := List.drop_eq_nil_of_le (by omega)
  rw [e1, e2]
  simp only [wordsAt]
  hlast (Triple.free (p := strings))
  hret

end Osl.Mem
