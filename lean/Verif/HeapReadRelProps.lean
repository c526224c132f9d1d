import Verif.HeapReadRel
import Verif.HeapReadProps
import Verif.HeapListProps
/-!
# The readers in memory: relations (C72)
-/

set_option linter.unusedSectionVars false

namespace Osl.Mem

open Osl.Rel (RState Header)

/-! ## The type -/

theorem loadChars_spec {p : Ptr} {w : Str} : Triple (p ↦ .chars w) (loadChars p) (fun r => pur (r = w) ∗ p ↦ .chars w) := by
  unfold loadChars
  refine Triple.loadStep (p := p) (b := .chars w) (F := emp) (by rw [sep_emp]) ?_
  exact Triple.liftLast rfl

theorem relTypeOf_spec {p : Ptr} {d : Option Strings} {t : Int} (h : Rel.typeOfStrings d = .ok t) :
    Triple (stringsAt p d) (relTypeOf p) (fun r => pur (r = t) ∗ stringsAt p d) := by
  match d, h with
  | some { string := some (w :: ws) }, h =>
    unfold relTypeOf
    hstep (strings_size_memory p (some { string := some (w :: ws) }))
    rw [if_neg (by rw [strings_size_eq]; simp)]
    show Triple (ex fun a => p ↦ .ptrs [a] ∗ arrayAt a (w :: ws)) _ _
    hnorm
    hopen Osl.Mem.arrayAt
    cases ps with
    | nil =>
      show Triple (_ ∗ pur False ∗ _) _ _
      hnorm
      contradiction
    | cons q ps =>
      show Triple (a ↦ .ptrs (q :: (ps ++ [0])) ∗ (q ↦ .chars w ∗ wordsAt ps ws) ∗ p ↦ .ptrs [a]) _ _
      hstep getField_spec
      hstep getField_spec
      hstep loadChars_spec
      refine Triple.last (lift_spec h) (F := q ↦ .chars w ∗ a ↦ .ptrs (q :: (ps ++ [0])) ∗ p ↦ .ptrs [a] ∗ wordsAt ps ws) (by rw [emp_sep]) ?_
      intro r h hh
      obtain ⟨hr, hh⟩ := pur_sep_iff.mp hh
      refine pur_sep_iff.mpr ⟨hr, a, ?_⟩
      have hh2 : (p ↦ .ptrs [a] ∗ a ↦ .ptrs (q :: (ps ++ [0])) ∗ q ↦ .chars w ∗ wordsAt ps ws) h := hh.perm (by ac_rfl)
      exact sep_mono (fun _ h => h) (fun h hh => ⟨q :: ps, hh⟩) hh2

variable [Allocator]

/-- C72: `osl_relation_read_type` leaves nothing allocated. -/
theorem read_type_memory {s : Str} {t : Int} {pos : Option Str} (h : Rel.read_type s = .ok (t, pos)) :
    Triple emp (relReadType s) (fun r => pur (r = (t, pos))) := by
  unfold Rel.read_type at h
  obtain ⟨⟨d, pos'⟩, h1, h⟩ := Out.bind_eq_ok.mp h
  obtain ⟨t', h2, h⟩ := Out.bind_eq_ok.mp h
  cases h
  unfold relReadType
  hstep (strings_sread_memory h1)
  hstep (relTypeOf_spec h2)
  hstep (strings_free_memory p d)
  hret

/-- C72: `osl_relation_read_type`, from a file. -/
theorem fread_type_memory {s : Str} {t : Int} {pos : Str} (h : Rel.fread_type s = .ok (t, pos)) :
    Triple emp (relFReadType s) (fun r => pur (r = (t, pos))) := by
  unfold Rel.fread_type at h
  obtain ⟨⟨d, pos'⟩, h1, h⟩ := Out.bind_eq_ok.mp h
  obtain ⟨t', h2, h⟩ := Out.bind_eq_ok.mp h
  cases h
  unfold relFReadType
  hstep (strings_read_memory h1)
  hstep (relTypeOf_spec h2)
  hstep (strings_free_memory p d)
  hret

/-! ## The matrix -/

theorem setCell_spec {k : Option Kind} (hk : k ≠ none) {md : Ptr} {R C : Int} {d d' : Matrix} {i' j' v : Int}
    (hs : set2 d i' j' v = .ok d') :
    Triple (matAt k md R C d) (setCell k md i' j' v) (fun _ => matAt k md R C d') := by
  refine Triple.opened_all (fun h0 hh => ?_)
  have hrd := matAt_rect hh
  obtain ⟨b1, b2, b3, b4, b5, b6⟩ := set2_bounds hrd hs
  have hlt : flatIdx C i' j' < d.flatten.length := by rw [flatten_length hrd]; exact idx_lt b1 b2 b3 b4
  obtain ⟨-, qd, ld1, xd, ld2, vd1, vd2, hl3, hl4, hfd, hh⟩ := matAt_focus b1 b2 b3 b4 (List.getElem?_eq_getElem hlt) hh
  refine ⟨_, hh, ?_⟩
  have hfd' : d'.flatten = vd1 ++ v :: vd2 := by
    rw [b5]; exact list_set_mid hfd (by omega)
  generalize d.flatten[flatIdx C i' j'] = w at *
  unfold hole
  have fin : ∀ {y : Cell}, ∀ h, (qd ↦ .ints (ld1 ++ y :: ld2) ∗ cellAt k y v ∗ md ↦ .rows (rowPtrs qd R C) ∗ cellsAt k ld1 vd1 ∗ cellsAt k ld2 vd2) h →
      matAt k md R C d' h := by
    intro y h hh
    refine matAt_unfocus (q := qd) (l2 := ld2) (x := y) b6 b1 b2 b3 b4 hl4 hfd' h ?_
    unfold hole
    exact hh
  cases k with
  | none => exact absurd rfl hk
  | some k =>
    cases k with
    | fixed wd =>
      unfold setCell
      refine Triple.rearr (P' := pur (xd = .val w) ∗ (md ↦ .rows (rowPtrs qd R C) ∗ qd ↦ .ints (ld1 ++ xd :: ld2)) ∗ (cellsAt _ ld1 vd1 ∗ cellsAt _ ld2 vd2)) (by simp only [cellAt]; ac_rfl) ?_
      refine Triple.fact (fun hx => ?_)
      refine Triple.last (writeCell_spec (.val v) b1 b2 b3 hl3) rfl ?_
      intro _ h hh
      refine fin (y := .val v) h ?_
      have : cellAt (some (.fixed wd)) (.val v) v = emp := pur_true rfl
      rw [this, emp_sep]
      exact hh.perm (by ac_rfl)
    | mp =>
      unfold setCell
      simp only [cellAt] at fin ⊢
      refine Triple.rearr (P' := (ex fun q => pur (xd = .mp q) ∗ q ↦ .mpz w) ∗ (md ↦ .rows (rowPtrs qd R C) ∗ qd ↦ .ints (ld1 ++ xd :: ld2)) ∗ (cellsAt _ ld1 vd1 ∗ cellsAt _ ld2 vd2)) (by ac_rfl) ?_
      rw [ex_sep]
      refine Triple.exi (fun pd => ?_)
      rw [sep_assoc]
      refine Triple.fact (fun hx2 => ?_)
      refine Triple.stepEq (readCell_spec (q := qd) (x := xd) (l2 := ld2) b1 b2 b3 hl3) (F := pd ↦ .mpz w ∗ cellsAt _ ld1 vd1 ∗ cellsAt _ ld2 vd2) (by ac_rfl) ?_
      refine Triple.liftStep (a := pd) (by rw [hx2]; rfl) ?_
      refine Triple.loadStep (p := pd) (b := .mpz w) (F := (md ↦ .rows (rowPtrs qd R C) ∗ qd ↦ .ints (ld1 ++ xd :: ld2)) ∗ cellsAt _ ld1 vd1 ∗ cellsAt _ ld2 vd2) (by ac_rfl) ?_
      refine Triple.liftStep (a := w) rfl ?_
      refine Triple.last (Triple.store pd _ (.mpz v)) rfl ?_
      intro _ h hh
      refine fin (y := xd) h ?_
      have hh2 : ((pd ↦ .mpz v) ∗ (qd ↦ .ints (ld1 ++ xd :: ld2) ∗ md ↦ .rows (rowPtrs qd R C) ∗ cellsAt _ ld1 vd1 ∗ cellsAt _ ld2 vd2)) h := hh.perm (by ac_rfl)
      have hh3 := sep_mono (P' := ex fun q => pur (xd = .mp q) ∗ q ↦ .mpz v) (fun h hh => ⟨pd, pur_sep_iff.mpr ⟨hx2, hh⟩⟩) (fun _ h => h) hh2
      exact hh3.perm (by ac_rfl)

theorem set2_mid {rows0 rows1 : Matrix} {row tl : List Int} {x v i j : Int} (hi : (rows0.length : Int) = i) (hj : (row.length : Int) = j) :
    set2 (rows0 ++ (row ++ x :: tl) :: rows1) i j v = .ok (rows0 ++ (row ++ v :: tl) :: rows1) := by
  subst hi hj
  unfold set2
  rw [if_neg (by omega)]
  simp

theorem readCells_spec {c : Cfg} {p : Int} {m : Ptr} {R C i : Int} {rows0 rows1 : Matrix} (hk : kind c p ≠ none) (hi : (rows0.length : Int) = i) :
    ∀ (n : Nat) (j : Int) (row : List Int) (s s' : RState) (vs : List Int), (row.length : Int) = j → Rel.readVals c p n s = .ok (vs, s') →
    Triple (matAt (kind c p) m R C (rows0 ++ (row ++ List.replicate n 0) :: rows1)) (readCells c p m i n j s)
      (fun r => pur (r = s') ∗ matAt (kind c p) m R C (rows0 ++ (row ++ vs) :: rows1))
  | 0, j, row, s, s', vs, hj, h => by
    cases h
    exact Triple.ret (fun h hh => pur_sep_iff.mpr ⟨rfl, hh⟩)
  | n + 1, j, row, s, s', vs, hj, h => by
    simp only [Rel.readVals] at h
    simp only [readCells]
    hread r, h1, h
    obtain ⟨⟨vs', s2⟩, h2, h⟩ := Out.bind_eq_ok.mp h
    cases h
    show Triple (matAt _ m R C (rows0 ++ (row ++ 0 :: List.replicate n 0) :: rows1)) _ _
    refine Triple.bind (setCell_spec hk (set2_mid hi hj)) (fun _ => ?_)
    have := readCells_spec (m := m) (R := R) (C := C) (rows1 := rows1) hk hi n (j + 1) (row ++ [r.1]) r.2 s2 vs' (by simp [← hj]) h2
    simp only [List.append_assoc, List.cons_append, List.nil_append] at this
    exact this

theorem readVals_length {c : Cfg} {p : Int} : ∀ {n : Nat} {s s' : RState} {vs : List Int}, Rel.readVals c p n s = .ok (vs, s') → vs.length = n
  | 0, s, s', vs, h => by cases h; rfl
  | n + 1, s, s', vs, h => by
    simp only [Rel.readVals] at h
    obtain ⟨r, h1, h⟩ := Out.bind_eq_ok.mp h
    obtain ⟨⟨vs', s2⟩, h2, h⟩ := Out.bind_eq_ok.mp h
    cases h
    simp [readVals_length h2]

theorem readRowsS_spec {c : Cfg} {p : Int} {m : Ptr} {R C : Int} (hk : R = 0 ∨ C = 0 ∨ kind c p ≠ none) (hC : 0 ≤ C) :
    ∀ (n : Nat) (i : Int) (rows0 : Matrix) (s s' : RState) (rows : Matrix), (rows0.length : Int) = i → i + n = R → Rel.sRows c p C.toNat n s = .ok (rows, s') →
    Triple (matAt (kind c p) m R C (rows0 ++ List.replicate n (List.replicate C.toNat 0))) (readRowsS c p m C.toNat n i s)
      (fun r => pur (r = s') ∗ matAt (kind c p) m R C (rows0 ++ rows))
  | 0, i, rows0, s, s', rows, hi, hn, h => by
    cases h
    exact Triple.ret (fun h hh => pur_sep_iff.mpr ⟨rfl, hh⟩)
  | n + 1, i, rows0, s, s', rows, hi, hn, h => by
    simp only [Rel.sRows] at h
    simp only [readRowsS]
    cases hp : s.pos with
    | none => rw [hp] at h; cases h
    | some input =>
      rw [hp] at h
      refine Triple.liftStep (a := input) rfl ?_
      obtain ⟨⟨row, s1⟩, h1, h⟩ := Out.bind_eq_ok.mp h
      obtain ⟨⟨rows', s2⟩, h2, h⟩ := Out.bind_eq_ok.mp h
      cases h
      have hstep1 : Triple (matAt (kind c p) m R C (rows0 ++ (List.replicate C.toNat 0) :: List.replicate n (List.replicate C.toNat 0)))
          (readCells c p m i C.toNat 0 { s with pos := some (Util.sskip input) })
          (fun r => pur (r = s1) ∗ matAt (kind c p) m R C (rows0 ++ row :: List.replicate n (List.replicate C.toNat 0))) := by
        rcases hk with hk | hk | hk
        · exfalso; omega
        · subst hk
          have e := readVals_length h1
          cases h1
          exact Triple.ret (fun h hh => pur_sep_iff.mpr ⟨rfl, hh⟩)
        · have := readCells_spec (m := m) (R := R) (C := C) (rows1 := List.replicate n (List.replicate C.toNat 0)) hk hi C.toNat 0 [] _ _ _ rfl h1
          simpa only [List.nil_append] using this
      show Triple (matAt (kind c p) m R C (rows0 ++ (List.replicate C.toNat 0) :: List.replicate n (List.replicate C.toNat 0))) _ _
      hstep hstep1
      have := readRowsS_spec (m := m) hk hC n (i + 1) (rows0 ++ [row]) s1 s2 rows' (by simp [← hi]) (by omega) h2
      simp only [List.append_assoc, List.cons_append, List.nil_append] at this
      exact this

theorem readRowsF_spec {c : Cfg} {p : Int} {m : Ptr} {R C : Int} (hk : R = 0 ∨ C = 0 ∨ kind c p ≠ none) (hC : 0 ≤ C) :
    ∀ (n : Nat) (i : Int) (rows0 : Matrix) (last last' : Option (Str × Nat)) (file file' : Str) (rows : Matrix), (rows0.length : Int) = i → i + n = R →
    Rel.fRows c p C.toNat n last file = .ok (rows, last', file') →
    Triple (matAt (kind c p) m R C (rows0 ++ List.replicate n (List.replicate C.toNat 0))) (readRowsF c p m C.toNat n i (last, file))
      (fun r => pur (r = (last', file')) ∗ matAt (kind c p) m R C (rows0 ++ rows))
  | 0, i, rows0, last, last', file, file', rows, hi, hn, h => by
    cases h
    exact Triple.ret (fun h hh => pur_sep_iff.mpr ⟨rfl, hh⟩)
  | n + 1, i, rows0, last, last', file, file', rows, hi, hn, h => by
    simp only [Rel.fRows] at h
    simp only [readRowsF]
    cases hf : Util.fskip file with
    | mk o rest =>
      rw [hf] at h
      dsimp only at h ⊢
      cases o with
      | none => cases h
      | some line =>
        dsimp only at h ⊢
        obtain ⟨⟨row, s1⟩, h1, h⟩ := Out.bind_eq_ok.mp h
        obtain ⟨⟨rows', last1, file1⟩, h2, h⟩ := Out.bind_eq_ok.mp h
        cases h
        have hstep1 : Triple (matAt (kind c p) m R C (rows0 ++ (List.replicate C.toNat 0) :: List.replicate n (List.replicate C.toNat 0)))
            (readCells c p m i C.toNat 0 { pos := some line, last := last })
            (fun r => pur (r = s1) ∗ matAt (kind c p) m R C (rows0 ++ row :: List.replicate n (List.replicate C.toNat 0))) := by
          rcases hk with hk | hk | hk
          · exfalso; omega
          · subst hk
            have e := readVals_length h1
            cases h1
            exact Triple.ret (fun h hh => pur_sep_iff.mpr ⟨rfl, hh⟩)
          · have := readCells_spec (m := m) (R := R) (C := C) (rows1 := List.replicate n (List.replicate C.toNat 0)) hk hi C.toNat 0 [] _ _ _ rfl h1
            simpa only [List.nil_append] using this
        show Triple (matAt (kind c p) m R C (rows0 ++ (List.replicate C.toNat 0) :: List.replicate n (List.replicate C.toNat 0))) _ _
        hstep hstep1
        have := readRowsF_spec (m := m) hk hC n (i + 1) (rows0 ++ [row]) s1.last last1 rest file1 rows' (by simp [← hi]) (by omega) h2
        simp only [List.append_assoc, List.cons_append, List.nil_append] at this
        exact this

/-! ## The parts -/

/-- A new part before its matrix is read. -/
def blankPart (p type : Int) (h : Header) : Part := h.part p type (List.replicate h.nb_rows.toNat (List.replicate h.nb_columns.toNat 0))

theorem relNewPart_spec {c : Cfg} {p type : Int} {h : Header} {a : Part} (ha : Rel.pmalloc c p h.nb_rows h.nb_columns = .ok a) :
    Triple emp (relNewPart c p type h)
      (fun r => r.1 ↦ .rel (hdr (blankPart p type h)) r.2 0 ∗ matAt (kind c p) r.2 h.nb_rows h.nb_columns (blankPart p type h).m) := by
  obtain ⟨-, -, -, -, rfl⟩ := Rel.pmalloc_fields ha
  unfold relNewPart
  hstep (pmalloc_spec ha)
  hopen Osl.Mem.partAt
  hstep loadRel_spec
  hstep Triple.store
  refine Triple.ret (fun h hh => ?_)
  exact hh.perm (by ac_rfl)

/-- C72: the reading of a part from a string. -/
theorem relReadBody_spec {c : Cfg} {p : Int} {h : Header} {s s' : RState} {a : Part} (ha : Rel.sBody c p h s = .ok (a, s')) :
    Triple emp (relReadBody c p h s) (got q, s' in partAt c q a 0) := by
  unfold Rel.sBody at ha
  obtain ⟨a0, h1, ha⟩ := Out.bind_eq_ok.mp ha
  obtain ⟨⟨mat, s1⟩, h2, ha⟩ := Out.bind_eq_ok.mp ha
  cases ha
  obtain ⟨-, hR, hC, hk, -⟩ := Rel.pmalloc_fields h1
  unfold relReadBody
  hstep (relNewPart_spec (type := UNDEFINED) h1)
  have := readRowsS_spec (m := q.2) (R := h.nb_rows) (C := h.nb_columns) (by rcases hk with (hk | hk) | hk <;> simp [hk]) hC h.nb_rows.toNat 0 [] s s' mat rfl (by omega) h2
  simp only [List.nil_append] at this
  hstep this
  refine Triple.ret (fun h hh => ⟨q.1, pur_sep_iff.mpr ⟨rfl, q.2, ?_⟩⟩)
  exact hh.perm (by ac_rfl)

/-- C72: the reading of a part from a file. -/
theorem relFReadBody_spec {c : Cfg} {p type : Int} {h : Header} {last last' : Option (Str × Nat)} {file file' : Str} {a : Part}
    (ha : Rel.fBody c p type h last file = .ok (a, last', file')) :
    Triple emp (relFReadBody c p type h (last, file)) (got q, (last', file') in partAt c q a 0) := by
  unfold Rel.fBody at ha
  obtain ⟨a0, h1, ha⟩ := Out.bind_eq_ok.mp ha
  obtain ⟨⟨mat, last1, file1⟩, h2, ha⟩ := Out.bind_eq_ok.mp ha
  cases ha
  obtain ⟨-, hR, hC, hk, -⟩ := Rel.pmalloc_fields h1
  unfold relFReadBody
  hstep (relNewPart_spec (type := type) h1)
  have := readRowsF_spec (m := q.2) (R := h.nb_rows) (C := h.nb_columns) (by rcases hk with (hk | hk) | hk <;> simp [hk]) hC h.nb_rows.toNat 0 [] last last' file file' mat rfl (by omega) h2
  simp only [List.nil_append] at this
  hstep this
  refine Triple.ret (fun h hh => ⟨q.1, pur_sep_iff.mpr ⟨rfl, q.2, ?_⟩⟩)
  exact hh.perm (by ac_rfl)

/-- A list of structures read one after the other. -/
theorem readCount_spec {α σ τ : Type} {N : Chain α} {one : σ → M (Ptr × σ)} {f : σ → Out (α × σ)} {F : Nat → σ → Out (List α × τ)} {g : σ → τ}
    (h1 : ∀ s a s', f s = .ok (a, s') → Triple emp (one s) (got q, s' in N.at_ q a 0))
    (hz : ∀ s l t, F 0 s = .ok (l, t) → l = [] ∧ t = g s)
    (hs : ∀ n s l t, F (n + 1) s = .ok (l, t) → ∃ a s1 l', f s = .ok (a, s1) ∧ F n s1 = .ok (l', t) ∧ l = a :: l') :
    ∀ (n : Nat) (head previous : Ptr) (d l : List α) (s : σ) (t : τ), F n s = .ok (l, t) →
    Triple (N.done head previous d) (readCount N.toNext one n head previous s)
      (fun r => pur (g r.2 = t) ∗ N.list r.1 (d ++ l))
  | 0, head, previous, d, l, s, t, h => by
    obtain ⟨rfl, rfl⟩ := hz s l t h
    rw [List.append_nil]
    exact Triple.ret (fun h hh => pur_sep_iff.mpr ⟨rfl, Chain.done_list _ hh⟩)
  | n + 1, head, previous, d, l, s, t, h => by
    obtain ⟨a, s1, l', e1, e2, rfl⟩ := hs n s l t h
    simp only [readCount]
    hstep (h1 s a s1 e1)
    hstep (Chain.linkNode_spec (N := N) head previous q d a)
    have := readCount_spec h1 hz hs n head q (d ++ [a]) l' s1 t e2
    rw [List.append_assoc] at this
    exact this

theorem relReadPart_spec {c : Cfg} {p : Int} {s s' : RState} {a : Part} {h : Header} {s1 : RState} (h1 : Rel.sLineAt s = .ok (.header h, s1))
    (h2 : Rel.sBody c p h s1 = .ok (a, s')) : Triple emp (relReadPart c p s) (got q, s' in partAt c q a 0) := by
  unfold relReadPart
  refine Triple.liftStep h1 ?_
  refine Triple.liftStep (a := h) rfl ?_
  exact relReadBody_spec h2

theorem relFReadPart_spec {c : Cfg} {p type : Int} {last last' : Option (Str × Nat)} {file file' file1 : Str} {a : Part} {h : Header}
    (h1 : Rel.fLine file = .ok (.header h, file1)) (h2 : Rel.fBody c p type h last file1 = .ok (a, last', file')) :
    Triple emp (relFReadPart c p type (last, file)) (got q, (last', file') in partAt c q a 0) := by
  unfold relFReadPart
  refine Triple.liftStep h1 ?_
  refine Triple.liftStep (a := h) rfl ?_
  exact relFReadBody_spec h2

/-- One part of a union, from a string, as a value. -/
def onePart (c : Cfg) (p : Int) (s : RState) : Out (Part × RState) := do
  let l ← Rel.sLineAt s
  let h ← asHeader l.1
  Rel.sBody c p h l.2

theorem relReadUnion_spec {c : Cfg} {p : Int} {n : Nat} {s s' : RState} {r : Rel} (h : Rel.sParts c p n s = .ok (r, s')) :
    Triple emp (readCount relNext (relReadPart c p) n 0 0 s) (got q, s' in relAt c q r) := by
  have := readCount_spec (N := relChain c) (one := relReadPart c p) (f := onePart c p) (F := Rel.sParts c p) (g := id)
    (fun s a s' h => by
      obtain ⟨⟨l, s1⟩, h1, h⟩ := Out.bind_eq_ok.mp h
      cases l with
      | count n => cases h
      | header hd => exact relReadPart_spec h1 h)
    (fun s l t h => by cases h; exact ⟨rfl, rfl⟩)
    (fun n s l t h => by
      simp only [Rel.sParts] at h
      obtain ⟨⟨l, s1⟩, h1, h⟩ := Out.bind_eq_ok.mp h
      cases l with
      | count n => cases h
      | header hd =>
        obtain ⟨⟨a, s2⟩, h2, h⟩ := Out.bind_eq_ok.mp h
        obtain ⟨⟨l', s3⟩, h3, h⟩ := Out.bind_eq_ok.mp h
        cases h
        refine ⟨a, s2, l', ?_, h3, rfl⟩
        unfold onePart
        rw [h1]
        exact h2) n 0 0 [] r s s' h
  refine Triple.conseq this (fun h hh => ?_) (fun r h hh => ?_)
  · rw [Chain.done_nil]
    exact ⟨⟨rfl, rfl⟩, hh⟩
  · obtain ⟨hr, hh⟩ := pur_sep_iff.mp hh
    exact ⟨r.1, pur_sep_iff.mpr ⟨Prod.ext rfl hr, hh⟩⟩

/-- One part of a union, from a file, as a value. -/
def oneFPart (c : Cfg) (p type : Int) (s : Option (Str × Nat) × Str) : Out (Part × Option (Str × Nat) × Str) := do
  let l ← Rel.fLine s.2
  let h ← asHeader l.1
  Rel.fBody c p type h s.1 l.2

theorem relFReadUnion_spec {c : Cfg} {p type : Int} {n : Nat} {s : Option (Str × Nat) × Str} {file' : Str} {r : Rel} (h : Rel.fParts c p type n s.1 s.2 = .ok (r, file')) :
    Triple emp (readCount relNext (relFReadPart c p type) n 0 0 s) (fun x => pur (x.2.2 = file') ∗ relAt c x.1 r) := by
  have := readCount_spec (N := relChain c) (one := relFReadPart c p type) (f := oneFPart c p type) (F := fun n s => Rel.fParts c p type n s.1 s.2) (g := Prod.snd)
    (fun s a s' h => by
      obtain ⟨⟨l, s1⟩, h1, h⟩ := Out.bind_eq_ok.mp h
      cases l with
      | count n => cases h
      | header hd => exact relFReadPart_spec h1 h)
    (fun s l t h => by cases h; exact ⟨rfl, rfl⟩)
    (fun n s l t h => by
      simp only [Rel.fParts] at h
      obtain ⟨⟨l, s1⟩, h1, h⟩ := Out.bind_eq_ok.mp h
      cases l with
      | count n => cases h
      | header hd =>
        obtain ⟨⟨a, s2⟩, h2, h⟩ := Out.bind_eq_ok.mp h
        obtain ⟨⟨l', s3⟩, h3, h⟩ := Out.bind_eq_ok.mp h
        cases h
        refine ⟨a, s2, l', ?_, h3, rfl⟩
        unfold oneFPart
        rw [h1]
        exact h2) n 0 0 [] r s file' h
  refine Triple.conseq this (fun h hh => ?_) (fun r h hh => hh)
  rw [Chain.done_nil]
  exact ⟨⟨rfl, rfl⟩, hh⟩

theorem relAt_one {c : Cfg} {q : Ptr} {a : Part} : relAt c q [a] = partAt c q a 0 := Chain.list_one

/-- C72: `osl_relation_psread_polylib` allocates exactly the relation. -/
theorem relation_psread_polylib_memory {c : Cfg} {p : Int} {input pos : Option Str} {r : Rel} (h : Rel.psread_polylib c p input = .ok (r, pos)) :
    Triple emp (relPsreadPolylib c p input) (got q, pos in relAt c q r) := by
  unfold Rel.psread_polylib at h
  unfold relPsreadPolylib
  obtain ⟨⟨l, s⟩, h1, h⟩ := Out.bind_eq_ok.mp h
  refine Triple.liftStep h1 ?_
  cases l with
  | count n =>
    dsimp only at h ⊢
    simp only [relReadParts]
    split at h
    · cases h
    rename_i hn
    rw [if_neg hn]
    obtain ⟨⟨r', s'⟩, h2, h⟩ := Out.bind_eq_ok.mp h
    cases h
    hstep (relReadUnion_spec h2)
    hret
  | header hd =>
    dsimp only at h ⊢
    simp only [relReadParts]
    obtain ⟨⟨a, s'⟩, h2, h⟩ := Out.bind_eq_ok.mp h
    cases h
    simp only [relAt_one]
    hstep (relReadBody_spec h2)
    hret

/-- C72: `osl_relation_psread` allocates exactly the relation. -/
theorem relation_psread_memory {c : Cfg} {p : Int} {input : Str} {pos : Option Str} {r : Rel} (h : Rel.psread c p input = .ok (r, pos)) :
    Triple emp (relPsread c p input) (got q, pos in relAt c q r) := by
  unfold Rel.psread at h
  unfold relPsread
  obtain ⟨⟨t, s⟩, h1, h⟩ := Out.bind_eq_ok.mp h
  obtain ⟨⟨r', pos'⟩, h2, h⟩ := Out.bind_eq_ok.mp h
  cases r' with
  | nil => cases h
  | cons a l =>
    cases h
    hstep (read_type_memory h1)
    hstep (relation_psread_polylib_memory h2)
    show Triple ((relChain c).list q (a :: l)) _ _
    rw [Chain.list_cons]
    hnorm
    show Triple (partAt c q a n ∗ _) _ _
    hopen Osl.Mem.partAt
    hstep loadRel_spec
    hstep Triple.store
    refine Triple.ret (fun h hh => ⟨q, pur_sep_iff.mpr ⟨rfl, n, ?_⟩⟩)
    have hh2 : ((q ↦ .rel { hdr a with type := t } m n ∗ matAt (kind c a.precision) m a.nb_rows a.nb_columns a.m) ∗ (relChain c).list n l) h := hh.perm (by ac_rfl)
    exact sep_mono (fun h hh => ⟨m, hh⟩) (fun _ h => h) hh2

/-- C72: `osl_relation_pread` allocates exactly the relation. -/
theorem relation_pread_memory {c : Cfg} {p : Int} {file pos : Str} {r : Rel} (h : Rel.pread c p file = .ok (r, pos)) :
    Triple emp (relPread c p file) (got q, pos in relAt c q r) := by
  unfold Rel.pread at h
  unfold relPread
  obtain ⟨⟨t, s⟩, h1, h⟩ := Out.bind_eq_ok.mp h
  obtain ⟨⟨l, s'⟩, h2, h⟩ := Out.bind_eq_ok.mp h
  hstep (fread_type_memory h1)
  refine Triple.liftStep h2 ?_
  cases l with
  | count n =>
    dsimp only at h ⊢
    simp only [relFReadParts]
    split at h
    · cases h
    rename_i hn
    rw [if_neg hn]
    hstep (relFReadUnion_spec (s := (none, s')) h)
    exact Triple.ret (fun h hh => ⟨_, pur_sep_iff.mpr ⟨rfl, hh⟩⟩)
  | header hd =>
    dsimp only at h ⊢
    simp only [relFReadParts]
    obtain ⟨⟨a, last, s'⟩, h3, h⟩ := Out.bind_eq_ok.mp h
    cases h
    simp only [relAt_one]
    hstep (relFReadBody_spec h3)
    hret

end Osl.Mem
