import Verif.Relation
/-! Helper lemmas: the loops of source/relation.c compute simple list functions of the rows. -/

namespace Osl

/-- A relation part whose matrix has the advertised shape and whose precision is supported. -/
structure Part.WF (c : Cfg) (r : Part) : Prop where
  rect : Rect r.m r.nb_rows r.nb_columns
  cols : 0 ≤ r.nb_columns
  prec : kind c r.precision ≠ none

theorem Part.WF.rows {c : Cfg} {r : Part} (h : r.WF c) : 0 ≤ r.nb_rows := by
  have := h.rect.1; omega

/-- All parts of the union are well-formed. -/
def Rel.WF (c : Cfg) (r : Rel) : Prop := ∀ p ∈ r, Part.WF c p

/-- Total view of a row entry. -/
def rc (l : List Int) (j : Int) : Int := if j < 0 then 0 else (l[j.toNat]?).getD 0

theorem rc_append {l l' : List Int} {j : Int} (hj : 0 ≤ j) :
    rc (l ++ l') j = if j < l.length then rc l j else rc l' (j - l.length) := by
  unfold rc
  by_cases h : j < l.length
  · rw [if_pos h, if_neg (by omega), if_neg (by omega), List.getElem?_append_left (by omega)]
  · rw [if_neg h, if_neg (by omega), if_neg (by omega), List.getElem?_append_right (by omega)]
    congr 2; omega

theorem rc_take {l : List Int} {n : Nat} {j : Int} (h : j < n) : rc (l.take n) j = rc l j := by
  unfold rc
  by_cases hneg : j < 0
  · rw [if_pos hneg, if_pos hneg]
  · rw [if_neg hneg, if_neg hneg, List.getElem?_take, if_pos (by omega)]

theorem rc_drop {l : List Int} {n : Nat} {j : Int} (h : 0 ≤ j) : rc (l.drop n) j = rc l (j + n) := by
  unfold rc
  rw [if_neg (by omega), if_neg (by omega), List.getElem?_drop]
  congr 2; omega

theorem rc_cons {l : List Int} {a j : Int} (h : 0 ≤ j) :
    rc (a :: l) j = if j = 0 then a else rc l (j - 1) := by
  unfold rc
  by_cases h0 : j = 0
  · subst h0; simp
  · rw [if_neg h0, if_neg (by omega), if_neg (by omega)]
    obtain ⟨k, hk⟩ : ∃ k, j.toNat = k + 1 := ⟨j.toNat - 1, by omega⟩
    rw [hk, List.getElem?_cons_succ]
    congr 2; omega

theorem rc_replicate {n : Nat} {j : Int} : rc (List.replicate n 0) j = 0 := by
  unfold rc
  split
  · rfl
  · rw [List.getElem?_replicate]; split <;> rfl

theorem rc_beyond {l : List Int} {j : Int} (h : (l.length : Int) ≤ j) : rc l j = 0 := by
  unfold rc
  split
  · rfl
  · rw [List.getElem?_eq_none (by omega)]; rfl

theorem rc_set {l : List Int} {n : Nat} {v j : Int} (hn : n < l.length) :
    rc (l.set n v) j = if j = n then v else rc l j := by
  unfold rc
  by_cases h : j < 0
  · rw [if_pos h, if_neg (by omega), if_pos h]
  · rw [if_neg h, if_neg h, List.getElem?_set]
    by_cases hj : j = n
    · rw [if_pos (by omega), if_pos hj]; simp [hn]
    · rw [if_neg (by omega), if_neg hj]

/-- Row `i` of a matrix. -/
def rowAt (m : Matrix) (i : Int) : List Int := if i < 0 then [] else (m[i.toNat]?).getD []

theorem cell_eq_rc (m : Matrix) (i j : Int) : cell m i j = rc (rowAt m i) j := by
  unfold cell rc rowAt
  by_cases hi : i < 0
  · simp [hi]
  · by_cases hj : j < 0
    · simp [hj]
    · simp [hi, hj]

theorem rowAt_map {m : Matrix} {f : List Int → List Int} {i : Int} (hi : 0 ≤ i) (hi' : i < m.length) :
    rowAt (m.map f) i = f (rowAt m i) := by
  unfold rowAt
  rw [if_neg (by omega), if_neg (by omega)]
  have h : i.toNat < m.length := by omega
  simp [List.getElem?_eq_getElem h]

theorem rowAt_length {m : Matrix} {R C : Int} (h : Rect m R C) {i : Int} (hi : 0 ≤ i) (hi' : i < R) :
    ((rowAt m i).length : Int) = C := by
  unfold rowAt
  rw [if_neg (by omega)]
  have h' : i.toNat < m.length := by have := h.1; omega
  rw [List.getElem?_eq_getElem h']
  exact h.2 _ (List.getElem_mem h')

theorem rowAt_append {m m' : Matrix} {i : Int} (hi : 0 ≤ i) :
    rowAt (m ++ m') i = if i < m.length then rowAt m i else rowAt m' (i - m.length) := by
  unfold rowAt
  by_cases h : i < m.length
  · rw [if_pos h, if_neg (by omega), if_neg (by omega), List.getElem?_append_left (by omega)]
  · rw [if_neg h, if_neg (by omega), if_neg (by omega), List.getElem?_append_right (by omega)]
    congr 2; omega

theorem rowAt_set {m : Matrix} {n : Nat} {v : List Int} {i : Int} (hn : n < m.length) :
    rowAt (m.set n v) i = if i = n then v else rowAt m i := by
  unfold rowAt
  by_cases h : i < 0
  · rw [if_pos h, if_neg (by omega), if_pos h]
  · rw [if_neg h, if_neg h, List.getElem?_set]
    by_cases hj : i = n
    · rw [if_pos (by omega), if_pos hj]; simp [hn]
    · rw [if_neg (by omega), if_neg hj]

theorem rowAt_singleton {l : List Int} : rowAt [l] 0 = l := by simp [rowAt]

theorem rect_map {m : Matrix} {R C C' : Int} {f : List Int → List Int} (h : Rect m R C)
    (hf : ∀ r, (r.length : Int) = C → ((f r).length : Int) = C') : Rect (m.map f) R C' := by
  refine ⟨by simpa using h.1, fun r hr => ?_⟩
  obtain ⟨r0, h0, rfl⟩ := List.mem_map.mp hr
  exact hf r0 (h.2 r0 h0)

theorem rect_set {m : Matrix} {R C : Int} (h : Rect m R C) {n : Nat} {v : List Int}
    (hv : (v.length : Int) = C) : Rect (m.set n v) R C := by
  refine ⟨by simpa using h.1, fun r hr => ?_⟩
  rcases List.mem_or_eq_of_mem_set hr with hr | hr
  · exact h.2 r hr
  · subst hr; exact hv

theorem cell_zero (R C : Nat) (i j : Int) : cell (List.replicate R (List.replicate C 0)) i j = 0 := by
  rw [cell_eq_rc]
  unfold rowAt
  split
  · unfold rc; split <;> simp
  · rw [List.getElem?_replicate]
    split
    · simp only [Option.getD_some]; exact rc_replicate
    · simp only [Option.getD_none]; unfold rc; split <;> simp

theorem kind_prec {c : Cfg} {p : Int} (h : kind c p ≠ none) : ¬ (p ≠ PREC_SP ∧ p ≠ PREC_DP ∧ p ≠ PREC_MP) := by
  rintro ⟨h1, h2, h3⟩
  apply h
  unfold kind
  rw [if_neg h1, if_neg h2, if_neg (fun h => h3 h.1)]

namespace Rel

/-- A part with the given shape and entries, all other attributes undefined. -/
abbrev blank (p R C : Int) (m : Matrix) : Part :=
  { type := UNDEFINED, precision := p, nb_rows := R, nb_columns := C,
    nb_output_dims := UNDEFINED, nb_input_dims := UNDEFINED, nb_local_dims := UNDEFINED,
    nb_parameters := UNDEFINED, m := m }

theorem pmalloc_ok {c : Cfg} {p R C : Int} (hk : kind c p ≠ none) (hR : 0 ≤ R) (hC : 0 ≤ C) :
    pmalloc c p R C = .ok
      (blank (p) (R) (C) (List.replicate R.toNat (List.replicate C.toNat 0))) := by
  obtain ⟨k, hk'⟩ := Option.ne_none_iff_exists'.mp hk
  unfold pmalloc
  rw [if_neg (kind_prec hk), if_neg (by omega)]
  simp [hk']

theorem rect_zero {R C : Int} (hR : 0 ≤ R) (hC : 0 ≤ C) :
    Rect (List.replicate R.toNat (List.replicate C.toNat 0)) R C := by
  have := rect_replicate R.toNat C.toNat 0
  rwa [Int.toNat_of_nonneg hR, Int.toNat_of_nonneg hC] at this

theorem clonePart_ok {c : Cfg} {r : Part} (h : r.WF c) {n : Int} (h0 : 0 ≤ n) (hn : n ≤ r.nb_rows) :
    clonePart c r n = .ok { r with nb_rows := n, m := r.m.take n.toNat } := by
  unfold clonePart
  rw [pmalloc_ok h.prec h0 h.cols]
  simp only [Out.ok_bind]
  obtain ⟨d, e, hr, hc⟩ := copyBlock_ok (c := c) (p := r.precision) h.prec h.rect
    (rect_zero h0 h.cols) (ilo := 0) (ihi := n) (dro := 0) (sro := 0) (jlo := 0) (jhi := r.nb_columns)
    (dco := 0) (sco := 0) (by omega) (by intros; omega)
  rw [e]
  have : d = r.m.take n.toNat := by
    have ht : Rect (r.m.take n.toNat) n r.nb_columns := by
      have := rect_take h.rect (n := n.toNat) (by omega)
      rwa [Int.toNat_of_nonneg h0] at this
    apply rect_ext hr ht
    intro i j hi hi' hj hj'
    rw [hc, if_pos (by omega), cell_take (by omega)]
    congr 1 <;> omega
  subst this
  rfl

theorem clonePart_all {c : Cfg} {r : Part} (h : r.WF c) : clonePart c r r.nb_rows = .ok r := by
  rw [clonePart_ok h h.rows (by omega)]
  have : r.m.take r.nb_rows.toNat = r.m := by
    rw [List.take_of_length_le]
    have := h.rect.1; omega
  rw [this]

theorem nclone_ok {c : Cfg} {r : Rel} (h : r.WF c) {n : Int} (hn : n ≠ -1) (hlen : n ≤ r.length) :
    nclone c r n = .ok (r.take n.toNat) := by
  unfold nclone
  rw [if_neg hn]
  simp only [nb_components]
  rw [if_neg (by omega)]
  have := Out.mapOut_ok (f := fun p => clonePart c p p.nb_rows) (g := id) (l := r.take n.toNat)
    (fun p hp => clonePart_all (h p (List.mem_of_mem_take hp)))
  simpa using this

theorem nclone_all {c : Cfg} {r : Rel} (h : r.WF c) : nclone c r (-1) = .ok r := by
  unfold nclone
  simp only [if_true, nb_components]
  rw [if_neg (by omega)]
  have := Out.mapOut_ok (f := fun p => clonePart c p p.nb_rows) (g := id) (l := r.take r.length)
    (fun p hp => clonePart_all (h p (List.mem_of_mem_take hp)))
  simpa using this

theorem clone_ok {c : Cfg} {r : Rel} (h : r.WF c) : clone c r = .ok r := by
  unfold clone
  split
  · rfl
  · exact nclone_all h

theorem clone_nconstraints_ok {c : Cfg} {r : Rel} (h : r.WF c) {n : Int} (h0 : 0 ≤ n)
    (hn : ∀ p ∈ r, n ≤ p.nb_rows) :
    clone_nconstraints c r n = .ok (r.map (fun p => { p with nb_rows := n, m := p.m.take n.toNat })) := by
  unfold clone_nconstraints
  apply Out.mapOut_ok
  intro p hp
  simp only
  rw [if_neg (show n ≠ -1 by omega), if_neg (by have := hn p hp; omega)]
  exact clonePart_ok (h p hp) h0 (hn p hp)

theorem clone_nconstraints_all {c : Cfg} {r : Rel} (h : r.WF c) : clone_nconstraints c r (-1) = .ok r := by
  unfold clone_nconstraints
  have := Out.mapOut_ok (f := fun p => let k := if (-1 : Int) = -1 then p.nb_rows else -1
      if k > p.nb_rows then Out.err else clonePart c p k) (g := id) (l := r) (fun p hp => by
    simp only [if_true]
    rw [if_neg (by omega)]
    exact clonePart_all (h p hp))
  simpa using this

theorem replaceConstraintsPart_ok {c : Cfg} {r1 r2 : Part} (h1 : r1.WF c) (h2 : r2.WF c)
    (hp : r1.precision = r2.precision) (hc : r1.nb_columns = r2.nb_columns) {row : Int} (h0 : 0 ≤ row)
    (hr : row + r2.nb_rows ≤ r1.nb_rows) :
    replaceConstraintsPart c r1 r2 row =
      .ok { r1 with m := r1.m.take row.toNat ++ r2.m ++ r1.m.drop (row + r2.nb_rows).toNat } := by
  unfold replaceConstraintsPart
  rw [if_neg (by omega)]
  have h2r := h2.rows
  obtain ⟨d, e, hrd, hcd⟩ := copyBlock_ok (c := c) (p := r1.precision) h1.prec h2.rect h1.rect
    (ilo := 0) (ihi := r2.nb_rows) (dro := row) (sro := 0) (jlo := 0) (jhi := r2.nb_columns)
    (dco := 0) (sco := 0) (by omega) (by intros; omega)
  rw [e]
  have hlen1 := h1.rect.1
  have hlen2 := h2.rect.1
  have : d = r1.m.take row.toNat ++ r2.m ++ r1.m.drop (row + r2.nb_rows).toNat := by
    have ht : Rect (r1.m.take row.toNat ++ r2.m ++ r1.m.drop (row + r2.nb_rows).toNat)
        r1.nb_rows r1.nb_columns := by
      have := rect_append (rect_append (rect_take h1.rect (n := row.toNat) (by omega)) (hc ▸ h2.rect))
        (rect_drop h1.rect (n := (row + r2.nb_rows).toNat) (by omega))
      have e : (row.toNat : Int) + r2.nb_rows + (r1.nb_rows - (row + r2.nb_rows).toNat) = r1.nb_rows := by
        omega
      rwa [e] at this
    apply rect_ext hrd ht
    intro i j hi hi' hj hj'
    rw [hcd, cell_append hi, cell_append hi]
    have hl1 : ((r1.m.take row.toNat).length : Int) = row := by simp; omega
    have hl2 : ((r1.m.take row.toNat ++ r2.m).length : Int) = row + r2.nb_rows := by
      simp; omega
    rw [hl1, hl2]
    by_cases c1 : i < row
    · rw [if_neg (by omega), if_pos (by omega), if_pos c1, cell_take (by omega)]
    · by_cases c2 : i < row + r2.nb_rows
      · rw [if_pos (by omega), if_pos c2, if_neg c1]
        congr 1 <;> omega
      · rw [if_neg (by omega), if_neg c2, cell_drop (by omega)]
        congr 1; omega
  subst this
  rfl

theorem insert_constraints_ok {c : Cfg} {p1 p2 : Part} {rest rest2 : Rel} (h1 : p1.WF c) (h2 : p2.WF c)
    (hp : p1.precision = p2.precision) (hc : p1.nb_columns = p2.nb_columns) {row : Int} (h0 : 0 ≤ row)
    (hr : row ≤ p1.nb_rows) :
    insert_constraints c (p1 :: rest) (p2 :: rest2) row =
      .ok ({ p1 with nb_rows := p1.nb_rows + p2.nb_rows
                     m := p1.m.take row.toNat ++ p2.m ++ p1.m.drop row.toNat } :: rest) := by
  have h1r := h1.rows
  have h2r := h2.rows
  have hlen1 := h1.rect.1
  have hlen2 := h2.rect.1
  unfold insert_constraints
  simp only
  rw [if_neg (show row ≠ -1 by omega), if_neg (by omega)]
  rw [pmalloc_ok h1.prec (by omega) h1.cols]
  simp only [Out.ok_bind]
  obtain ⟨d, e, hrd, hcd⟩ := copyBlock_ok (c := c) (p := p1.precision) h1.prec h1.rect
    (rect_zero (R := p1.nb_rows + p2.nb_rows) (by omega) h1.cols)
    (ilo := 0) (ihi := row) (dro := 0) (sro := 0) (jlo := 0) (jhi := p1.nb_columns)
    (dco := 0) (sco := 0) (by omega) (by intros; omega)
  rw [e]
  simp only [Out.ok_bind]
  rw [replaceConstraintsPart_ok (r1 := blank p1.precision (p1.nb_rows + p2.nb_rows) p1.nb_columns d) (r2 := p2)
    ⟨hrd, h1.cols, h1.prec⟩ h2 hp hc h0 (by simp only; omega)]
  simp only [Out.ok_bind]
  have hdlen := hrd.1
  obtain ⟨d2, e2, hrd2, hcd2⟩ := copyBlock_ok (c := c) (p := p1.precision) h1.prec h1.rect
    (dst := d.take row.toNat ++ p2.m ++ d.drop (row + p2.nb_rows).toNat)
    (R := p1.nb_rows + p2.nb_rows) (C := p1.nb_columns)
    (by
      have := rect_append (rect_append (rect_take hrd (n := row.toNat) (by omega)) (hc ▸ h2.rect))
        (rect_drop hrd (n := (row + p2.nb_rows).toNat) (by omega))
      have e : (row.toNat : Int) + p2.nb_rows + (p1.nb_rows + p2.nb_rows - (row + p2.nb_rows).toNat)
        = p1.nb_rows + p2.nb_rows := by omega
      rwa [e] at this)
    (ilo := row + p2.nb_rows) (ihi := p2.nb_rows + p1.nb_rows) (dro := 0) (sro := -p2.nb_rows) (jlo := 0)
    (jhi := p1.nb_columns) (dco := 0) (sco := 0) (by omega) (by intros; omega)
  rw [e2]
  have : d2 = p1.m.take row.toNat ++ p2.m ++ p1.m.drop row.toNat := by
    have ht : Rect (p1.m.take row.toNat ++ p2.m ++ p1.m.drop row.toNat)
        (p1.nb_rows + p2.nb_rows) p1.nb_columns := by
      have := rect_append (rect_append (rect_take h1.rect (n := row.toNat) (by omega)) (hc ▸ h2.rect))
        (rect_drop h1.rect (n := row.toNat) (by omega))
      have e : (row.toNat : Int) + p2.nb_rows + (p1.nb_rows - row.toNat) = p1.nb_rows + p2.nb_rows := by
        omega
      rwa [e] at this
    apply rect_ext hrd2 ht
    intro i j hi hi' hj hj'
    rw [hcd2, cell_append hi, cell_append hi, cell_append hi, cell_append hi]
    have hl1 : ((p1.m.take row.toNat).length : Int) = row := by simp; omega
    have hl2 : ((p1.m.take row.toNat ++ p2.m).length : Int) = row + p2.nb_rows := by simp; omega
    have hl3 : ((d.take row.toNat).length : Int) = row := by simp; omega
    have hl4 : ((d.take row.toNat ++ p2.m).length : Int) = row + p2.nb_rows := by simp; omega
    rw [hl1, hl2, hl3, hl4]
    by_cases c1 : i < row
    · rw [if_neg (by omega), if_pos (by omega), if_pos c1, if_pos (by omega), if_pos c1,
        cell_take (by omega), cell_take (by omega), hcd, if_pos (by omega)]
      congr 1 <;> omega
    · by_cases c2 : i < row + p2.nb_rows
      · rw [if_neg (by omega), if_pos c2, if_neg c1, if_pos c2, if_neg c1]
      · rw [if_pos (by omega), if_neg c2, cell_drop (by omega)]
        congr 1 <;> omega
  subst this
  rfl

theorem insert_constraints_end {c : Cfg} {p1 p2 : Part} {rest rest2 : Rel} (h1 : p1.WF c) :
    insert_constraints c (p1 :: rest) (p2 :: rest2) (-1) =
      insert_constraints c (p1 :: rest) (p2 :: rest2) p1.nb_rows := by
  have := h1.rows
  unfold insert_constraints
  simp only [if_true]
  rw [if_neg (show p1.nb_rows ≠ -1 by omega)]

theorem replaceVectorPart_ok {c : Cfg} {r : Part} (h : r.WF c) {v : Vec} (hp : r.precision = v.precision)
    (hc : r.nb_columns = v.size) {row : Int} (h0 : 0 ≤ row) (hr : row < r.nb_rows) :
    replaceVectorPart c r (some v) row = .ok { r with m := r.m.set row.toNat v.v } := by
  unfold replaceVectorPart
  have hg : vectorGuard r v row = false := by
    simp [vectorGuard, hp, hc]; omega
  simp only [hg, Bool.false_eq_true, if_false]
  have hrv : Rect [v.v] 1 r.nb_columns := ⟨rfl, by simp [hc]⟩
  obtain ⟨d, e, hrd, hcd⟩ := copyBlock_ok (c := c) (p := r.precision) h.prec hrv h.rect
    (ilo := 0) (ihi := 1) (dro := row) (sro := 0) (jlo := 0) (jhi := v.size)
    (dco := 0) (sco := 0) (by omega) (by intros; omega)
  rw [e]
  have hlen := h.rect.1
  have : d = r.m.set row.toNat v.v := by
    apply rect_ext hrd (rect_set h.rect hc.symm)
    intro i j hi hi' hj hj'
    rw [hcd, cell_eq_rc (r.m.set _ _), rowAt_set (by omega)]
    by_cases hii : i = row
    · rw [if_pos (by omega), if_pos (by omega), cell_eq_rc]
      have e : i - row + 0 = 0 := by omega
      rw [e, rowAt_singleton]; congr 1; omega
    · rw [if_neg (by omega), if_neg (by omega), cell_eq_rc]
  subst this
  rfl

theorem from_vector_ok {c : Cfg} {v : Vec} (hk : kind c v.precision ≠ none) :
    from_vector c (some v) = .ok [(blank (v.precision) (1) (v.size) ([v.v]))] := by
  unfold from_vector
  simp only
  rw [pmalloc_ok hk (by omega) (by omega)]
  simp only [Out.ok_bind, replace_vector]
  rw [replaceVectorPart_ok (r := blank _ _ _ _) (v := v) ⟨rect_zero (by omega) (Int.natCast_nonneg _), by simp, hk⟩ rfl rfl
    (by omega) (by simp)]
  rfl

theorem insert_vector_ok {c : Cfg} {p : Part} {rest : Rel} (h : p.WF c) {v : Vec}
    (hp : p.precision = v.precision) (hc : p.nb_columns = v.size) {row : Int} (h0 : 0 ≤ row)
    (hr : row ≤ p.nb_rows) :
    insert_vector c (p :: rest) (some v) row =
      .ok ({ p with nb_rows := p.nb_rows + 1
                    m := p.m.take row.toNat ++ [v.v] ++ p.m.drop row.toNat } :: rest) := by
  unfold insert_vector
  rw [from_vector_ok (hp ▸ h.prec)]
  simp only [Out.ok_bind]
  exact insert_constraints_ok (p2 := (blank (v.precision) (1) (v.size) ([v.v])))
    h ⟨⟨rfl, by simp⟩, by simp, hp ▸ h.prec⟩ hp hc h0 hr

theorem insert_blank_row_ok {c : Cfg} {p : Part} {rest : Rel} (h : p.WF c) {row : Int} (h0 : 0 ≤ row)
    (hr : row ≤ p.nb_rows) :
    insert_blank_row c (p :: rest) row =
      .ok ({ p with nb_rows := p.nb_rows + 1
                    m := p.m.take row.toNat ++ [List.replicate p.nb_columns.toNat 0] ++
                         p.m.drop row.toNat } :: rest) := by
  unfold insert_blank_row
  have hc := h.cols
  have : Vec.pmalloc c p.precision p.nb_columns = .ok ⟨p.precision, List.replicate p.nb_columns.toNat 0⟩ := by
    have := Vec.pmalloc_ok h.prec p.nb_columns.toNat
    rwa [Int.toNat_of_nonneg hc] at this
  simp only [this, Out.ok_bind]
  exact insert_vector_ok h rfl (by simp [Vec.size]; omega) h0 hr

theorem remove_row_ok {c : Cfg} {p : Part} {rest : Rel} (h : p.WF c) {row : Int} (h0 : 0 ≤ row)
    (hr : row < p.nb_rows) :
    remove_row c (p :: rest) row =
      .ok ({ p with nb_rows := p.nb_rows - 1
                    m := p.m.take row.toNat ++ p.m.drop (row.toNat + 1) } :: rest) := by
  have hlen := h.rect.1
  unfold remove_row
  simp only
  rw [if_neg (by omega), pmalloc_ok h.prec (by omega) h.cols]
  simp only [Out.ok_bind]
  obtain ⟨d, e, hrd, hcd⟩ := copyBlock_ok (c := c) (p := p.precision) h.prec h.rect
    (rect_zero (R := p.nb_rows - 1) (by omega) h.cols)
    (ilo := 0) (ihi := row) (dro := 0) (sro := 0) (jlo := 0) (jhi := p.nb_columns)
    (dco := 0) (sco := 0) (by omega) (by intros; omega)
  rw [e]
  simp only [Out.ok_bind]
  obtain ⟨d2, e2, hrd2, hcd2⟩ := copyBlock_ok (c := c) (p := p.precision) h.prec h.rect hrd
    (ilo := row + 1) (ihi := p.nb_rows) (dro := -1) (sro := 0) (jlo := 0) (jhi := p.nb_columns)
    (dco := 0) (sco := 0) (by omega) (by intros; omega)
  rw [e2]
  have : d2 = p.m.take row.toNat ++ p.m.drop (row.toNat + 1) := by
    have ht : Rect (p.m.take row.toNat ++ p.m.drop (row.toNat + 1)) (p.nb_rows - 1) p.nb_columns := by
      have := rect_append (rect_take h.rect (n := row.toNat) (by omega))
        (rect_drop h.rect (n := row.toNat + 1) (by omega))
      have e : (row.toNat : Int) + (p.nb_rows - (row.toNat + 1 : Nat)) = p.nb_rows - 1 := by omega
      rwa [e] at this
    apply rect_ext hrd2 ht
    intro i j hi hi' hj hj'
    have hl1 : ((p.m.take row.toNat).length : Int) = row := by simp; omega
    rw [hcd2, cell_append hi, hl1]
    by_cases c1 : i < row
    · rw [if_neg (by omega), if_pos c1, cell_take (by omega), hcd, if_pos (by omega)]
      congr 1 <;> omega
    · rw [if_pos (by omega), if_neg c1, cell_drop (by omega)]
      congr 1 <;> omega
  subst this
  rfl

theorem insert_blank_column_ok {c : Cfg} {p : Part} {rest : Rel} (h : p.WF c) {col : Int} (h0 : 0 ≤ col)
    (hr : col ≤ p.nb_columns) :
    insert_blank_column c (p :: rest) col =
      .ok ({ p with nb_columns := p.nb_columns + 1
                    m := p.m.map (fun r => r.take col.toNat ++ 0 :: r.drop col.toNat) } :: rest) := by
  have hlen := h.rect.1
  have hrows := h.rows
  unfold insert_blank_column
  simp only
  rw [if_neg (by omega), pmalloc_ok h.prec h.rows (by omega)]
  simp only [Out.ok_bind]
  obtain ⟨d, e, hrd, hcd⟩ := copyBlock_ok (c := c) (p := p.precision) h.prec h.rect
    (rect_zero (R := p.nb_rows) (C := p.nb_columns + 1) h.rows (by omega))
    (ilo := 0) (ihi := p.nb_rows) (dro := 0) (sro := 0) (jlo := 0) (jhi := col)
    (dco := 0) (sco := 0) (by omega) (by intros; omega)
  rw [e]
  simp only [Out.ok_bind]
  obtain ⟨d2, e2, hrd2, hcd2⟩ := copyBlock_ok (c := c) (p := p.precision) h.prec h.rect hrd
    (ilo := 0) (ihi := p.nb_rows) (dro := 0) (sro := 0) (jlo := col) (jhi := p.nb_columns)
    (dco := 1) (sco := 0) (by omega) (by intros; omega)
  rw [e2]
  have : d2 = p.m.map (fun r => r.take col.toNat ++ 0 :: r.drop col.toNat) := by
    have ht := rect_map (f := fun r => r.take col.toNat ++ 0 :: r.drop col.toNat) (C' := p.nb_columns + 1)
      h.rect (by intro r hr; simp; omega)
    apply rect_ext hrd2 ht
    intro i j hi hi' hj hj'
    have hrl := rowAt_length h.rect hi hi'
    rw [hcd2, cell_eq_rc (p.m.map _), rowAt_map hi (by omega), rc_append hj]
    have hl1 : (((rowAt p.m i).take col.toNat).length : Int) = col := by
      rw [List.length_take]; omega
    rw [hl1]
    by_cases c1 : j < col
    · rw [if_neg (by omega), if_pos c1, rc_take (by omega), hcd, if_pos (by omega), cell_eq_rc]
      simp only [Int.sub_zero, Int.add_zero]; try (congr 1; omega)
    · rw [if_neg c1, rc_cons (by omega)]
      by_cases c2 : j = col
      · rw [if_neg (by omega), if_pos (by omega), hcd, if_neg (by omega), cell_zero]
      · rw [if_pos (by omega), if_neg (by omega), rc_drop (by omega), cell_eq_rc]
        simp only [Int.sub_zero, Int.add_zero]; try (congr 1; omega)
  subst this
  rfl

theorem remove_column_ok {c : Cfg} {p : Part} {rest : Rel} (h : p.WF c) {col : Int} (h0 : 0 ≤ col)
    (hr : col < p.nb_columns) :
    remove_column c (p :: rest) col =
      .ok ({ p with nb_columns := p.nb_columns - 1
                    m := p.m.map (fun r => r.take col.toNat ++ r.drop (col.toNat + 1)) } :: rest) := by
  have hlen := h.rect.1
  have hrows := h.rows
  unfold remove_column
  simp only
  rw [if_neg (by omega), pmalloc_ok h.prec h.rows (by omega)]
  simp only [Out.ok_bind]
  obtain ⟨d, e, hrd, hcd⟩ := copyBlock_ok (c := c) (p := p.precision) h.prec h.rect
    (rect_zero (R := p.nb_rows) (C := p.nb_columns - 1) h.rows (by omega))
    (ilo := 0) (ihi := p.nb_rows) (dro := 0) (sro := 0) (jlo := 0) (jhi := col)
    (dco := 0) (sco := 0) (by omega) (by intros; omega)
  rw [e]
  simp only [Out.ok_bind]
  obtain ⟨d2, e2, hrd2, hcd2⟩ := copyBlock_ok (c := c) (p := p.precision) h.prec h.rect hrd
    (ilo := 0) (ihi := p.nb_rows) (dro := 0) (sro := 0) (jlo := col + 1) (jhi := p.nb_columns)
    (dco := -1) (sco := 0) (by omega) (by intros; omega)
  rw [e2]
  have : d2 = p.m.map (fun r => r.take col.toNat ++ r.drop (col.toNat + 1)) := by
    have ht := rect_map (f := fun r => r.take col.toNat ++ r.drop (col.toNat + 1)) (C' := p.nb_columns - 1)
      h.rect (by intro r hr; simp; omega)
    apply rect_ext hrd2 ht
    intro i j hi hi' hj hj'
    have hrl := rowAt_length h.rect hi hi'
    rw [hcd2, cell_eq_rc (p.m.map _), rowAt_map hi (by omega), rc_append hj]
    have hl1 : (((rowAt p.m i).take col.toNat).length : Int) = col := by
      rw [List.length_take]; omega
    rw [hl1]
    by_cases c1 : j < col
    · rw [if_neg (by omega), if_pos c1, rc_take (by omega), hcd, if_pos (by omega), cell_eq_rc]
      simp only [Int.sub_zero, Int.add_zero]; try (congr 1; omega)
    · rw [if_pos (by omega), if_neg c1, rc_drop (by omega), cell_eq_rc]
      simp only [Int.sub_zero, Int.add_zero]; try (congr 1; omega)
  subst this
  rfl

theorem rowAt_zipWith {f : List Int → List Int → List Int} {m q : Matrix} {i : Int} (hi : 0 ≤ i)
    (h1 : i < m.length) (h2 : i < q.length) :
    rowAt (List.zipWith f m q) i = f (rowAt m i) (rowAt q i) := by
  unfold rowAt
  simp only [if_neg (show ¬ i < 0 by omega)]
  have e1 : i.toNat < m.length := by omega
  have e2 : i.toNat < q.length := by omega
  simp [List.getElem?_zipWith, List.getElem?_eq_getElem e1, List.getElem?_eq_getElem e2]

theorem insert_columns_ok {c : Cfg} {p q : Part} {rest rest2 : Rel} (h : p.WF c) (hq : q.WF c)
    (hp : p.precision = q.precision) (hrows : p.nb_rows = q.nb_rows) {col : Int} (h0 : 0 ≤ col)
    (hr : col ≤ p.nb_columns) :
    insert_columns c (p :: rest) (q :: rest2) col =
      .ok ({ p with nb_columns := p.nb_columns + q.nb_columns
                    m := List.zipWith (fun r s => r.take col.toNat ++ s ++ r.drop col.toNat) p.m q.m }
        :: rest) := by
  have hlen := h.rect.1
  have hlenq := hq.rect.1
  have hrows0 := h.rows
  have hqc := hq.cols
  unfold insert_columns
  simp only
  rw [if_neg (by omega), pmalloc_ok h.prec h.rows (by omega)]
  simp only [Out.ok_bind]
  obtain ⟨d, e, hrd, hcd⟩ := copyBlock_ok (c := c) (p := p.precision) h.prec h.rect
    (rect_zero (R := p.nb_rows) (C := p.nb_columns + q.nb_columns) h.rows (by omega))
    (ilo := 0) (ihi := p.nb_rows) (dro := 0) (sro := 0) (jlo := 0) (jhi := col)
    (dco := 0) (sco := 0) (by omega) (by intros; omega)
  rw [e]
  simp only [Out.ok_bind]
  obtain ⟨d2, e2, hrd2, hcd2⟩ := copyBlock_ok (c := c) (p := p.precision) h.prec hq.rect hrd
    (ilo := 0) (ihi := p.nb_rows) (dro := 0) (sro := 0) (jlo := col) (jhi := col + q.nb_columns)
    (dco := 0) (sco := -col) (by omega) (by intros; omega)
  rw [e2]
  simp only [Out.ok_bind]
  obtain ⟨d3, e3, hrd3, hcd3⟩ := copyBlock_ok (c := c) (p := p.precision) h.prec h.rect hrd2
    (ilo := 0) (ihi := p.nb_rows) (dro := 0) (sro := 0) (jlo := col + q.nb_columns)
    (jhi := q.nb_columns + p.nb_columns)
    (dco := 0) (sco := -q.nb_columns) (by omega) (by intros; omega)
  rw [e3]
  have : d3 = List.zipWith (fun r s => r.take col.toNat ++ s ++ r.drop col.toNat) p.m q.m := by
    have ht : Rect (List.zipWith (fun r s => r.take col.toNat ++ s ++ r.drop col.toNat) p.m q.m)
        p.nb_rows (p.nb_columns + q.nb_columns) := by
      refine ⟨by simp; omega, fun r hr => ?_⟩
      obtain ⟨i, hi, rfl⟩ := List.getElem_of_mem hr
      simp only [List.length_zipWith] at hi
      have e1 := h.rect.2 (p.m[i]'(by omega)) (List.getElem_mem _)
      have e2 := hq.rect.2 (q.m[i]'(by omega)) (List.getElem_mem _)
      simp only [List.getElem_zipWith, List.length_append, List.length_take, List.length_drop]
      omega
    apply rect_ext hrd3 ht
    intro i j hi hi' hj hj'
    have hrl := rowAt_length h.rect hi hi'
    have hrq := rowAt_length hq.rect hi (by omega)
    rw [hcd3, cell_eq_rc (List.zipWith _ _ _), rowAt_zipWith hi (by omega) (by omega), rc_append hj,
      rc_append hj]
    have hl1 : (((rowAt p.m i).take col.toNat).length : Int) = col := by simp; omega
    have hl2 : (((rowAt p.m i).take col.toNat ++ rowAt q.m i).length : Int) = col + q.nb_columns := by
      simp; omega
    rw [hl1, hl2]
    by_cases c1 : j < col
    · rw [if_neg (by omega), if_pos (by omega), if_pos c1, rc_take (by omega), hcd2, if_neg (by omega),
        hcd, if_pos (by omega), cell_eq_rc]
      simp only [Int.sub_zero, Int.add_zero]
    · by_cases c2 : j < col + q.nb_columns
      · rw [if_neg (by omega), if_pos c2, if_neg c1, hcd2, if_pos (by omega), cell_eq_rc]
        simp only [Int.sub_zero, Int.add_zero]; rfl
      · rw [if_pos (by omega), if_neg c2, rc_drop (by omega), cell_eq_rc]
        simp only [Int.sub_zero, Int.add_zero]; try (congr 1; omega)
  subst this
  rfl

theorem concat_constraints_ok {c : Cfg} {p1 p2 : Part} {rest rest2 : Rel} (h1 : p1.WF c) (h2 : p2.WF c)
    (hp : p1.precision = p2.precision) (hc : p1.nb_columns = p2.nb_columns) :
    concat_constraints c (p1 :: rest) (p2 :: rest2) =
      .ok [(blank (p1.precision) (p1.nb_rows + p2.nb_rows) (p1.nb_columns) (p1.m ++ p2.m))] := by
  have h1r := h1.rows
  have h2r := h2.rows
  have hl1 := h1.rect.1
  have hl2 := h2.rect.1
  unfold concat_constraints
  simp only
  rw [if_neg (by omega), pmalloc_ok h1.prec (by omega) h1.cols]
  simp only [Out.ok_bind]
  rw [replaceConstraintsPart_ok (r1 := (blank (p1.precision) (p1.nb_rows + p2.nb_rows) (p1.nb_columns) (List.replicate (p1.nb_rows + p2.nb_rows).toNat (List.replicate p1.nb_columns.toNat 0)))) (r2 := p1) ⟨rect_zero (by omega) h1.cols, h1.cols, h1.prec⟩ h1 rfl rfl
    (by omega) (by simp only; omega)]
  simp only [Out.ok_bind]
  have hz := rect_zero (R := p1.nb_rows + p2.nb_rows) (C := p1.nb_columns) (by omega) h1.cols
  have hr : Rect (List.take (Int.toNat 0)
        (List.replicate (p1.nb_rows + p2.nb_rows).toNat (List.replicate p1.nb_columns.toNat 0)) ++ p1.m ++
      List.drop (0 + p1.nb_rows).toNat
        (List.replicate (p1.nb_rows + p2.nb_rows).toNat (List.replicate p1.nb_columns.toNat 0)))
      (p1.nb_rows + p2.nb_rows) p1.nb_columns := by
    have := rect_append (rect_append (rect_take hz (n := Int.toNat 0) (by omega)) h1.rect)
      (rect_drop hz (n := (0 + p1.nb_rows).toNat) (by omega))
    have e : ((Int.toNat 0 : Nat) : Int) + p1.nb_rows + (p1.nb_rows + p2.nb_rows - (0 + p1.nb_rows).toNat)
        = p1.nb_rows + p2.nb_rows := by omega
    rwa [e] at this
  rw [replaceConstraintsPart_ok (r1 := blank _ _ _ _) (r2 := p2) ⟨hr, h1.cols, h1.prec⟩ h2 hp hc h1.rows (by simp only; omega)]
  simp only [Out.ok_bind, Out.pure_eq]
  congr 2
  congr 1
  simp only [Int.toNat_zero, List.take_zero, List.nil_append]
  have e1 : List.take p1.nb_rows.toNat (p1.m ++ List.drop (0 + p1.nb_rows).toNat
      (List.replicate (p1.nb_rows + p2.nb_rows).toNat (List.replicate p1.nb_columns.toNat (0:Int)))) = p1.m := by
    rw [List.take_append_of_le_length (by omega), List.take_of_length_le (by omega)]
  rw [e1]
  have e2 : List.drop (p1.nb_rows + p2.nb_rows).toNat (p1.m ++ List.drop (0 + p1.nb_rows).toNat
      (List.replicate (p1.nb_rows + p2.nb_rows).toNat (List.replicate p1.nb_columns.toNat (0:Int)))) = [] := by
    apply List.drop_eq_nil_of_le
    simp; omega
  rw [e2]; simp

end Rel
end Osl
