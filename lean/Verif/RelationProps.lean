import Verif.RelationLemmas3
import Verif.RelSpec
/-!
# Properties C12-C18 of source/relation.c

Point sets are defined in `Verif/RelSpec.lean`.
-/

namespace Osl

theorem Part.Valid.wf {c : Cfg} {p : Part} (h : p.Valid c) : p.WF c := ⟨⟨h.rows, h.cols⟩, h.ncols, h.prec⟩

theorem Rel.Valid.wf {c : Cfg} {r : Rel} (h : Rel.Valid c r) : Rel.WF c r := fun p hp => (h p hp).wf

namespace Rel

/-- A small domain `{ [i] : i >= 0, n - i >= 0 }` with one parameter `n`. -/
def exDomain : Part :=
  { type := TYPE_DOMAIN, precision := 64, nb_rows := 2, nb_columns := 4, nb_output_dims := 1,
    nb_input_dims := 0, nb_local_dims := 0, nb_parameters := 1, m := [[1, 1, 0, 0], [1, -1, 1, 0]] }

/-- A second domain `{ [i] : i = n }`. -/
def exDomain2 : Part := { exDomain with nb_rows := 1, m := [[0, 1, -1, 0]] }

theorem exDomain_valid : exDomain.Valid Cfg.std := ⟨rfl, by decide, by decide, by decide, by decide⟩
theorem exDomain2_valid : exDomain2.Valid Cfg.std := ⟨rfl, by decide, by decide, by decide, by decide⟩

theorem exRel_valid : Rel.Valid Cfg.std [exDomain, exDomain2] := by
  intro p hp
  simp only [List.mem_cons, List.not_mem_nil, or_false] at hp
  rcases hp with rfl | rfl
  · exact exDomain_valid
  · exact exDomain2_valid

/-! ## C12: clone -/

/-- C12: cloning a well-shaped relation succeeds, and the copy is the same relation, which the
library's equality confirms. -/
theorem relation_clone_equal {c : Cfg} {r : Rel} (h : Rel.Valid c r) :
    clone c r = .ok r ∧ ∃ s, clone c r = .ok s ∧ equal c r s = .ok true := by
  refine ⟨clone_ok h.wf, r, clone_ok h.wf, ?_⟩
  rw [equal_ok h.wf h.wf]; simp

/-- C12: `osl_relation_nclone` copies exactly the first `n` parts, all of them for `-1`, and
reports an error when there are fewer. -/
theorem relation_nclone_prefix {c : Cfg} {r : Rel} (h : Rel.Valid c r) (n : Nat) :
    (n ≤ r.length → nclone c r n = .ok (r.take n)) ∧
    (r.length < n → nclone c r n = .err) ∧ nclone c r (-1) = .ok r := by
  refine ⟨fun hn => ?_, fun hn => ?_, nclone_all h.wf⟩
  · have := nclone_ok h.wf (n := (n : Int)) (by omega) (by omega)
    simpa using this
  · unfold nclone
    rw [if_neg (show (n : Int) ≠ -1 by omega)]
    rw [if_pos (by simp only [nb_components]; omega)]

/-- C12: `osl_relation_clone_nconstraints` copies exactly the first `n` constraints of every part,
and reports an error when a part has fewer. -/
theorem relation_clone_nconstraints_prefix {c : Cfg} {r : Rel} (h : Rel.Valid c r) (n : Nat) :
    ((∀ p ∈ r, n ≤ p.m.length) → clone_nconstraints c r n =
        .ok (r.map (fun p => { p with nb_rows := n, m := p.m.take n }))) ∧
    (∀ p rest, r = p :: rest → p.m.length < n → clone_nconstraints c r n = .err) ∧
    clone_nconstraints c r (-1) = .ok r := by
  refine ⟨fun hn => ?_, ?_, clone_nconstraints_all h.wf⟩
  · have := clone_nconstraints_ok h.wf (n := (n : Int)) (by omega)
      (fun p hp => by have := (h p hp).rows; have := hn p hp; omega)
    simpa using this
  · rintro p rest rfl hn
    have hrows := (h p (by simp)).rows
    simp only [clone_nconstraints, Out.mapOut]
    rw [if_neg (show (n : Int) ≠ -1 by omega), if_pos (by omega)]

example : clone Cfg.std [exDomain, exDomain2] = .ok [exDomain, exDomain2] :=
  (relation_clone_equal exRel_valid).1

/-! ## C13: equality -/

/-- C13: the equality test answers 1 exactly when the two unions have the same parts: same number,
and corresponding parts agree in type, precision, all dimensions and all coefficients. -/
theorem relation_equal_iff {c : Cfg} {r s : Rel} (hr : Rel.Valid c r) (hs : Rel.Valid c s) :
    equal c r s = .ok true ↔ r.length = s.length ∧
      ∀ i (h1 : i < r.length) (h2 : i < s.length),
        r[i].type = s[i].type ∧ r[i].precision = s[i].precision ∧ r[i].nb_rows = s[i].nb_rows ∧
        r[i].nb_columns = s[i].nb_columns ∧ r[i].nb_output_dims = s[i].nb_output_dims ∧
        r[i].nb_input_dims = s[i].nb_input_dims ∧ r[i].nb_local_dims = s[i].nb_local_dims ∧
        r[i].nb_parameters = s[i].nb_parameters ∧ r[i].m = s[i].m := by
  rw [equal_ok hr.wf hs.wf]
  constructor
  · intro h
    have : r = s := by simpa using h
    subst this
    exact ⟨rfl, fun i _ _ => by simp⟩
  · rintro ⟨hl, h⟩
    have : r = s := by
      apply List.ext_getElem hl
      intro i h1 h2
      obtain ⟨a1, a2, a3, a4, a5, a6, a7, a8, a9⟩ := h i h1 h2
      generalize r[i] = x at *
      generalize s[i] = y at *
      cases x; cases y; simp_all
    simp [this]

/-- C13: the test never fails on well-shaped relations, and is an equivalence. -/
theorem relation_equal_equivalence {c : Cfg} {r s t : Rel} (hr : Rel.Valid c r) (hs : Rel.Valid c s)
    (ht : Rel.Valid c t) :
    (equal c r s = .ok true ∨ equal c r s = .ok false) ∧ equal c r r = .ok true ∧
    equal c r s = equal c s r ∧
    (equal c r s = .ok true → equal c s t = .ok true → equal c r t = .ok true) := by
  rw [equal_ok hr.wf hs.wf, equal_ok hr.wf hr.wf, equal_ok hs.wf hr.wf, equal_ok hs.wf ht.wf,
    equal_ok hr.wf ht.wf]
  refine ⟨?_, by simp, by rw [show (decide (r = s)) = decide (s = r) by
    apply decide_eq_decide.mpr; exact eq_comm], ?_⟩
  · by_cases h : r = s <;> simp [h]
  · simp only [Out.ok.injEq, decide_eq_true_eq]
    rintro rfl rfl; rfl

example : equal Cfg.std [exDomain, exDomain2] [exDomain, exDomain] = .ok false ∧
    equal Cfg.std [exDomain, exDomain2] [exDomain] = .ok false := by decide

/-! ## C14: union -/

/-- C14: the union of two relations has their parts in order and denotes the union of the two
sets of points; the operands are well-shaped relations and the result is one. -/
theorem relation_union_mem {c : Cfg} {a b : Rel} (ha : Rel.Valid c a) (hb : Rel.Valid c b) :
    ∃ u, union c a b = .ok u ∧ u = a ++ b ∧ Rel.Valid c u ∧
      ∀ x y n, Rel.Mem u x y n ↔ Rel.Mem a x y n ∨ Rel.Mem b x y n := by
  refine ⟨a ++ b, ?_, rfl, ?_, ?_⟩
  · unfold union
    split
    · rfl
    · rw [clone_ok ha.wf, clone_ok hb.wf]; rfl
  · intro p hp
    rcases List.mem_append.mp hp with h | h
    · exact ha p h
    · exact hb p h
  · intro x y n
    unfold Rel.Mem
    constructor
    · rintro ⟨p, hp, h⟩
      rcases List.mem_append.mp hp with hp | hp
      · exact .inl ⟨p, hp, h⟩
      · exact .inr ⟨p, hp, h⟩
    · rintro (⟨p, hp, h⟩ | ⟨p, hp, h⟩)
      · exact ⟨p, List.mem_append_left _ hp, h⟩
      · exact ⟨p, List.mem_append_right _ hp, h⟩

/-- C14: `osl_relation_add` chains the parts, and the number of parts adds up. -/
theorem relation_add_parts (a b : Rel) :
    add a b = a ++ b ∧ nb_components (add a b) = nb_components a + nb_components b := by
  simp [add, nb_components]

example : ∃ u, union Cfg.std [exDomain] [exDomain2] = .ok u ∧ Rel.Mem u [3] [] [3] := by
  obtain ⟨u, h1, _, _, h2⟩ := relation_union_mem (c := Cfg.std) (a := [exDomain]) (b := [exDomain2])
    (by intro p hp; simp at hp; subst hp; exact exDomain_valid)
    (by intro p hp; simp at hp; subst hp; exact exDomain2_valid)
  refine ⟨u, h1, (h2 _ _ _).mpr (.inr ⟨exDomain2, by simp, by decide, by decide, by decide, [], by decide, by decide⟩)⟩

/-! ## C15: adding constraints -/

/-- The tail of a successful insertion: what C15 promises about the new first part. -/
def IntersectsWith (p : Part) (rows : List (List Int)) (q : Part) : Prop :=
  q.type = p.type ∧ q.precision = p.precision ∧ q.nb_columns = p.nb_columns ∧
  q.nb_output_dims = p.nb_output_dims ∧ q.nb_input_dims = p.nb_input_dims ∧
  q.nb_local_dims = p.nb_local_dims ∧ q.nb_parameters = p.nb_parameters ∧
  q.nb_rows = p.nb_rows + rows.length ∧
  ∀ pt, q.Holds pt ↔ p.Holds pt ∧ ∀ row ∈ rows, RowHolds row pt

theorem valid_take_append {c : Cfg} {p : Part} (h : p.Valid c) {rows : List (List Int)}
    (hlen : ∀ r ∈ rows, (r.length : Int) = p.nb_columns) (hin : ∀ r ∈ rows, ∀ a ∈ r, InPrec c p.precision a)
    (k : Nat) : Part.Valid c { p with nb_rows := p.nb_rows + rows.length, m := p.m.take k ++ rows ++ p.m.drop k } where
  rows := by have := h.rows; simp; omega
  cols := by
    intro r hr
    simp only [List.mem_append] at hr
    rcases hr with (hr | hr) | hr
    · exact h.cols r (List.mem_of_mem_take hr)
    · exact hlen r hr
    · exact h.cols r (List.mem_of_mem_drop hr)
  ncols := h.ncols
  prec := h.prec
  ents := by
    intro r hr
    simp only [List.mem_append] at hr
    rcases hr with (hr | hr) | hr
    · exact h.ents r (List.mem_of_mem_take hr)
    · exact hin r hr
    · exact h.ents r (List.mem_of_mem_drop hr)

theorem holds_take_append {p : Part} {rows : List (List Int)} {k : Nat} {q : Part}
    (hq : q.m = p.m.take k ++ rows ++ p.m.drop k) (pt : List Int) :
    q.Holds pt ↔ p.Holds pt ∧ ∀ row ∈ rows, RowHolds row pt := by
  unfold Part.Holds
  rw [hq]
  have e : ∀ r, r ∈ p.m ↔ r ∈ p.m.take k ∨ r ∈ p.m.drop k := by
    intro r
    conv => lhs; rw [← List.take_append_drop k p.m]
    exact List.mem_append
  constructor
  · intro h
    refine ⟨fun r hr => h r ?_, fun r hr => h r ?_⟩
    · simp only [List.mem_append]
      rcases (e r).mp hr with h | h
      · exact .inl (.inl h)
      · exact .inr h
    · simp [hr]
  · rintro ⟨h1, h2⟩ r hr
    simp only [List.mem_append] at hr
    rcases hr with (hr | hr) | hr
    · exact h1 r ((e r).mpr (.inl hr))
    · exact h2 r hr
    · exact h1 r ((e r).mpr (.inr hr))

/-- C15: inserting the constraints of `q` at any row (or at the end, `-1`) intersects the first part
with them, and leaves the other parts alone. -/
theorem relation_insert_constraints_intersects {c : Cfg} {p q : Part} {rest rest' : Rel}
    (hp : p.Valid c) (hq : q.Valid c) (hprec : p.precision = q.precision)
    (hcols : p.nb_columns = q.nb_columns) {row : Int} (hrow : row = -1 ∨ (0 ≤ row ∧ row ≤ p.nb_rows)) :
    ∃ p', insert_constraints c (p :: rest) (q :: rest') row = .ok (p' :: rest) ∧ p'.Valid c ∧
      IntersectsWith p q.m p' := by
  have key : ∀ row, 0 ≤ row → row ≤ p.nb_rows →
      ∃ p', insert_constraints c (p :: rest) (q :: rest') row = .ok (p' :: rest) ∧ p'.Valid c ∧
      IntersectsWith p q.m p' := by
    intro row h0 h1
    refine ⟨_, insert_constraints_ok hp.wf hq.wf hprec hcols h0 h1, ?_, ?_⟩
    · have := valid_take_append hp (rows := q.m) (fun r hr => by rw [hcols]; exact hq.cols r hr)
        (fun r hr => by rw [hprec]; exact hq.ents r hr) row.toNat
      rwa [hq.rows] at this
    · refine ⟨rfl, rfl, rfl, rfl, rfl, rfl, rfl, by simp [hq.rows], ?_⟩
      exact holds_take_append rfl
  rcases hrow with rfl | ⟨h0, h1⟩
  · rw [insert_constraints_end hp.wf]
    exact key _ hp.wf.rows (by omega)
  · exact key _ h0 h1

/-- C15: a mismatch of columns or precision, or an out of range row, is an error. -/
theorem relation_insert_constraints_error {c : Cfg} {p q : Part} {rest rest' : Rel} (hp : p.Valid c) {row : Int}
    (h : p.precision ≠ q.precision ∨ p.nb_columns ≠ q.nb_columns ∨ row < -1 ∨ p.nb_rows < row) :
    insert_constraints c (p :: rest) (q :: rest') row = .err := by
  have := hp.wf.rows
  unfold insert_constraints
  simp only
  by_cases hr : row = -1
  · rw [if_pos hr, if_pos (by omega)]
  · rw [if_neg hr, if_pos (by omega)]

/-- C15: inserting the constraint vector `v` at any row intersects the first part with it. -/
theorem relation_insert_vector_intersects {c : Cfg} {p : Part} {rest : Rel} {v : Vec}
    (hp : p.Valid c) (hv : ∀ a ∈ v.v, InPrec c p.precision a) (hprec : p.precision = v.precision)
    (hcols : p.nb_columns = v.v.length) {row : Int} (hrow : row = -1 ∨ (0 ≤ row ∧ row ≤ p.nb_rows)) :
    ∃ p', insert_vector c (p :: rest) (some v) row = .ok (p' :: rest) ∧ p'.Valid c ∧
      IntersectsWith p [v.v] p' := by
  unfold insert_vector
  rw [from_vector_ok (hprec ▸ hp.prec)]
  simp only [Out.ok_bind]
  exact relation_insert_constraints_intersects hp
    ⟨by simp, by simp, by simp, by simpa [hprec] using hp.prec, by simpa [hprec] using hv⟩ hprec hcols hrow

/-- C15: concatenation of constraints makes a new one-part relation holding exactly where both
(first parts) hold. -/
theorem relation_concat_constraints_intersects {c : Cfg} {p q : Part} {rest rest' : Rel}
    (hp : p.Valid c) (hq : q.Valid c) (hprec : p.precision = q.precision)
    (hcols : p.nb_columns = q.nb_columns) :
    ∃ s, concat_constraints c (p :: rest) (q :: rest') = .ok [s] ∧ s.Valid c ∧
      ∀ pt, s.Holds pt ↔ p.Holds pt ∧ q.Holds pt := by
  refine ⟨_, concat_constraints_ok hp.wf hq.wf hprec hcols, ?_, ?_⟩
  · refine ⟨by have := hp.rows; have := hq.rows; simp; omega, ?_, hp.ncols, hp.prec, ?_⟩
    · intro r hr
      rcases List.mem_append.mp hr with hr | hr
      · exact hp.cols r hr
      · show (r.length : Int) = p.nb_columns
        rw [hcols]; exact hq.cols r hr
    · intro r hr
      rcases List.mem_append.mp hr with hr | hr
      · exact hp.ents r hr
      · show ∀ a ∈ r, InPrec c p.precision a
        rw [hprec]; exact hq.ents r hr
  · intro pt
    simp only [Part.Holds, List.mem_append]
    constructor
    · intro h; exact ⟨fun r hr => h r (.inl hr), fun r hr => h r (.inr hr)⟩
    · rintro ⟨h1, h2⟩ r (hr | hr)
      · exact h1 r hr
      · exact h2 r hr

/-- C15: the same for one constraint vector. -/
theorem relation_concat_vector_intersects {c : Cfg} {p : Part} {rest : Rel} {v : Vec}
    (hp : p.Valid c) (hv : ∀ a ∈ v.v, InPrec c p.precision a) (hprec : p.precision = v.precision)
    (hcols : p.nb_columns = v.v.length) :
    ∃ s, concat_vector c (p :: rest) (some v) = .ok [s] ∧
      ∀ pt, s.Holds pt ↔ p.Holds pt ∧ RowHolds v.v pt := by
  unfold concat_vector
  rw [from_vector_ok (hprec ▸ hp.prec)]
  simp only [Out.ok_bind]
  obtain ⟨s, h1, _, h2⟩ := relation_concat_constraints_intersects (rest := rest) (rest' := []) hp
    (q := blank v.precision 1 v.size [v.v])
    ⟨by simp, by simp, by simp, by simpa [hprec] using hp.prec, by simpa [hprec] using hv⟩ hprec hcols
  refine ⟨s, h1, fun pt => ?_⟩
  rw [h2]
  simp [Part.Holds]

/-- C15: concatenation with mismatching columns is an error. -/
theorem relation_concat_constraints_error {c : Cfg} {p q : Part} {rest rest' : Rel}
    (h : p.nb_columns ≠ q.nb_columns) : concat_constraints c (p :: rest) (q :: rest') = .err := by
  simp only [concat_constraints, h, ne_eq, not_false_eq_true, if_true]

/-- C15: the concatenation with a NULL relation is a copy of the other one. -/
theorem relation_concat_constraints_null {c : Cfg} {r : Rel} (h : Rel.Valid c r) :
    concat_constraints c [] r = .ok r ∧ concat_constraints c r [] = .ok r := by
  have e : clone c r = .ok r := (relation_clone_equal h).1
  cases r with
  | nil => exact ⟨rfl, rfl⟩
  | cons p l => exact ⟨e, e⟩

/-- C15: with a mismatch of precision the concatenation is an error as well. -/
theorem relation_concat_constraints_error_prec {c : Cfg} {p q : Part} {rest rest' : Rel}
    (hp : p.Valid c) (hq : q.Valid c) (h : p.precision ≠ q.precision) :
    concat_constraints c (p :: rest) (q :: rest') = .err := by
  by_cases hc : p.nb_columns = q.nb_columns
  · have h1 := hp.wf.rows
    have h2 := hq.wf.rows
    unfold concat_constraints
    simp only
    rw [if_neg (by omega), pmalloc_ok hp.prec (by omega) hp.ncols]
    simp only [Out.ok_bind]
    rw [replaceConstraintsPart_ok (r1 := blank _ _ _ _) (r2 := p)
      ⟨rect_zero (by omega) hp.ncols, hp.ncols, hp.prec⟩ hp.wf rfl rfl (by omega) (by simp only; omega)]
    simp only [Out.ok_bind]
    unfold replaceConstraintsPart
    rw [if_pos (.inl h)]
    rfl
  · exact relation_concat_constraints_error hc

example : insert_vector Cfg.std [exDomain, exDomain2] (some ⟨64, [1, -1, 0, 5]⟩) 1 =
    .ok [{ exDomain with nb_rows := 3, m := [[1, 1, 0, 0], [1, -1, 0, 5], [1, -1, 1, 0]] }, exDomain2] := by
  decide

/-! ## C16: swapping, blank and removed constraints -/

/-- C16: swapping two constraints exchanges exactly these rows and does not change the points. -/
theorem relation_swap_constraints {c : Cfg} {p : Part} {rest : Rel} (hp : p.Valid c) {i j : Nat}
    (hi : i < p.m.length) (hj : j < p.m.length) :
    ∃ q, swap_constraints c (p :: rest) i j = .ok (q :: rest) ∧ q.Valid c ∧
      q = { p with m := (p.m.set i p.m[j]).set j p.m[i] } ∧ ∀ pt, q.Holds pt ↔ p.Holds pt := by
  have hrows := hp.rows
  have hri : ∀ (i : Nat) (h : i < p.m.length), rowAt p.m (i : Int) = p.m[i] := by
    intro i h
    unfold rowAt
    rw [if_neg (by omega)]
    simp [List.getElem?_eq_getElem h]
  have hperm : ∀ r, r ∈ (p.m.set i p.m[j]).set j p.m[i] ↔ r ∈ p.m := by
    intro r
    constructor
    · intro h
      rcases List.mem_or_eq_of_mem_set h with h | h
      · rcases List.mem_or_eq_of_mem_set h with h | h
        · exact h
        · rw [h]; exact List.getElem_mem hj
      · rw [h]; exact List.getElem_mem hi
    · intro h
      obtain ⟨k, hk, rfl⟩ := List.getElem_of_mem h
      by_cases hkj : k = j
      · subst hkj
        by_cases hik : i = k
        · subst hik; exact List.mem_set (by simpa using hk) _
        · have : (((p.m.set i p.m[k]).set k p.m[i])[i]'(by simpa using hi)) = p.m[k] := by
            rw [List.getElem_set_ne (by omega)]
            simp
          exact List.mem_of_getElem this
      · by_cases hik : k = i
        · subst hik
          exact List.mem_set (by simpa using hj) _
        · have : (((p.m.set i p.m[j]).set j p.m[i])[k]'(by simpa using hk)) = p.m[k] := by
            rw [List.getElem_set_ne (by omega), List.getElem_set_ne (by omega)]
          exact List.mem_of_getElem this
  have hvalid : Part.Valid c { p with m := (p.m.set i p.m[j]).set j p.m[i] } := by
    refine ⟨by simpa using hrows, fun r hr => hp.cols r ((hperm r).mp hr), hp.ncols, hp.prec,
      fun r hr => hp.ents r ((hperm r).mp hr)⟩
  have hh : ∀ pt, Part.Holds { p with m := (p.m.set i p.m[j]).set j p.m[i] } pt ↔ p.Holds pt := by
    intro pt
    unfold Part.Holds
    exact ⟨fun h r hr => h r ((hperm r).mpr hr), fun h r hr => h r ((hperm r).mp hr)⟩
  refine ⟨_, ?_, hvalid, rfl, hh⟩
  by_cases hij : i = j
  · subst hij
    simp [swap_constraints]
  · rw [swap_constraints_ok hp.wf (by omega) (by omega) (by omega) (by omega) (by omega), hri i hi, hri j hj]
    simp

theorem dot_zero (n : Nat) (l : List Int) : dot (List.replicate n 0) l = 0 := by
  induction n generalizing l with
  | zero => rfl
  | succ n ih =>
    cases l with
    | nil => rfl
    | cons b l => simp [List.replicate_succ, dot, ih]

/-- C16: a blank row can be inserted anywhere and does not change the points. -/
theorem relation_insert_blank_row {c : Cfg} {p : Part} {rest : Rel} (hp : p.Valid c) {row : Int}
    (h0 : 0 ≤ row) (hr : row ≤ p.nb_rows) :
    ∃ q, insert_blank_row c (p :: rest) row = .ok (q :: rest) ∧ q.Valid c ∧
      ∀ pt, q.Holds pt ↔ p.Holds pt := by
  have hz : InPrec c p.precision 0 := by
    obtain ⟨k, hk⟩ := Option.ne_none_iff_exists'.mp hp.prec
    unfold InPrec
    rw [hk]
    cases k with
    | mp => trivial
    | fixed w =>
      have h : (2 : Int) ^ (w - 1) > 0 := Int.pow_pos (by omega)
      simp only [fits, cMin, cMax]; omega
  refine ⟨_, insert_blank_row_ok hp.wf h0 hr, ?_, ?_⟩
  · have := valid_take_append hp (rows := [List.replicate p.nb_columns.toNat 0])
      (by have := hp.ncols; simp; omega)
      (by intro r hr a ha; simp at hr; subst hr; rw [List.eq_of_mem_replicate ha]; exact hz) row.toNat
    simpa using this
  · intro pt
    rw [holds_take_append (p := p) (rows := [List.replicate p.nb_columns.toNat 0]) (k := row.toNat) rfl]
    simp only [List.mem_singleton, forall_eq, and_iff_left_iff_imp]
    intro _
    unfold RowHolds
    cases hn : p.nb_columns.toNat with
    | zero => simp
    | succ n => simp [List.replicate_succ, dot_zero]

/-- C16: removing a row removes exactly that constraint: the points are those satisfying the
other constraints. -/
theorem relation_remove_row {c : Cfg} {p : Part} {rest : Rel} (hp : p.Valid c) {i : Nat}
    (hi : i < p.m.length) :
    ∃ q, remove_row c (p :: rest) i = .ok (q :: rest) ∧ q.Valid c ∧ q.nb_rows = p.nb_rows - 1 ∧
      q.m = p.m.eraseIdx i ∧ ∀ pt, p.Holds pt ↔ q.Holds pt ∧ RowHolds p.m[i] pt := by
  have hrows := hp.rows
  have he : p.m.take i ++ p.m.drop (i + 1) = p.m.eraseIdx i := (List.eraseIdx_eq_take_drop_succ ..).symm
  refine ⟨{ p with nb_rows := p.nb_rows - 1, m := p.m.eraseIdx i }, ?_, ?_, rfl, rfl, ?_⟩
  · rw [remove_row_ok hp.wf (by omega) (by omega)]
    simp [he]
  · refine ⟨by simp [List.length_eraseIdx, hi]; omega, fun r hr => hp.cols r (List.mem_of_mem_eraseIdx hr),
      hp.ncols, hp.prec, fun r hr => hp.ents r (List.mem_of_mem_eraseIdx hr)⟩
  · intro pt
    unfold Part.Holds
    simp only
    constructor
    · intro h
      exact ⟨fun r hr => h r (List.mem_of_mem_eraseIdx hr), h _ (List.getElem_mem hi)⟩
    · rintro ⟨h1, h2⟩ r hr
      obtain ⟨k, hk, rfl⟩ := List.getElem_of_mem hr
      by_cases hki : k = i
      · subst hki; exact h2
      · apply h1
        rw [← he, List.mem_append]
        by_cases hlt : k < i
        · left
          rw [List.mem_take_iff_getElem]
          exact ⟨k, by omega, rfl⟩
        · right
          rw [List.mem_drop_iff_getElem]
          exact ⟨k - (i + 1), by omega, by congr 1; omega⟩

/-- C16: rows outside of the relation are errors for the three operations. -/
theorem relation_row_errors {c : Cfg} {p : Part} {rest : Rel} (hp : p.Valid c) :
    (∀ i j : Int, i ≠ j → (i < 0 ∨ p.nb_rows ≤ i ∨ j < 0 ∨ p.nb_rows ≤ j) →
      swap_constraints c (p :: rest) i j = .err) ∧
    (∀ i : Int, (i < 0 ∨ p.nb_rows ≤ i) → remove_row c (p :: rest) i = .err) ∧
    (∀ i : Int, (i < -1 ∨ p.nb_rows < i) → insert_blank_row c (p :: rest) i = .err) := by
  refine ⟨fun i j hne h => ?_, fun i h => ?_, fun i h => ?_⟩
  · unfold swap_constraints
    simp only
    rw [if_neg hne, if_pos (by omega)]
  · unfold remove_row
    simp only
    rw [if_pos (by omega)]
  · unfold insert_blank_row
    have hpm : Vec.pmalloc c p.precision p.nb_columns = .ok ⟨p.precision, List.replicate p.nb_columns.toNat 0⟩ := by
      have := Vec.pmalloc_ok hp.prec p.nb_columns.toNat
      rwa [Int.toNat_of_nonneg hp.ncols] at this
    simp only [hpm, Out.ok_bind, insert_vector]
    rw [from_vector_ok (v := ⟨p.precision, List.replicate p.nb_columns.toNat 0⟩) hp.prec]
    simp only [Out.ok_bind]
    exact relation_insert_constraints_error hp (by omega)

example : swap_constraints Cfg.std [exDomain] 0 1 = .ok [{ exDomain with m := [[1, -1, 1, 0], [1, 1, 0, 0]] }] ∧
    remove_row Cfg.std [exDomain] 0 = .ok [{ exDomain with nb_rows := 1, m := [[1, -1, 1, 0]] }] ∧
    insert_blank_row Cfg.std [exDomain2] 1 =
      .ok [{ exDomain2 with nb_rows := 2, m := [[0, 1, -1, 0], [0, 0, 0, 0]] }] := by decide

end Rel
end Osl
