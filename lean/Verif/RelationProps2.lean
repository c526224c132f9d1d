import Verif.RelationProps
/-!
# Properties C17, C18 and C20 of source/relation.c
-/

namespace Osl
namespace Rel
open OInt

/-! ## C17: combining a constraint with a vector -/

theorem dot_zipWith_add {a b l : List Int} (h : a.length = b.length) :
    dot (List.zipWith (· + ·) a b) l = dot a l + dot b l := by
  induction a generalizing b l with
  | nil => cases b <;> simp_all [dot]
  | cons x a ih =>
    cases b with
    | nil => simp at h
    | cons y b =>
      cases l with
      | nil => simp [dot]
      | cons z l =>
        simp only [List.zipWith_cons_cons, dot, ih (by simpa using h), Int.add_mul]
        omega

theorem dot_zipWith_sub {a b l : List Int} (h : a.length = b.length) :
    dot (List.zipWith (· - ·) a b) l = dot a l - dot b l := by
  induction a generalizing b l with
  | nil => cases b <;> simp_all [dot]
  | cons x a ih =>
    cases b with
    | nil => simp at h
    | cons y b =>
      cases l with
      | nil => simp [dot]
      | cons z l =>
        simp only [List.zipWith_cons_cons, dot, ih (by simpa using h), Int.sub_mul]
        omega

theorem combined_cons (f : Int → Int → Int) (t u : Int) (r v : List Int) :
    combined f (t :: r) (u :: v) = (if t = 0 then u else t) :: List.zipWith f r v := rfl

theorem valid_set_row {c : Cfg} {p : Part} (h : p.Valid c) {i : Nat} {r : List Int}
    (hl : (r.length : Int) = p.nb_columns) (hin : ∀ a ∈ r, InPrec c p.precision a) :
    Part.Valid c { p with m := p.m.set i r } where
  rows := by simpa using h.rows
  cols := by
    intro s hs
    rcases List.mem_or_eq_of_mem_set hs with hs | hs
    · exact h.cols s hs
    · subst hs; exact hl
  ncols := h.ncols
  prec := h.prec
  ents := by
    intro s hs
    rcases List.mem_or_eq_of_mem_set hs with hs | hs
    · exact h.ents s hs
    · subst hs; exact hin

theorem rowAt_get {m : Matrix} {i : Nat} (h : i < m.length) : rowAt m (i : Int) = m[i] := by
  unfold rowAt
  rw [if_neg (by omega)]
  simp [List.getElem?_eq_getElem h]

theorem rc_zero_cons (t : Int) (l : List Int) : rc (t :: l) 0 = t := rfl

theorem rc_succ_mem_zip {a b : List Int} {j : Int} (h1 : 1 ≤ j) (h2 : j < a.length) (h3 : j < b.length) :
    (rc a j, rc b j) ∈ a.tail.zip b.tail := by
  obtain ⟨k, hk⟩ : ∃ k : Nat, j.toNat = k + 1 := ⟨j.toNat - 1, by omega⟩
  cases a with
  | nil => simp at h2; omega
  | cons x a =>
    cases b with
    | nil => simp at h3; omega
    | cons y b =>
      simp only [List.length_cons] at h2 h3
      unfold rc
      simp only [if_neg (show ¬ j < 0 by omega), hk, List.getElem?_cons_succ, List.tail_cons]
      have e1 : k < a.length := by omega
      have e2 : k < b.length := by omega
      rw [List.getElem?_eq_getElem e1, List.getElem?_eq_getElem e2]
      simp only [Option.getD_some]
      rw [List.mem_iff_getElem]
      exact ⟨k, by simp; omega, by simp⟩

/-- The code of both functions, when every coefficient can be computed by `op` as `f`. -/
theorem combine_result {c : Cfg} (hv : c.Valid) (hd : c.ndebug = false) {op : Int → Int → Out Int}
    {f : Int → Int → Int} {p : Part} (hp : p.Valid c) {v : Vec} {i : Nat} (hi : i < p.m.length)
    (hcols : p.nb_columns = v.v.length) (hpos : 0 < p.nb_columns)
    (htag : ∀ t r, p.m[i] = t :: r → fits 32 t)
    (hop : ∀ a b, (a, b) ∈ p.m[i].tail.zip v.v.tail → op a b = .ok (f a b)) :
    combineRow c op p v i = .ok (p.m.set i (combined f p.m[i] v.v)) := by
  have hrl := hp.cols _ (List.getElem_mem hi)
  obtain ⟨t, r, htr⟩ : ∃ t r, p.m[i] = t :: r := by
    cases hr : p.m[i] with
    | nil => rw [hr] at hrl; simp at hrl; omega
    | cons t r => exact ⟨t, r, rfl⟩
  have hti : InPrec c p.precision t := hp.ents _ (List.getElem_mem hi) t (by rw [htr]; simp)
  have hrow : rowAt p.m (i : Int) = p.m[i] := rowAt_get hi
  have := combineRow_ok (c := c) (op := op) (f := f) hp.wf (v := v) (row := (i : Int)) hcols.symm hpos
    (by omega) (by have := hp.rows; omega) (t := t)
    (by rw [hrow, htr, rc_zero_cons, int_get_si_exact hv hd hti, if_pos (htag t r htr)])
    (by rw [hrow, htr, rc_zero_cons])
    (by
      intro j h1 h2
      rw [hrow]
      exact hop _ _ (rc_succ_mem_zip h1 (by omega) (by omega)))
  rw [this, hrow]
  simp

/-- Spec of C17: the new constraint follows from the old one and `v`; if `v` is an equality, then
moreover under `v` the new constraint is equivalent to the old one. -/
def SoundCombination (old v new : List Int) : Prop :=
  ∀ pt, (RowHolds old pt → RowHolds v pt → RowHolds new pt) ∧
    (v.head? = some 0 → RowHolds v pt → (RowHolds new pt ↔ RowHolds old pt))

theorem guard_false {p : Part} {v : Vec} {i : Nat} {c : Cfg} (hp : p.Valid c) (hi : i < p.m.length)
    (hprec : p.precision = v.precision) (hcols : p.nb_columns = v.v.length) :
    vectorGuard p v i = false := by
  have := hp.rows
  simp [vectorGuard, hprec, hcols, Vec.size]; omega

/-- C17: `osl_relation_add_vector` is sound. -/
theorem relation_add_vector_sound {c : Cfg} (hv : c.Valid) (hd : c.ndebug = false) {p : Part} {rest : Rel}
    (hp : p.Valid c) {v : Vec} (hvin : ∀ a ∈ v.v, InPrec c p.precision a)
    (hprec : p.precision = v.precision) (hcols : p.nb_columns = v.v.length) (hpos : 0 < p.nb_columns)
    {i : Nat} (hi : i < p.m.length) (htag : ∀ t, p.m[i].head? = some t → fits 32 t)
    (hsum : ∀ ab ∈ p.m[i].tail.zip v.v.tail, InPrec c p.precision (ab.1 + ab.2)) :
    ∃ new, add_vector c (p :: rest) (some v) i = .ok ({ p with m := p.m.set i new } :: rest) ∧
      Part.Valid c { p with m := p.m.set i new } ∧ SoundCombination p.m[i] v.v new := by
  have hrl := hp.cols _ (List.getElem_mem hi)
  have hres := combine_result hv hd hp (f := (· + ·)) (op := OInt.add c p.precision) hi hcols hpos
    (fun t r h => htag t (by rw [h]; rfl))
    (fun a b hab => by
      have hm := List.of_mem_zip hab
      have ha : InPrec c p.precision a := hp.ents _ (List.getElem_mem hi) a (List.mem_of_mem_tail hm.1)
      have hb : InPrec c p.precision b := hvin b (List.mem_of_mem_tail hm.2)
      have hs : InPrec c p.precision (a + b) := hsum (a, b) hab
      rcases int_add_exact_or_error_partial hv hd ha hb (by
        rintro ⟨hneg, w, hk, he⟩
        simp only [InPrec, hk] at hs
        rw [he] at hs
        simp only [fits] at hs; omega) with h | h
      · exact h.2
      · exact absurd hs h.1)
  refine ⟨combined (· + ·) p.m[i] v.v, ?_, ?_, ?_⟩
  · unfold add_vector
    simp only [guard_false hp hi hprec hcols, Bool.false_eq_true, if_false, hres]
    rfl
  · apply valid_set_row hp
    · simp only [combined, List.length_cons, List.length_zipWith, List.length_tail]; omega
    · intro a ha
      simp only [combined, List.mem_cons] at ha
      rcases ha with rfl | ha
      · split
        · exact hvin _ (rc_mem (by omega) (by omega))
        · exact hp.ents _ (List.getElem_mem hi) _ (rc_mem (by omega) (by omega))
      · obtain ⟨k, hk, rfl⟩ := List.getElem_of_mem ha
        simp only [List.length_zipWith] at hk
        rw [List.getElem_zipWith]
        exact hsum (p.m[i].tail[k]'(by omega), v.v.tail[k]'(by omega))
          (List.mem_iff_getElem.mpr ⟨k, by simp; simp at hk; omega, by simp⟩)
  · intro pt
    obtain ⟨t, r, htr⟩ : ∃ t r, p.m[i] = t :: r := by
      cases hr : p.m[i] with
      | nil => rw [hr] at hrl; simp at hrl; omega
      | cons t r => exact ⟨t, r, rfl⟩
    obtain ⟨u, w, huw⟩ : ∃ u w, v.v = u :: w := by
      cases hr : v.v with
      | nil => rw [hr] at hcols; simp at hcols; omega
      | cons t r => exact ⟨t, r, rfl⟩
    rw [htr] at hrl
    rw [huw] at hcols
    rw [htr, huw, combined_cons]
    have hl : r.length = w.length := by simp at hrl hcols; omega
    simp only [RowHolds, dot_zipWith_add hl, List.head?_cons, Option.some.injEq]
    constructor
    · intro h1 h2
      repeat' split at h1
      all_goals repeat' split at h2
      all_goals repeat' split
      all_goals first | omega | (simp_all; done) | (simp_all; omega)
    · rintro rfl h2
      rw [if_pos rfl] at h2
      rw [h2]
      by_cases ht : t = 0 <;> simp [ht]

/-- C17: `osl_relation_sub_vector` is sound when `v` is an equality. -/
theorem relation_sub_vector_sound {c : Cfg} (hv : c.Valid) (hd : c.ndebug = false) {p : Part} {rest : Rel}
    (hp : p.Valid c) {v : Vec} (hvin : ∀ a ∈ v.v, InPrec c p.precision a)
    (hmin : ∀ a ∈ v.v, ¬ IsMin c p.precision a) (heq : v.v.head? = some 0)
    (hprec : p.precision = v.precision) (hcols : p.nb_columns = v.v.length) (hpos : 0 < p.nb_columns)
    {i : Nat} (hi : i < p.m.length) (htag : ∀ t, p.m[i].head? = some t → fits 32 t)
    (hsum : ∀ ab ∈ p.m[i].tail.zip v.v.tail, InPrec c p.precision (ab.1 - ab.2)) :
    ∃ new, sub_vector c (p :: rest) (some v) i = .ok ({ p with m := p.m.set i new } :: rest) ∧
      Part.Valid c { p with m := p.m.set i new } ∧ SoundCombination p.m[i] v.v new := by
  have hrl := hp.cols _ (List.getElem_mem hi)
  have hres := combine_result hv hd hp (f := (· - ·)) (op := OInt.sub c p.precision) hi hcols hpos
    (fun t r h => htag t (by rw [h]; rfl))
    (fun a b hab => by
      have hm := List.of_mem_zip hab
      have ha : InPrec c p.precision a := hp.ents _ (List.getElem_mem hi) a (List.mem_of_mem_tail hm.1)
      have hb : InPrec c p.precision b := hvin b (List.mem_of_mem_tail hm.2)
      have hs : InPrec c p.precision (a - b) := hsum (a, b) hab
      rcases int_sub_exact_or_error_partial hv hd ha hb (hmin b (List.mem_of_mem_tail hm.2)) with h | h
      · exact h.2
      · exact absurd hs h.1)
  refine ⟨combined (· - ·) p.m[i] v.v, ?_, ?_, ?_⟩
  · unfold sub_vector
    simp only [guard_false hp hi hprec hcols, Bool.false_eq_true, if_false, hres]
    rfl
  · apply valid_set_row hp
    · simp only [combined, List.length_cons, List.length_zipWith, List.length_tail]; omega
    · intro a ha
      simp only [combined, List.mem_cons] at ha
      rcases ha with rfl | ha
      · split
        · exact hvin _ (rc_mem (by omega) (by omega))
        · exact hp.ents _ (List.getElem_mem hi) _ (rc_mem (by omega) (by omega))
      · obtain ⟨k, hk, rfl⟩ := List.getElem_of_mem ha
        simp only [List.length_zipWith] at hk
        rw [List.getElem_zipWith]
        exact hsum (p.m[i].tail[k]'(by omega), v.v.tail[k]'(by omega))
          (List.mem_iff_getElem.mpr ⟨k, by simp; simp at hk; omega, by simp⟩)
  · intro pt
    obtain ⟨t, r, htr⟩ : ∃ t r, p.m[i] = t :: r := by
      cases hr : p.m[i] with
      | nil => rw [hr] at hrl; simp at hrl; omega
      | cons t r => exact ⟨t, r, rfl⟩
    obtain ⟨u, w, huw⟩ : ∃ u w, v.v = u :: w := by
      cases hr : v.v with
      | nil => rw [hr] at hcols; simp at hcols; omega
      | cons t r => exact ⟨t, r, rfl⟩
    rw [htr] at hrl
    rw [huw] at hcols heq
    rw [htr, huw, combined_cons]
    simp at heq
    subst heq
    have hl : r.length = w.length := by simp at hrl hcols; omega
    simp only [RowHolds, dot_zipWith_sub hl, List.head?_cons, Option.some.injEq]
    have key : dot w (pt ++ [1]) = 0 → ((if (if t = 0 then 0 else t) = 0 then
        dot r (pt ++ [1]) - dot w (pt ++ [1]) = 0 else 0 ≤ dot r (pt ++ [1]) - dot w (pt ++ [1])) ↔
        (if t = 0 then dot r (pt ++ [1]) = 0 else 0 ≤ dot r (pt ++ [1]))) := by
      intro h
      rw [h]
      by_cases ht : t = 0 <;> simp [ht]
    simp only [if_true]
    exact ⟨fun h1 h2 => (key h2).mpr h1, fun _ h2 => key h2⟩

/-- C17, why the restriction to equalities: subtracting the inequality `i >= 0` from the equality
`i = 3` gives the constraint `-3 >= 0`: the point 3 is lost. -/
theorem relation_sub_vector_inequality_unsound :
    ∃ q, sub_vector Cfg.std [{ exDomain with nb_rows := 1, m := [[0, 1, 0, -3]] }] (some ⟨64, [1, 1, 0, 0]⟩) 0 = .ok [q] ∧
      RowHolds [0, 1, 0, -3] [3, 0] ∧ RowHolds [1, 1, 0, 0] [3, 0] ∧ ¬ q.Holds [3, 0] :=
  ⟨{ exDomain with nb_rows := 1, m := [[1, 0, 0, -3]] }, by decide, by decide, by decide, by decide⟩

/-- C17: incompatible vectors and rows are errors. -/
theorem relation_combine_error {c : Cfg} {p : Part} {rest : Rel} {v : Vec} {row : Int}
    (h : p.precision ≠ v.precision ∨ p.nb_columns ≠ v.v.length ∨ row < 0 ∨ p.nb_rows ≤ row) :
    add_vector c (p :: rest) (some v) row = .err ∧ sub_vector c (p :: rest) (some v) row = .err ∧
    replace_vector c (p :: rest) (some v) row = .err := by
  have hg : vectorGuard p v row = true := by
    simp only [vectorGuard, Vec.size, Bool.or_eq_true, decide_eq_true_eq]
    omega
  simp [add_vector, sub_vector, replace_vector, replaceVectorPart, hg]

example : ∃ new, add_vector Cfg.std [exDomain, exDomain2] (some ⟨64, [0, 1, -1, 0]⟩) 0 =
    .ok ({ exDomain with m := exDomain.m.set 0 new } :: [exDomain2]) ∧
    Part.Valid Cfg.std { exDomain with m := exDomain.m.set 0 new } ∧
    SoundCombination [1, 1, 0, 0] [0, 1, -1, 0] new :=
  relation_add_vector_sound (by decide) rfl exDomain_valid (v := ⟨64, [0, 1, -1, 0]⟩) (by decide) rfl rfl (by decide)
    (by decide) (by decide) (by decide)

/-! ## C18: columns -/

theorem dot_append {a b l l' : List Int} (h : a.length = l.length) :
    dot (a ++ b) (l ++ l') = dot a l + dot b l' := by
  induction a generalizing l with
  | nil => cases l <;> simp_all [dot]
  | cons x a ih =>
    cases l with
    | nil => simp at h
    | cons y l => simp only [List.cons_append, dot, ih (by simpa using h)]; omega

theorem rowHolds_blank {row pre post : List Int} {v : Int} {col : Nat} (hl : row.length = pre.length + post.length + 2)
    (hc : col = pre.length + 1) :
    RowHolds (row.take col ++ 0 :: row.drop col) (pre ++ [v] ++ post) ↔ RowHolds row (pre ++ post) := by
  cases row with
  | nil => simp at hl
  | cons t cs =>
    subst hc
    simp only [List.take_succ_cons, List.drop_succ_cons, List.cons_append, RowHolds]
    have e1 : dot (cs.take pre.length ++ 0 :: cs.drop pre.length) (pre ++ [v] ++ post ++ [1]) =
        dot cs (pre ++ post ++ [1]) := by
      have hlen : (cs.take pre.length).length = pre.length := by simp at hl ⊢; omega
      conv => rhs; rw [← List.take_append_drop pre.length cs]
      rw [List.append_assoc, List.append_assoc, List.append_assoc, dot_append hlen, dot_append hlen]
      simp [dot]
    rw [e1]

/-- C18: a blank column inserted among the dimensions adds an unconstrained dimension: membership
does not depend on its value, and is that of the old relation without it. -/
theorem relation_insert_blank_column {c : Cfg} {p : Part} {rest : Rel} (hp : p.Valid c) {col : Nat}
    (h1 : 1 ≤ col) (h2 : (col : Int) < p.nb_columns) :
    ∃ q, insert_blank_column c (p :: rest) col = .ok (q :: rest) ∧ q.Valid c ∧
      q.nb_columns = p.nb_columns + 1 ∧ q.nb_rows = p.nb_rows ∧
      ∀ (pre post : List Int) (v : Int), pre.length = col - 1 →
        (pre.length + post.length + 2 : Int) = p.nb_columns →
        (q.Holds (pre ++ [v] ++ post) ↔ p.Holds (pre ++ post)) := by
  have hz : InPrec c p.precision 0 := by
    obtain ⟨k, hk⟩ := Option.ne_none_iff_exists'.mp hp.prec
    unfold InPrec
    rw [hk]
    cases k with
    | mp => trivial
    | fixed w =>
      have h : (2 : Int) ^ (w - 1) > 0 := Int.pow_pos (by omega)
      simp only [fits, cMin, cMax]; omega
  refine ⟨_, insert_blank_column_ok hp.wf (by omega) (by omega), ?_, rfl, rfl, ?_⟩
  · refine ⟨by simpa using hp.rows, ?_, by have := hp.ncols; simp only; omega, hp.prec, ?_⟩
    · intro r hr
      simp only [List.mem_map] at hr
      obtain ⟨r0, h0, rfl⟩ := hr
      have := hp.cols r0 h0
      simp; omega
    · intro r hr a ha
      simp only [List.mem_map] at hr
      obtain ⟨r0, h0, rfl⟩ := hr
      simp only [List.mem_append, List.mem_cons] at ha
      rcases ha with ha | rfl | ha
      · exact hp.ents r0 h0 a (List.mem_of_mem_take ha)
      · exact hz
      · exact hp.ents r0 h0 a (List.mem_of_mem_drop ha)
  · intro pre post v hpre hlen
    unfold Part.Holds
    simp only [List.mem_map, Int.toNat_natCast]
    constructor
    · intro h r hr
      have hrl := hp.cols r hr
      exact (rowHolds_blank (v := v) (by omega) (by omega)).mp (h _ ⟨r, hr, rfl⟩)
    · rintro h r ⟨r0, hr0, rfl⟩
      have hrl := hp.cols r0 hr0
      exact (rowHolds_blank (by omega) (by omega)).mpr (h r0 hr0)

/-- C18: removing a blank column just inserted gives back the relation. -/
theorem relation_remove_inserted_column {c : Cfg} {p : Part} {rest : Rel} (hp : p.Valid c) {col : Int}
    (h1 : 0 ≤ col) (h2 : col ≤ p.nb_columns) :
    (do let r ← insert_blank_column c (p :: rest) col; remove_column c r col) = .ok (p :: rest) := by
  have hcols := hp.ncols
  rw [insert_blank_column_ok hp.wf h1 h2]
  simp only [Out.ok_bind]
  have hw : Part.WF c { p with nb_columns := p.nb_columns + 1, m := p.m.map (fun r => r.take col.toNat ++ 0 :: r.drop col.toNat) } := by
    refine ⟨rect_map hp.wf.rect ?_, ?_, hp.prec⟩
    · intro r hr; simp; omega
    · simp only; omega
  rw [remove_column_ok hw h1 (by simp only; omega)]
  have : List.map (fun r => List.take col.toNat r ++ List.drop (col.toNat + 1) r)
      (p.m.map (fun r => r.take col.toNat ++ 0 :: r.drop col.toNat)) = p.m := by
    rw [List.map_map]
    conv => rhs; rw [← List.map_id p.m]
    apply List.map_congr_left
    intro r hr
    have hrl := hp.cols r hr
    have hlen : (r.take col.toNat).length = col.toNat := by simp; omega
    simp only [Function.comp, id]
    rw [List.take_append_of_le_length (by omega), List.take_of_length_le (by omega),
      List.drop_append, hlen, List.drop_eq_nil_of_le (by omega)]
    simp
  simp only [this]
  cases p
  simp

/-- C18: removing a column removes exactly the entries of that column. -/
theorem relation_remove_column {c : Cfg} {p : Part} {rest : Rel} (hp : p.Valid c) {col : Nat}
    (h : (col : Int) < p.nb_columns) :
    ∃ q, remove_column c (p :: rest) col = .ok (q :: rest) ∧ q.Valid c ∧
      q.nb_columns = p.nb_columns - 1 ∧ q.m = p.m.map (fun r => r.eraseIdx col) := by
  have he : ∀ r : List Int, r.take col ++ r.drop (col + 1) = r.eraseIdx col :=
    fun r => (List.eraseIdx_eq_take_drop_succ ..).symm
  have hm : ∀ m : Matrix, m.map (fun r => r.take col ++ r.drop (col + 1)) = m.map (fun r => r.eraseIdx col) := by
    intro m; apply List.map_congr_left; intro r _; exact he r
  refine ⟨_, remove_column_ok hp.wf (by omega) h, ?_, rfl, by simp [hm]⟩
  refine ⟨by simpa using hp.rows, ?_, by simp only; omega, hp.prec, ?_⟩
  · intro r hr
    simp only [List.mem_map] at hr
    obtain ⟨r0, h0, rfl⟩ := hr
    have := hp.cols r0 h0
    simp; omega
  · intro r hr a ha
    simp only [List.mem_map] at hr
    obtain ⟨r0, h0, rfl⟩ := hr
    simp only [List.mem_append] at ha
    rcases ha with ha | ha
    · exact hp.ents r0 h0 a (List.mem_of_mem_take ha)
    · exact hp.ents r0 h0 a (List.mem_of_mem_drop ha)

/-- C18: inserting the columns of `q` places them, in order, before column `col` of each row. -/
theorem relation_insert_columns {c : Cfg} {p q : Part} {rest rest' : Rel} (hp : p.Valid c) (hq : q.Valid c)
    (hprec : p.precision = q.precision) (hrows : p.nb_rows = q.nb_rows) {col : Nat}
    (h : (col : Int) ≤ p.nb_columns) :
    ∃ s, insert_columns c (p :: rest) (q :: rest') col = .ok (s :: rest) ∧ s.Valid c ∧
      s.nb_columns = p.nb_columns + q.nb_columns ∧ s.nb_rows = p.nb_rows ∧
      ∀ i (h1 : i < s.m.length) (h2 : i < p.m.length) (h3 : i < q.m.length),
        s.m[i] = p.m[i].take col ++ q.m[i] ++ p.m[i].drop col := by
  have hr1 := hp.rows
  have hr2 := hq.rows
  refine ⟨_, insert_columns_ok hp.wf hq.wf hprec hrows (by omega) h, ?_, rfl, rfl, ?_⟩
  · refine ⟨by simp; omega, ?_, by have := hp.ncols; have := hq.ncols; simp only; omega, hp.prec, ?_⟩
    · intro r hr
      obtain ⟨i, hi, rfl⟩ := List.getElem_of_mem hr
      simp only [List.length_zipWith] at hi
      have e1 := hp.cols (p.m[i]'(by omega)) (List.getElem_mem _)
      have e2 := hq.cols (q.m[i]'(by omega)) (List.getElem_mem _)
      simp only [List.getElem_zipWith, List.length_append, List.length_take, List.length_drop, Int.toNat_natCast]
      omega
    · intro r hr a ha
      obtain ⟨i, hi, rfl⟩ := List.getElem_of_mem hr
      simp only [List.length_zipWith] at hi
      simp only [List.getElem_zipWith, List.mem_append] at ha
      rcases ha with (ha | ha) | ha
      · exact hp.ents _ (List.getElem_mem _) a (List.mem_of_mem_take ha)
      · show InPrec c p.precision a
        rw [hprec]; exact hq.ents _ (List.getElem_mem _) a ha
      · exact hp.ents _ (List.getElem_mem _) a (List.mem_of_mem_drop ha)
  · intro i h1 h2 h3
    simp

/-- C18: columns outside of the relation are errors. -/
theorem relation_column_errors {c : Cfg} {p q : Part} {rest rest' : Rel} (col : Int) :
    ((col < 0 ∨ p.nb_columns < col) → insert_blank_column c (p :: rest) col = .err ∧
      insert_columns c (p :: rest) (q :: rest') col = .err) ∧
    ((col < 0 ∨ p.nb_columns ≤ col) → remove_column c (p :: rest) col = .err) := by
  refine ⟨fun h => ⟨?_, ?_⟩, fun h => ?_⟩
  · unfold insert_blank_column; simp only; rw [if_pos (by omega)]
  · unfold insert_columns; simp only; rw [if_pos (by omega)]
  · unfold remove_column; simp only; rw [if_pos (by omega)]

/-- C18, remark: the accepted indices include the first column and the position after the constant,
where a blank column is not a new dimension: at column 0 it turns the inequalities into equalities
(here `i >= 0` becomes `i + ... = 0` with the old tag as coefficient of a new dimension). -/
theorem relation_insert_blank_column_0 :
    insert_blank_column Cfg.std [exDomain] 0 =
      .ok [{ exDomain with nb_columns := 5, m := [[0, 1, 1, 0, 0], [0, 1, -1, 1, 0]] }] := by decide

/-- The column functions do not update the dimension attributes: after an insertion the advertised
dimensions no longer account for the columns (documented in the header comment only for
`osl_relation_insert_columns`; the caller has to fix them). -/
theorem relation_insert_blank_column_attributes :
    ∃ q, insert_blank_column Cfg.std [exDomain] 1 = .ok [q] ∧ exDomain.Dims ∧ ¬ q.Dims :=
  ⟨{ exDomain with nb_columns := 5, m := [[1, 0, 1, 0, 0], [1, 0, -1, 1, 0]] }, by decide, by decide, by decide⟩

end Rel
end Osl
