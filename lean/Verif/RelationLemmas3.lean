import Verif.RelationLemmas2
/-! Helper lemmas for source/relation.c, continued: extension of the output dimensions,
precision change. -/

namespace Osl
namespace Rel

/-- The row of width `w` with `-1` at column `k` and `0` elsewhere. -/
def unitRow (w k : Nat) : List Int := (List.range w).map (fun j => if j = k then (-1 : Int) else 0)

theorem rc_unitRow {w k : Nat} {j : Int} (hj : 0 ≤ j) (hj' : j < w) :
    rc (unitRow w k) j = if j = k then -1 else 0 := by
  unfold rc unitRow
  rw [if_neg (by omega)]
  have : j.toNat < w := by omega
  simp [List.getElem?_range this]
  split <;> split <;> first | rfl | omega

/-- The new matrix of one part. -/
def extMatrix (o off w : Nat) (m : Matrix) : Matrix :=
  m.map (fun r => r.take (o + 1) ++ List.replicate off 0 ++ r.drop (o + 1)) ++
    (List.range off).map (fun k => unitRow w (o + 1 + k))

theorem extendPart_ok {c : Cfg} {p : Part} (h : p.WF c) {dim : Int} (ho : 0 ≤ p.nb_output_dims)
    (hoc : p.nb_output_dims + 1 ≤ p.nb_columns) (hd : p.nb_output_dims ≤ dim) :
    extendPart c p.precision p dim = .ok { p with
      nb_rows := p.nb_rows + (dim - p.nb_output_dims)
      nb_columns := p.nb_columns + (dim - p.nb_output_dims)
      nb_output_dims := dim
      m := extMatrix p.nb_output_dims.toNat (dim - p.nb_output_dims).toNat
        (p.nb_columns + (dim - p.nb_output_dims)).toNat p.m } := by
  obtain ⟨k, hk⟩ := Option.ne_none_iff_exists'.mp h.prec
  have hlen := h.rect.1
  have hrows := h.rows
  unfold extendPart
  rw [if_neg (by omega)]
  simp only
  rw [pmalloc_ok h.prec (by omega) (by omega)]
  simp only [Out.ok_bind, ne_eq, not_true_eq_false, if_false]
  obtain ⟨off, hoff⟩ : ∃ off, off = dim - p.nb_output_dims := ⟨_, rfl⟩
  have hoff0 : 0 ≤ off := by omega
  rw [← hoff]
  obtain ⟨d, e, hrd, hcd⟩ := copyBlock_ok (c := c) (p := p.precision) h.prec h.rect
    (rect_zero (R := p.nb_rows + off) (C := p.nb_columns + off) (by omega) (by omega))
    (ilo := 0) (ihi := p.nb_rows) (dro := 0) (sro := 0) (jlo := 0) (jhi := p.nb_output_dims + 1)
    (dco := 0) (sco := 0) (by omega) (by intros; omega)
  rw [e]
  simp only [Out.ok_bind]
  obtain ⟨d2, e2, hrd2, hcd2⟩ := copyBlock_ok (c := c) (p := p.precision) h.prec h.rect hrd
    (ilo := 0) (ihi := p.nb_rows) (dro := 0) (sro := 0) (jlo := p.nb_output_dims + off + 1)
    (jhi := p.nb_columns + off)
    (dco := 0) (sco := -off) (by omega) (by intros; omega)
  rw [e2]
  simp only [Out.ok_bind]
  have hrow : ∀ i d, p.nb_rows ≤ i → i < p.nb_rows + off → Rect d (p.nb_rows + off) (p.nb_columns + off) →
      ∃ d', loop 0 (p.nb_columns + off) (fun j m =>
        if i - p.nb_rows = j - p.nb_output_dims - 1 then do
          let v ← OInt.set_si c p.precision (-1)
          set2 m i j v
        else .ok m) d = .ok d' ∧ Rect d' (p.nb_rows + off) (p.nb_columns + off) ∧
        ∀ x y, cell d' x y = if x = i ∧ x - p.nb_rows = y - p.nb_output_dims - 1 then -1 else cell d x y := by
    intro i d hi hi' hr
    obtain ⟨d', e, hinv, _⟩ := loop_rule (body := fun j m =>
        if i - p.nb_rows = j - p.nb_output_dims - 1 then do
          let v ← OInt.set_si c p.precision (-1)
          set2 m i j v
        else Out.ok m) (lo := 0) (hi := p.nb_columns + off) (s := d)
      (fun j d' => Rect d' (p.nb_rows + off) (p.nb_columns + off) ∧ ∀ x y, cell d' x y =
        if x = i ∧ y < j ∧ x - p.nb_rows = y - p.nb_output_dims - 1 then -1 else cell d x y)
      ⟨hr, by intro x y; rw [if_neg (by omega)]⟩
      (by
        rintro j d1 hj hj' ⟨hr1, hc1⟩
        by_cases hij : i - p.nb_rows = j - p.nb_output_dims - 1
        · obtain ⟨d2, e2, hr2, hc2⟩ := set2_ok hr1 (i := i) (j := j) (by omega) hi' hj hj' (-1)
          refine ⟨d2, ?_, hr2, ?_⟩
          · rw [if_pos hij]
            simp only [OInt.set_si, hk, Out.ok_bind, e2]
          · intro x y
            rw [hc2, hc1]
            by_cases hx : x = i ∧ y = j
            · rw [if_pos hx, if_pos (by omega)]
            · rw [if_neg hx]
              by_cases hx2 : x = i ∧ y < j ∧ x - p.nb_rows = y - p.nb_output_dims - 1
              · rw [if_pos hx2, if_pos (by omega)]
              · rw [if_neg hx2, if_neg (by omega)]
        · refine ⟨d1, by rw [if_neg hij], hr1, ?_⟩
          intro x y
          rw [hc1]
          by_cases hx2 : x = i ∧ y < j ∧ x - p.nb_rows = y - p.nb_output_dims - 1
          · rw [if_pos hx2, if_pos (by omega)]
          · rw [if_neg hx2, if_neg (by omega)])
    obtain ⟨hr', hc'⟩ := hinv (by omega)
    refine ⟨d', e, hr', ?_⟩
    intro x y
    rw [hc']
    by_cases hx : x = i ∧ x - p.nb_rows = y - p.nb_output_dims - 1
    · rw [if_pos hx, if_pos (by omega)]
    · rw [if_neg hx, if_neg (by omega)]
  obtain ⟨d3, e3, hinv, _⟩ := loop_rule (body := fun i m =>
      loop 0 (p.nb_columns + off) (fun j m =>
        if i - p.nb_rows = j - p.nb_output_dims - 1 then do
          let v ← OInt.set_si c p.precision (-1)
          set2 m i j v
        else .ok m) m) (lo := p.nb_rows) (hi := p.nb_rows + off) (s := d2)
    (fun i d' => Rect d' (p.nb_rows + off) (p.nb_columns + off) ∧ ∀ x y, cell d' x y =
        if p.nb_rows ≤ x ∧ x < i ∧ x - p.nb_rows = y - p.nb_output_dims - 1 then -1 else cell d2 x y)
    ⟨hrd2, by intro x y; rw [if_neg (by omega)]⟩
    (by
      rintro i d1 hi hi' ⟨hr1, hc1⟩
      obtain ⟨d4, e4, hr4, hc4⟩ := hrow i d1 hi hi' hr1
      refine ⟨d4, e4, hr4, ?_⟩
      intro x y
      rw [hc4, hc1]
      by_cases hx : x = i ∧ x - p.nb_rows = y - p.nb_output_dims - 1
      · rw [if_pos hx, if_pos (by omega)]
      · rw [if_neg hx]
        by_cases hx2 : p.nb_rows ≤ x ∧ x < i ∧ x - p.nb_rows = y - p.nb_output_dims - 1
        · rw [if_pos hx2, if_pos (by omega)]
        · rw [if_neg hx2, if_neg (by omega)])
  rw [e3]
  obtain ⟨hr3, hc3⟩ := hinv (by omega)
  have : d3 = extMatrix p.nb_output_dims.toNat off.toNat (p.nb_columns + off).toNat p.m := by
    have ht : Rect (extMatrix p.nb_output_dims.toNat off.toNat (p.nb_columns + off).toNat p.m)
        (p.nb_rows + off) (p.nb_columns + off) := by
      have a := rect_map (C' := p.nb_columns + off)
        (f := fun r => r.take (p.nb_output_dims.toNat + 1) ++ List.replicate off.toNat 0 ++
          r.drop (p.nb_output_dims.toNat + 1)) h.rect (by intro r hr; simp; omega)
      have b : Rect ((List.range off.toNat).map
          (fun k => unitRow (p.nb_columns + off).toNat (p.nb_output_dims.toNat + 1 + k))) off (p.nb_columns + off) := by
        refine ⟨by simp; omega, ?_⟩
        intro r hr
        simp only [List.mem_map] at hr
        obtain ⟨k, _, rfl⟩ := hr
        simp [unitRow]; omega
      exact rect_append a b
    apply rect_ext hr3 ht
    intro i j hi hi' hj hj'
    unfold extMatrix
    rw [hc3, hcd2, hcd, cell_eq_rc (_ ++ _), rowAt_append hi]
    rw [List.length_map]
    by_cases hir : i < p.m.length
    · rw [if_pos hir, if_neg (by omega), rowAt_map hi hir]
      have hrl := rowAt_length h.rect hi (by omega)
      rw [rc_append hj, rc_append hj]
      have hl1 : (((rowAt p.m i).take (p.nb_output_dims.toNat + 1)).length : Int) = p.nb_output_dims + 1 := by
        simp; omega
      have hl2 : (((rowAt p.m i).take (p.nb_output_dims.toNat + 1) ++ List.replicate off.toNat 0).length : Int)
          = p.nb_output_dims + 1 + off := by simp; omega
      rw [hl1, hl2]
      by_cases c1 : j < p.nb_output_dims + 1
      · rw [if_neg (by omega), if_pos (by omega), if_pos (by omega), if_pos c1, rc_take (by omega), cell_eq_rc]
        simp only [Int.sub_zero, Int.add_zero]
      · by_cases c2 : j < p.nb_output_dims + 1 + off
        · rw [if_neg (by omega), if_neg (by omega), if_pos c2, if_neg c1, rc_replicate, cell_zero]
        · rw [if_pos (by omega), if_neg c2, rc_drop (by omega), cell_eq_rc]
          simp only [Int.sub_zero, Int.add_zero]
          congr 1
          omega
    · rw [if_neg hir]
      have : rowAt (List.map (fun k => unitRow (p.nb_columns + off).toNat (p.nb_output_dims.toNat + 1 + k))
          (List.range off.toNat)) (i - p.m.length) =
          unitRow (p.nb_columns + off).toNat (p.nb_output_dims.toNat + 1 + (i - p.m.length).toNat) := by
        unfold rowAt
        rw [if_neg (by omega)]
        have : (i - p.m.length).toNat < off.toNat := by omega
        rw [List.getElem?_map, List.getElem?_range this]; rfl
      rw [this, rc_unitRow hj (by omega)]
      by_cases hu : i - p.nb_rows = j - p.nb_output_dims - 1
      · rw [if_pos (by omega), if_pos (by omega)]
      · rw [if_neg (by omega), if_neg (by omega), if_neg (by omega), cell_zero, if_neg (by omega)]
  rw [← this]
  have hmax : omax p.nb_output_dims dim = dim := by unfold omax; split <;> omega
  simp only [Out.ok_bind, Out.pure_eq, hmax]

theorem extendPart_err {c : Cfg} {prec : Int} {p : Part} {dim : Int} (h : dim < p.nb_output_dims) :
    extendPart c prec p dim = .err := by
  unfold extendPart; rw [if_pos (by omega)]

end Rel
end Osl
