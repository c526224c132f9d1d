import Verif.RelationLemmas
import Verif.IntProps
/-! Helper lemmas for source/relation.c, continued: swapping, combination of rows, equality,
extension of the output dimensions, precision change. -/

namespace Osl

theorem mem_rowAt {m : Matrix} {R C : Int} (h : Rect m R C) {i : Int} (hi : 0 ≤ i) (hi' : i < R) :
    rowAt m i ∈ m := by
  unfold rowAt
  rw [if_neg (by omega)]
  have h' : i.toNat < m.length := by have := h.1; omega
  rw [List.getElem?_eq_getElem h']
  exact List.getElem_mem h'

theorem rc_mem {l : List Int} {j : Int} (hj : 0 ≤ j) (hj' : j < l.length) : rc l j ∈ l := by
  unfold rc
  rw [if_neg (by omega)]
  have h' : j.toNat < l.length := by omega
  rw [List.getElem?_eq_getElem h']
  exact List.getElem_mem h'

theorem list_ext_rc {l l' : List Int} (hlen : l.length = l'.length)
    (h : ∀ j : Int, 0 ≤ j → j < l.length → rc l j = rc l' j) : l = l' := by
  apply List.ext_getElem hlen
  intro i h1 h2
  have := h i (by omega) (by omega)
  unfold rc at this
  rw [if_neg (by omega), if_neg (by omega)] at this
  simpa [List.getElem?_eq_getElem h1, List.getElem?_eq_getElem h2] using this

namespace Rel

theorem swap_constraints_ok {c : Cfg} {p : Part} {rest : Rel} (h : p.WF c) {c1 c2 : Int}
    (hne : c1 ≠ c2) (h1 : 0 ≤ c1) (h1' : c1 < p.nb_rows) (h2 : 0 ≤ c2) (h2' : c2 < p.nb_rows) :
    swap_constraints c (p :: rest) c1 c2 =
      .ok ({ p with m := (p.m.set c1.toNat (rowAt p.m c2)).set c2.toNat (rowAt p.m c1) } :: rest) := by
  obtain ⟨k, hk⟩ := Option.ne_none_iff_exists'.mp h.prec
  have hlen := h.rect.1
  unfold swap_constraints
  simp only
  rw [if_neg hne, if_neg (by omega)]
  obtain ⟨d, e, hinv, hinv'⟩ := loop_rule (body := fun i m => do
        let a ← get2 m c1 i
        let b ← get2 m c2 i
        let ab ← OInt.swap c p.precision a b
        let m ← set2 m c1 i ab.1
        set2 m c2 i ab.2) (lo := 0) (hi := p.nb_columns) (s := p.m)
    (fun j d => Rect d p.nb_rows p.nb_columns ∧ ∀ x y, cell d x y =
      if x = c1 ∧ 0 ≤ y ∧ y < j then cell p.m c2 y
      else if x = c2 ∧ 0 ≤ y ∧ y < j then cell p.m c1 y else cell p.m x y)
    ⟨h.rect, by intro x y; rw [if_neg (by omega), if_neg (by omega)]⟩
    (by
      rintro j d hj hj' ⟨hr, hc⟩
      obtain ⟨d1, e1, hr1, hc1⟩ := set2_ok hr h1 h1' hj hj' (cell d c2 j)
      obtain ⟨d2, e2, hr2, hc2⟩ := set2_ok hr1 h2 h2' hj hj' (cell d c1 j)
      refine ⟨d2, ?_, hr2, ?_⟩
      · rw [get2_ok hr h1 h1' hj hj', get2_ok hr h2 h2' hj hj']
        simp only [Out.ok_bind, OInt.swap, hk, e1, e2]
      · intro x y
        rw [hc2, hc1, hc, hc, hc]
        by_cases hy : y = j
        · subst hy
          by_cases hx2 : x = c2
          · subst hx2
            rw [if_pos (by omega), if_neg (by omega), if_neg (by omega), if_neg (by omega), if_pos (by omega)]
          · by_cases hx1 : x = c1
            · subst hx1
              rw [if_neg (by omega), if_pos (by omega), if_neg (by omega), if_neg (by omega), if_pos (by omega)]
            · rw [if_neg (by omega), if_neg (by omega), if_neg (by omega), if_neg (by omega), if_neg (by omega),
                if_neg (by omega)]
        · rw [if_neg (by omega), if_neg (by omega)]
          by_cases a1 : x = c1 ∧ 0 ≤ y ∧ y < j
          · rw [if_pos a1, if_pos (by omega)]
          · rw [if_neg a1]
            by_cases a2 : x = c2 ∧ 0 ≤ y ∧ y < j
            · rw [if_pos a2, if_neg (by omega), if_pos (by omega)]
            · rw [if_neg a2, if_neg (by omega), if_neg (by omega)])
  rw [e]
  obtain ⟨hr, hc⟩ := hinv h.cols
  have hl1 := rowAt_length h.rect h1 h1'
  have hl2 := rowAt_length h.rect h2 h2'
  have : d = (p.m.set c1.toNat (rowAt p.m c2)).set c2.toNat (rowAt p.m c1) := by
    apply rect_ext hr (rect_set (rect_set h.rect hl2) hl1)
    intro i j hi hi' hj hj'
    rw [hc, cell_eq_rc (List.set _ _ _), rowAt_set (by simp; omega), rowAt_set (by omega)]
    by_cases hi2 : i = c2
    · rw [if_neg (by omega), if_pos (by omega), if_pos (by omega), cell_eq_rc]
    · by_cases hi1 : i = c1
      · rw [if_pos (by omega), if_neg (by omega), if_pos (by omega), cell_eq_rc]
      · rw [if_neg (by omega), if_neg (by omega), if_neg (by omega), if_neg (by omega), cell_eq_rc]
  subst this
  rfl

/-- The row computed by `osl_relation_add_vector` / `osl_relation_sub_vector` (`f` is `+` or `-`). -/
def combined (f : Int → Int → Int) (r v : List Int) : List Int :=
  (if rc r 0 = 0 then rc v 0 else rc r 0) :: List.zipWith f r.tail v.tail

theorem rc_zipWith_tail {f : Int → Int → Int} {r v : List Int} {j : Int} (hj : 1 ≤ j)
    (h1 : j < r.length) (h2 : j < v.length) :
    rc (List.zipWith f r.tail v.tail) (j - 1) = f (rc r j) (rc v j) := by
  obtain ⟨k, hk⟩ : ∃ k : Nat, j.toNat = k + 1 := ⟨j.toNat - 1, by omega⟩
  unfold rc
  rw [if_neg (by omega), if_neg (by omega), if_neg (by omega)]
  have e : (j - 1).toNat = k := by omega
  rw [e, hk]
  cases r with
  | nil => simp at h1; omega
  | cons a r =>
    cases v with
    | nil => simp at h2; omega
    | cons b v =>
      simp only [List.length_cons] at h1 h2
      have e1 : k < r.length := by omega
      have e2 : k < v.length := by omega
      simp [List.getElem?_zipWith, List.getElem?_eq_getElem e1, List.getElem?_eq_getElem e2]

theorem combineRow_ok {c : Cfg} {op : Int → Int → Out Int} {f : Int → Int → Int} {p : Part} (h : p.WF c)
    {v : Vec} {row : Int} (hv : (v.v.length : Int) = p.nb_columns) (hpos : 0 < p.nb_columns) (h0 : 0 ≤ row)
    (hr : row < p.nb_rows) {t : Int} (ht : OInt.get_si c p.precision (rc (rowAt p.m row) 0) = .ok t)
    (htz : t = 0 ↔ rc (rowAt p.m row) 0 = 0)
    (hop : ∀ j, 1 ≤ j → j < p.nb_columns → op (rc (rowAt p.m row) j) (rc v.v j) =
      .ok (f (rc (rowAt p.m row) j) (rc v.v j))) :
    combineRow c op p v row = .ok (p.m.set row.toNat (combined f (rowAt p.m row) v.v)) := by
  obtain ⟨k, hk⟩ := Option.ne_none_iff_exists'.mp h.prec
  have hlen := h.rect.1
  have hrl := rowAt_length h.rect h0 hr
  have hrv : Rect [v.v] 1 p.nb_columns := ⟨rfl, by simpa using hv⟩
  unfold combineRow
  rw [get2_ok h.rect h0 hr (by omega) hpos]
  rw [cell_eq_rc]
  simp only [Out.ok_bind, ht]
  -- the tag
  obtain ⟨m1, e1, hr1, hc1⟩ : ∃ m1, (if t = 0 then do
      let v0 ← get2 [v.v] 0 0
      let v0 ← OInt.assign c p.precision v0
      set2 p.m row 0 v0
    else Out.ok p.m) = .ok m1 ∧ Rect m1 p.nb_rows p.nb_columns ∧ ∀ x y, cell m1 x y =
      if x = row ∧ y = 0 then (if rc (rowAt p.m row) 0 = 0 then rc v.v 0 else rc (rowAt p.m row) 0)
      else cell p.m x y := by
    by_cases htt : t = 0
    · obtain ⟨d1, e1, hr1, hc1⟩ := set2_ok h.rect h0 hr (j := 0) (by omega) hpos (cell [v.v] 0 0)
      refine ⟨d1, ?_, hr1, ?_⟩
      · rw [if_pos htt, get2_ok hrv (by omega) (by omega) (by omega) hpos]
        simp only [Out.ok_bind, OInt.assign, hk, e1]
      · intro x y
        rw [hc1, cell_eq_rc, rowAt_singleton, if_pos (htz.mp htt)]
    · refine ⟨p.m, by rw [if_neg htt], h.rect, ?_⟩
      intro x y
      by_cases hx : x = row ∧ y = 0
      · rw [if_pos hx, if_neg (fun h => htt (htz.mpr h)), hx.1, hx.2, cell_eq_rc]
      · rw [if_neg hx]
  rw [e1]
  simp only [Out.ok_bind]
  obtain ⟨d, e, hinv, _⟩ := loop_rule (body := fun i m => do
      let a ← get2 m row i
      let b ← get2 [v.v] 0 i
      let s ← op a b
      set2 m row i s) (lo := 1) (hi := (v.size : Int)) (s := m1)
    (fun j d => Rect d p.nb_rows p.nb_columns ∧ ∀ x y, cell d x y =
      if x = row ∧ 1 ≤ y ∧ y < j then f (rc (rowAt p.m row) y) (rc v.v y) else cell m1 x y)
    ⟨hr1, by intro x y; rw [if_neg (by omega)]⟩
    (by
      rintro j d hj hj' ⟨hrd, hcd⟩
      simp only [Vec.size] at hj'
      obtain ⟨d1, e1, hr1', hc1'⟩ := set2_ok hrd h0 hr (j := j) (by omega) (by omega)
        (f (rc (rowAt p.m row) j) (rc v.v j))
      refine ⟨d1, ?_, hr1', ?_⟩
      · rw [get2_ok hrd h0 hr (by omega) (by omega), get2_ok hrv (by omega) (by omega) (by omega) (by omega)]
        simp only [Out.ok_bind]
        rw [hcd, if_neg (by omega), hc1, if_neg (by omega), cell_eq_rc, cell_eq_rc, rowAt_singleton,
          hop j hj (by omega)]
        exact e1
      · intro x y
        rw [hc1', hcd]
        by_cases hx : x = row ∧ y = j
        · rw [if_pos hx, if_pos (by omega), hx.2]
        · rw [if_neg hx]
          by_cases hx2 : x = row ∧ 1 ≤ y ∧ y < j
          · rw [if_pos hx2, if_pos (by omega)]
          · rw [if_neg hx2, if_neg (by omega)])
  rw [e]
  obtain ⟨hrd, hcd⟩ := hinv (by simp only [Vec.size]; omega)
  simp only [Vec.size] at hcd
  have hcl : ((combined f (rowAt p.m row) v.v).length : Int) = p.nb_columns := by
    simp only [combined, List.length_cons, List.length_zipWith, List.length_tail]; omega
  have : d = p.m.set row.toNat (combined f (rowAt p.m row) v.v) := by
    apply rect_ext hrd (rect_set h.rect hcl)
    intro i j hi hi' hj hj'
    rw [hcd, hc1, cell_eq_rc (List.set _ _ _), rowAt_set (by omega)]
    by_cases hi2 : i = row
    · rw [if_pos (show i = (row.toNat : Int) by omega)]
      unfold combined
      rw [rc_cons hj]
      by_cases hj0 : j = 0
      · rw [if_neg (by omega), if_pos (by omega), if_pos hj0]
      · rw [if_pos (by omega), if_neg hj0, rc_zipWith_tail (by omega) (by omega) (by omega)]
    · rw [if_neg (by omega), if_neg (by omega), if_neg (by omega), cell_eq_rc]
  rw [this]

/-! ### Equality -/

theorem rowNe_ok {c : Cfg} {p : Int} (hk : kind c p ≠ none) {m1 m2 : Matrix} {R C : Int} (h1 : Rect m1 R C)
    (h2 : Rect m2 R C) {i : Int} (hi : 0 ≤ i) (hi' : i < R) (n : Nat) (j : Int) (hj : 0 ≤ j) (hn : j + n ≤ C) :
    ∃ b, rowNe c p m1 m2 i n j = .ok b ∧
      (b = false ↔ ∀ y, j ≤ y → y < j + n → cell m1 i y = cell m2 i y) := by
  obtain ⟨k, hk'⟩ := Option.ne_none_iff_exists'.mp hk
  induction n generalizing j with
  | zero => exact ⟨false, rfl, by simp; omega⟩
  | succ n ih =>
    unfold rowNe
    rw [get2_ok h1 hi hi' hj (by omega), get2_ok h2 hi hi' hj (by omega)]
    simp only [OInt.ne, OInt.eq, hk', Out.ok_bind, Out.pure_eq]
    by_cases he : cell m1 i j = cell m2 i j
    · obtain ⟨b, e, hb⟩ := ih (j + 1) (by omega) (by omega)
      simp only [he, decide_true, Bool.not_true]
      refine ⟨b, e, hb.trans ?_⟩
      constructor
      · intro h y hy hy'
        by_cases hyj : y = j
        · rw [hyj]; exact he
        · exact h y (by omega) (by omega)
      · intro h y hy hy'
        exact h y (by omega) (by omega)
    · simp only [he, decide_false, Bool.not_false]
      refine ⟨true, rfl, ?_⟩
      constructor
      · intro h; cases h
      · intro h; exact absurd (h j (by omega) (by omega)) he

theorem rowsNe_ok {c : Cfg} {p : Int} (hk : kind c p ≠ none) {m1 m2 : Matrix} {R C : Int} (hC : 0 ≤ C)
    (h1 : Rect m1 R C) (h2 : Rect m2 R C) (n : Nat) (i : Int) (hi : 0 ≤ i) (hn : i + n ≤ R) :
    ∃ b, rowsNe c p m1 m2 C.toNat n i = .ok b ∧
      (b = false ↔ ∀ x y, i ≤ x → x < i + n → 0 ≤ y → y < C → cell m1 x y = cell m2 x y) := by
  induction n generalizing i with
  | zero => exact ⟨false, rfl, by simp; intros; omega⟩
  | succ n ih =>
    unfold rowsNe
    obtain ⟨b, e, hb⟩ := rowNe_ok hk h1 h2 hi (by omega) C.toNat 0 (by omega) (by omega)
    rw [e]
    cases b with
    | false =>
      obtain ⟨b, e, hb'⟩ := ih (i + 1) (by omega) (by omega)
      refine ⟨b, e, hb'.trans ?_⟩
      constructor
      · intro h x y hx hx' hy hy'
        by_cases hxi : x = i
        · subst hxi; exact hb.mp rfl y (by omega) (by omega)
        · exact h x y (by omega) (by omega) hy hy'
      · intro h x y hx hx' hy hy'
        exact h x y (by omega) (by omega) hy hy'
    | true =>
      refine ⟨true, rfl, ?_⟩
      constructor
      · intro h; cases h
      · intro h
        have := hb.mpr (fun y hy hy' => h i y (by omega) (by omega) hy (by omega))
        cases this

theorem part_equal_ok {c : Cfg} {p q : Part} (hp : p.WF c) (hq : q.WF c) :
    part_equal c p q = .ok (decide (p = q)) := by
  unfold part_equal
  split
  · rename_i h
    congr 1
    symm
    apply decide_eq_false
    rintro rfl
    simp at h
  · rename_i h
    obtain ⟨t1, p1, nr1, nc1, o1, i1, l1, pa1, m1⟩ := p
    obtain ⟨t2, p2, nr2, nc2, o2, i2, l2, pa2, m2⟩ := q
    simp only [ne_eq, not_or, Decidable.not_not] at h
    obtain ⟨rfl, rfl, rfl, rfl, rfl, rfl, rfl, rfl⟩ := h
    have hrows := hp.rows
    obtain ⟨b, e, hb⟩ := rowsNe_ok hp.prec hp.cols hp.rect hq.rect nr1.toNat 0 (by omega)
      (by simp only at hrows ⊢; omega)
    simp only at e
    simp only [e, Out.ok_bind, Out.pure_eq]
    congr 1
    rw [Bool.eq_iff_iff]
    simp only [Bool.not_eq_true', hb, decide_eq_true_eq]
    constructor
    · intro h
      have : m1 = m2 := rect_ext hp.rect hq.rect
        (fun i j hi hi' hj hj' => h i j hi (by simp only at hi'; omega) hj hj')
      rw [this]
    · intro h x y _ _ _ _
      injection h with _ _ _ _ _ _ _ _ h
      rw [h]

theorem equal_ok {c : Cfg} {r s : Rel} (hr : r.WF c) (hs : s.WF c) :
    equal c r s = .ok (decide (r = s)) := by
  induction r generalizing s with
  | nil => cases s <;> simp [equal]
  | cons p r ih =>
    cases s with
    | nil => simp [equal]
    | cons q s =>
      unfold equal
      rw [part_equal_ok (hr p (by simp)) (hs q (by simp))]
      by_cases h : p = q
      · simp only [h, decide_true]
        rw [ih (fun x hx => hr x (by simp [hx])) (fun x hx => hs x (by simp [hx]))]
        simp
      · simp [h]

end Rel
end Osl
