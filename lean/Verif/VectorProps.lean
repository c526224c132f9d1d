import Verif.Vector
import Verif.IntProps
/-!
# Property C11: vector arithmetic (source/vector.c)
-/

namespace Osl
namespace Vec
open OInt

/-- All entries of the vector can be stored in its precision (and the precision is supported). -/
def Valid (c : Cfg) (x : Vec) : Prop := kind c x.precision ≠ none ∧ ∀ a ∈ x.v, InPrec c x.precision a

/-- C11: incompatible operands of addition and subtraction are reported. -/
theorem vector_add_sub_incompatible (c : Cfg) (v1 v2 : Option Vec)
    (h : v1 = none ∨ v2 = none ∨ ∃ x y, v1 = some x ∧ v2 = some y ∧
      (x.v.length ≠ y.v.length ∨ x.precision ≠ y.precision)) :
    add c v1 v2 = .err ∧ sub c v1 v2 = .err := by
  rcases h with rfl | rfl | ⟨x, y, rfl, rfl, h⟩
  · cases v2 <;> exact ⟨rfl, rfl⟩
  · cases v1 <;> exact ⟨rfl, rfl⟩
  · constructor
    · simp only [add, size]; rw [if_pos h]
    · simp only [sub, size]; rw [if_pos h]

example : add Cfg.std (some ⟨64, [0, 1]⟩) (some ⟨64, [0, 1, 2]⟩) = .err := by decide

/-- C11: the sum of compatible vectors is componentwise whenever every component sum can be
stored. -/
theorem vector_add_correct {c : Cfg} (hv : c.Valid) (hd : c.ndebug = false) {x y : Vec}
    (hx : x.Valid c) (hy : y.Valid c) (hlen : x.v.length = y.v.length)
    (hp : x.precision = y.precision)
    (hsum : ∀ p ∈ x.v.zip y.v, InPrec c x.precision (p.1 + p.2)) :
    add c (some x) (some y) = .ok ⟨x.precision, List.zipWith (· + ·) x.v y.v⟩ := by
  have hadd : ∀ p ∈ x.v.zip y.v, OInt.add c x.precision p.1 p.2 = .ok (p.1 + p.2) := by
    intro p hpm
    have hm := List.of_mem_zip (a := p.1) (b := p.2) (by simpa using hpm)
    have hs := hsum p hpm
    have ha := hx.2 _ hm.1
    have hb := hp ▸ hy.2 _ hm.2
    rcases int_add_exact_or_error_partial hv hd ha hb (by
      rintro ⟨hneg, w, hk, he⟩
      simp only [InPrec, hk] at hs
      rw [he] at hs
      simp only [fits] at hs; omega) with h | h
    · exact h.2
    · exact absurd hs h.1
  unfold add
  simp only [size]
  rw [if_neg (by omega), pmalloc_ok hx.1, zipOut_ok (g := (· + ·)) hlen hadd]
  rfl

example : Valid Cfg.std ⟨64, [1, 2, -3]⟩ ∧
    add Cfg.std (some ⟨64, [1, 2, -3]⟩) (some ⟨64, [0, 5, 7]⟩) = .ok ⟨64, [1, 7, 4]⟩ := by
  refine ⟨⟨by decide, by decide⟩, by decide⟩

/-- C11: the difference of compatible vectors is componentwise whenever every component
difference can be stored (and no subtrahend is the most negative value, see C02). -/
theorem vector_sub_correct {c : Cfg} (hv : c.Valid) (hd : c.ndebug = false) {x y : Vec}
    (hx : x.Valid c) (hy : y.Valid c) (hlen : x.v.length = y.v.length)
    (hp : x.precision = y.precision) (hmin : ∀ b ∈ y.v, ¬ IsMin c y.precision b)
    (hsum : ∀ p ∈ x.v.zip y.v, InPrec c x.precision (p.1 - p.2)) :
    sub c (some x) (some y) = .ok ⟨x.precision, List.zipWith (· - ·) x.v y.v⟩ := by
  have hsub : ∀ p ∈ x.v.zip y.v, OInt.sub c x.precision p.1 p.2 = .ok (p.1 - p.2) := by
    intro p hpm
    have hm := List.of_mem_zip (a := p.1) (b := p.2) (by simpa using hpm)
    have hs := hsum p hpm
    have ha := hx.2 _ hm.1
    have hb := hp ▸ hy.2 _ hm.2
    rcases int_sub_exact_or_error_partial hv hd ha hb (hp ▸ hmin _ hm.2) with h | h
    · exact h.2
    · exact absurd hs h.1
  unfold sub
  simp only [size]
  rw [if_neg (by omega), pmalloc_ok hx.1, zipOut_ok (g := (· - ·)) hlen hsub]
  rfl

/-- C11: with ISO C arithmetic a computed sum is never wrong in any component. -/
theorem vector_add_never_wrong {c : Cfg} (hc : c.wrapv = false) {x y r : Vec}
    (h : add c (some x) (some y) = .ok r) :
    r.precision = x.precision ∧ r.v = List.zipWith (· + ·) x.v y.v := by
  unfold add at h
  simp only at h
  split at h
  · cases h
  · obtain ⟨_, _, h⟩ := Out.bind_eq_ok.mp h
    obtain ⟨l, hl, h⟩ := Out.bind_eq_ok.mp h
    have := zipOut_inv (g := (· + ·)) (fun a b x h => (int_add_never_wrong hc h).1) hl
    simp at h
    subst h
    exact ⟨rfl, this⟩

/-- C11: adding a scalar changes the last entry (the constant of a constraint) only, and vectors
without constant entry are refused. -/
theorem vector_add_scalar_correct {c : Cfg} (hv : c.Valid) (hd : c.ndebug = false) {p : Int}
    {pre : List Int} {last s : Int} (hx : Valid c ⟨p, pre ++ [last]⟩) (hpre : pre ≠ [])
    (hs : fits 32 s) (hmin : ¬ (last < 0 ∧ s = cMin 32)) (hsum : InPrec c p (last + s)) :
    add_scalar c (some ⟨p, pre ++ [last]⟩) s = .ok ⟨p, pre ++ [last + s]⟩ := by
  have hlast : InPrec c p last := hx.2 _ (by simp)
  have ha : add_si c p last s = .ok (last + s) := by
    rcases int_add_si_exact_or_error_partial hv hd hlast hs hmin with h | h
    · exact h.2
    · exact absurd hsum h.1
  have hlen : 0 < pre.length := List.length_pos_iff.mpr hpre
  unfold add_scalar
  simp only [size]
  rw [if_neg (by simp; omega), pmalloc_ok hx.1, mapOut_assign hx.1]
  simp [ha]

theorem vector_add_scalar_short (c : Cfg) (s : Int) :
    add_scalar c none s = .err ∧ ∀ x : Vec, x.v.length < 2 → add_scalar c (some x) s = .err := by
  refine ⟨rfl, fun x hx => ?_⟩
  unfold add_scalar; simp only [size]; rw [if_pos hx]

example : Valid Cfg.std ⟨64, [1, 2] ++ [9]⟩ ∧ add_scalar Cfg.std (some ⟨64, [1, 2, 9]⟩) (-4) = .ok ⟨64, [1, 2, 5]⟩ := by
  refine ⟨⟨by decide, by decide⟩, by decide⟩

/-- C11: multiplication by a scalar is componentwise when all the products can be stored. -/
theorem vector_mul_scalar_correct {c : Cfg} (hv : c.Valid) {x : Vec} {s : Int} (hx : x.Valid c)
    (hs : InPrec c x.precision s) (hprod : ∀ a ∈ x.v, InPrec c x.precision (a * s)) :
    mul_scalar c (some x) s = .ok ⟨x.precision, x.v.map (· * s)⟩ := by
  have h : Out.mapOut (fun a => mul_si c x.precision a s) x.v = .ok (x.v.map (· * s)) :=
    Out.mapOut_ok (fun a ha => by
      rw [int_mul_si_eq_mul]; exact int_mul_exact hv (hx.2 a ha) hs (hprod a ha))
  unfold mul_scalar
  simp only [size]
  rw [pmalloc_ok hx.1]
  simp [h]

/-- C11: tagging changes the first entry only, to 1 for an inequality and 0 for an equality. -/
theorem vector_tag_correct {c : Cfg} {p a : Int} {t : List Int} (hk : kind c p ≠ none) :
    tag_inequality c (some ⟨p, a :: t⟩) = .ok ⟨p, 1 :: t⟩ ∧
    tag_equality c (some ⟨p, a :: t⟩) = .ok ⟨p, 0 :: t⟩ := by
  obtain ⟨k, hk⟩ := Option.ne_none_iff_exists'.mp hk
  simp [tag_inequality, tag_equality, set_si, hk]

theorem vector_tag_empty (c : Cfg) (p : Int) :
    tag_inequality c (some ⟨p, []⟩) = .err ∧ tag_equality c (some ⟨p, []⟩) = .err ∧
    tag_inequality c none = .err ∧ tag_equality c none = .err := ⟨rfl, rfl, rfl, rfl⟩

theorem equalLoop_eq {c : Cfg} {p : Int} (hk : kind c p ≠ none) {l l' : List Int}
    (hlen : l.length = l'.length) : equalLoop c p l l' = .ok (decide (l = l')) := by
  obtain ⟨k, hk⟩ := Option.ne_none_iff_exists'.mp hk
  induction l generalizing l' with
  | nil => cases l' <;> simp_all [equalLoop]
  | cons a as ih => cases l' with
    | nil => simp at hlen
    | cons b bs =>
      have := ih (l' := bs) (by simpa using hlen)
      by_cases hab : a = b
      · simp [equalLoop, ne, eq, hk, hab, this]
      · simp [equalLoop, ne, eq, hk, hab]

/-- C11: vector equality decides equality of precision, size and entries (a single NULL argument is
undefined, two NULL arguments are equal). -/
theorem vector_equal_iff {c : Cfg} {x y : Vec} (hk : kind c x.precision ≠ none) :
    equal c (some x) (some y) = .ok (decide (x = y)) := by
  unfold equal
  simp only [size]
  by_cases h : x.v.length ≠ y.v.length ∨ x.precision ≠ y.precision
  · rw [if_pos h]
    congr 1
    symm
    simp only [decide_eq_false_iff_not]
    rintro rfl
    simp at h
  · rw [if_neg h]
    have h1 : x.v.length = y.v.length := by
      rcases Nat.decEq x.v.length y.v.length with h' | h'
      · exact absurd (Or.inl h') h
      · exact h'
    have h2 : x.precision = y.precision := by
      rcases Int.instDecidableEq x.precision y.precision with h' | h'
      · exact absurd (Or.inr h') h
      · exact h'
    rw [equalLoop_eq hk h1]
    congr 1
    obtain ⟨p, v⟩ := x
    obtain ⟨p', v'⟩ := y
    simp at h2
    simp [h2]

theorem vector_equal_null (c : Cfg) (x : Vec) :
    equal c none none = .ok true ∧ equal c none (some x) = .ub ∧ equal c (some x) none = .ub :=
  ⟨rfl, rfl, rfl⟩

theorem isScalarLoop_eq {c : Cfg} {p : Int} (hk : kind c p ≠ none) (l : List Int) :
    isScalarLoop c p l = .ok (decide (∀ a ∈ l, a = 0)) := by
  obtain ⟨k, hk⟩ := Option.ne_none_iff_exists'.mp hk
  induction l with
  | nil => simp [isScalarLoop]
  | cons a as ih =>
    by_cases ha : a = 0
    · simp [isScalarLoop, zero, hk, ha, ih]
    · simp [isScalarLoop, zero, hk, ha]

/-- C11: a vector is scalar exactly when all its entries but the last are zero. -/
theorem vector_is_scalar_iff {c : Cfg} {x : Vec} (hk : kind c x.precision ≠ none) :
    is_scalar c (some x) = .ok (decide (∀ a ∈ x.v.dropLast, a = 0)) :=
  isScalarLoop_eq hk _

example : is_scalar Cfg.std (some ⟨64, [0, 0, 5]⟩) = .ok true ∧
    is_scalar Cfg.std (some ⟨64, [0, 1, 5]⟩) = .ok false := by decide

end Vec
end Osl
