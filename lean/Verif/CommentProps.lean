import Verif.CommentSpec
import Verif.RelationPrintProps
/-!
# C68: the comment of a row says the constraint
-/

namespace Osl
namespace Comment

/-- A character which begins a term. -/
def isSign (ch : Char) : Prop := ch = '+' ∨ ch = '-'

/-- The text can be put after another one: it is empty or begins with a sign. -/
def Signed (t : Str) : Prop := ∀ ch, t.head? = some ch → isSign ch

theorem sum_append (ρ : Str → Int) (u : Str) (hu : u ≠ []) (hs : Signed u) : ∀ (t : Str) (s : Int) (seen : Str),
    sum ρ s seen (t ++ u) = sum ρ s seen t + sum ρ 1 [] u := by
  intro t
  induction t with
  | nil =>
    intro s seen
    cases u with
    | nil => exact absurd rfl hu
    | cons ch w =>
      rcases hs ch rfl with rfl | rfl <;> simp [sum, term]
  | cons ch t ih =>
    intro s seen
    simp only [List.cons_append, sum, ih]
    split
    · omega
    · split <;> omega

theorem eval_append (ρ : Str → Int) {t u : Str} (hs : Signed u) : eval ρ (t ++ u) = eval ρ t + eval ρ u := by
  cases u with
  | nil => simp [eval, sum, term]
  | cons ch w => exact sum_append ρ _ (by simp) hs t 1 []

/-- A text without signs is a term. -/
theorem sum_term (ρ : Str → Int) : ∀ (t : Str) (s : Int) (seen : Str), '+' ∉ t → '-' ∉ t → sum ρ s seen t = s * term ρ (seen ++ t) := by
  intro t
  induction t with
  | nil => intro s seen _ _; simp [sum]
  | cons ch t ih =>
    intro s seen h1 h2
    simp only [List.mem_cons, not_or] at h1 h2
    simp only [sum]
    rw [if_neg (Ne.symm h1.1), if_neg (Ne.symm h2.1), ih _ _ h1.2 h2.2]
    simp

theorem eval_minus (ρ : Str → Int) {t : Str} (h1 : '+' ∉ t) (h2 : '-' ∉ t) : eval ρ ('-' :: t) = - term ρ t := by
  simp only [eval, sum]
  rw [if_neg (by decide), if_pos trivial, sum_term ρ t _ _ h1 h2]
  simp [term]

theorem eval_plus (ρ : Str → Int) {t : Str} (h1 : '+' ∉ t) (h2 : '-' ∉ t) : eval ρ ('+' :: t) = term ρ t := by
  simp only [eval, sum]
  rw [if_pos trivial, sum_term ρ t _ _ h1 h2]
  simp [term]

theorem eval_term (ρ : Str → Int) {t : Str} (h1 : '+' ∉ t) (h2 : '-' ∉ t) : eval ρ t = term ρ t := by
  simp only [eval]
  rw [sum_term ρ t _ _ h1 h2]
  simp

theorem term_name (ρ : Str → Int) {w : Str} (h : IsName w) : term ρ w = ρ w := by
  cases w with
  | nil => exact absurd rfl h.1
  | cons ch w => simp only [term, h.2.1 ch rfl, Bool.false_eq_true, if_false]

theorem showNat_noSign (n : Nat) : '+' ∉ showNat n ∧ '-' ∉ showNat n :=
  ⟨fun h => absurd (showNat_digits n _ h) (by decide), fun h => absurd (showNat_digits n _ h) (by decide)⟩

theorem takeWhile_showNat (n : Nat) (rest : Str) (h : ∀ ch, rest.head? = some ch → isDigit ch = false) :
    (showNat n ++ rest).takeWhile isDigit = showNat n ∧ (showNat n ++ rest).dropWhile isDigit = rest := by
  have := showNat_digits n
  generalize showNat n = l at this
  induction l with
  | nil =>
    cases rest with
    | nil => simp
    | cons ch rest => simp [h ch rfl]
  | cons a l ih =>
    have ha := this a (by simp)
    obtain ⟨i1, i2⟩ := ih fun x hx => this x (by simp [hx])
    simp [ha, i1, i2]

theorem term_times (ρ : Str → Int) (n : Nat) (w : Str) : term ρ (showNat n ++ '*' :: w) = n * ρ w := by
  obtain ⟨d, ds, e, hd⟩ := showNat_head n
  obtain ⟨h1, h2⟩ := takeWhile_showNat n ('*' :: w) (by intro ch h; cases h; decide)
  have hv := digitsVal_showNat n
  rw [e] at h1 h2 hv ⊢
  rw [List.cons_append] at h1 h2 ⊢
  simp only [term, hd, if_true, h1, h2, hv]

theorem term_number (ρ : Str → Int) (n : Nat) : term ρ (showNat n) = n := by
  obtain ⟨d, ds, e, hd⟩ := showNat_head n
  obtain ⟨h1, h2⟩ := takeWhile_showNat n [] (by simp)
  have hv := digitsVal_showNat n
  rw [List.append_nil] at h1 h2
  rw [e] at h1 h2 hv ⊢
  simp only [term, hd, if_true, h1, h2, hv]

/-- The texts of the terms with a coefficient `v`. -/
theorem eval_times (ρ : Str → Int) (v : Int) {w : Str} (h : IsName w) : eval ρ (showInt v ++ '*' :: w) = v * ρ w := by
  have hn := showNat_noSign v.natAbs
  have a1 : '+' ∉ showNat v.natAbs ++ '*' :: w := by
    simp only [List.mem_append, List.mem_cons, not_or]; exact ⟨hn.1, by decide, h.2.2.1⟩
  have a2 : '-' ∉ showNat v.natAbs ++ '*' :: w := by
    simp only [List.mem_append, List.mem_cons, not_or]; exact ⟨hn.2, by decide, h.2.2.2⟩
  unfold showInt
  split
  · rw [List.cons_append, eval_minus ρ a1 a2, term_times]
    rw [show v = -(v.natAbs : Int) by omega, Int.neg_mul]
    simp
  · rw [eval_term ρ a1 a2, term_times]
    rw [show (v.natAbs : Int) = v by omega]

theorem eval_plus_times (ρ : Str → Int) {v : Int} (hv : ¬ v < 0) {w : Str} (h : IsName w) : eval ρ ('+' :: showInt v ++ '*' :: w) = v * ρ w := by
  have hn := showNat_noSign v.natAbs
  have a1 : '+' ∉ showNat v.natAbs ++ '*' :: w := by
    simp only [List.mem_append, List.mem_cons, not_or]; exact ⟨hn.1, by decide, h.2.2.1⟩
  have a2 : '-' ∉ showNat v.natAbs ++ '*' :: w := by
    simp only [List.mem_append, List.mem_cons, not_or]; exact ⟨hn.2, by decide, h.2.2.2⟩
  unfold showInt
  rw [if_neg hv, List.cons_append, eval_plus ρ a1 a2, term_times]
  rw [show (v.natAbs : Int) = v by omega]

theorem eval_number (ρ : Str → Int) (v : Int) : eval ρ (showInt v) = v := by
  have hn := showNat_noSign v.natAbs
  unfold showInt
  split
  · rw [eval_minus ρ hn.1 hn.2, term_number]; omega
  · rw [eval_term ρ hn.1 hn.2, term_number]; omega

theorem eval_plus_number (ρ : Str → Int) {v : Int} (hv : ¬ v < 0) : eval ρ ('+' :: showInt v) = v := by
  have hn := showNat_noSign v.natAbs
  unfold showInt
  rw [if_neg hv, eval_plus ρ hn.1 hn.2, term_number]; omega

theorem eval_nil (ρ : Str → Int) : eval ρ [] = 0 := by simp [eval, sum, term]

theorem eval_zero (ρ : Str → Int) : eval ρ ['0'] = 0 := eval_number ρ 0

theorem signed_cons {ch : Char} {t : Str} (h : isSign ch) : Signed (ch :: t) := by
  intro c hc; cases hc; exact h

theorem signed_neg {v : Int} (h : v < 0) (t : Str) : Signed (showInt v ++ t) := by
  unfold showInt; rw [if_pos h]; exact signed_cons (.inr rfl)

end Comment

namespace Rel
open Comment

/-- One term: its value is the coefficient times the value of the name, or the constant; it can be put after another term when `*first` is false;
`*first` stays true only when nothing is written (or at the constant, which is the last term). -/
theorem expression_element_says {c : Cfg} {p v : Int} {first cst : Bool} {name : Str} (hn : cst = false → IsName name) {t : Str} {f : Bool}
    (h : expression_element c p v first cst name = .ok (t, f)) :
    (∀ ρ, eval ρ t = v * (if cst then 1 else ρ name)) ∧ (first = false → Signed t ∧ f = false) ∧ (cst = false → f = true → t = []) := by
  unfold expression_element at h
  simp only [OInt.zero, OInt.neg, OInt.one, OInt.mone, OInt.sprint_txt, OInt.pos] at h
  cases hk : kind c p with
  | none => simp [hk, Out.bind, bind] at h
  | some k =>
    simp only [hk, Out.ok_bind, Out.pure_eq] at h
    cases cst with
    | true =>
      simp only [Bool.not_true, Bool.and_false, Bool.false_eq_true, if_false, if_true] at h
      refine ⟨fun ρ => ?_, ?_, fun x => by cases x⟩
      · simp only [if_true, Int.mul_one]
        split at h
        · obtain ⟨s, e, h⟩ := Out.bind_eq_ok.mp h; cases h; rw [(buffered_ok e).1, eval_number]
        · split at h
          · next hp =>
            have hp : v > 0 := by simpa using hp
            split at h
            · obtain ⟨s, e, h⟩ := Out.bind_eq_ok.mp h; cases h; rw [(buffered_ok e).1, eval_plus_number _ (by omega)]
            · obtain ⟨s, e, h⟩ := Out.bind_eq_ok.mp h; cases h; rw [(buffered_ok e).1, eval_number]
          · next h1 h2 =>
            cases h
            have h2 : ¬ v > 0 := by simpa using h2
            have h1 : ¬ v < 0 := by intro hv; apply h1; simp [hv]
            rw [eval_nil]; omega
      · intro hf
        subst hf
        simp only [Bool.and_false, Bool.false_or, Bool.not_false, if_true] at h
        split at h
        · next hv =>
          have hv : v < 0 := by simpa using hv
          obtain ⟨s, e, h⟩ := Out.bind_eq_ok.mp h; cases h
          refine ⟨?_, rfl⟩
          rw [(buffered_ok e).1, ← List.append_nil (showInt v)]; exact signed_neg hv _
        · split at h
          · obtain ⟨s, e, h⟩ := Out.bind_eq_ok.mp h; cases h
            refine ⟨?_, rfl⟩
            rw [(buffered_ok e).1]; exact signed_cons (.inl rfl)
          · cases h; exact ⟨fun ch hc => (by cases hc), rfl⟩
    | false =>
      have hn := hn rfl
      simp only [Bool.not_false, Bool.and_true, Bool.false_eq_true, if_false] at h ⊢
      by_cases hz : v = 0
      · subst hz
        simp at h
        obtain ⟨rfl, rfl⟩ := h
        exact ⟨fun ρ => by rw [eval_nil]; simp, fun hf => ⟨fun ch hc => (by cases hc), hf⟩, fun _ _ => rfl⟩
      · simp only [hz, decide_false, Bool.not_false, if_true] at h
        split at h
        · next hfn =>
          split at h
          · next ho =>
            have ho : v = 1 := by simpa using ho
            obtain ⟨s, e, h⟩ := Out.bind_eq_ok.mp h; cases h
            rw [(buffered_ok e).1]
            refine ⟨fun ρ => ?_, fun hf => ?_, fun _ x => by cases x⟩
            · rw [eval_term ρ hn.2.2.1 hn.2.2.2, term_name ρ hn, ho]; simp
            · subst hf; subst ho; simp at hfn
          · split at h
            · next hm =>
              have hm : v = -1 := by simpa using hm
              obtain ⟨s, e, h⟩ := Out.bind_eq_ok.mp h; cases h
              rw [(buffered_ok e).1]
              refine ⟨fun ρ => ?_, fun _ => ⟨signed_cons (.inr rfl), rfl⟩, fun _ x => by cases x⟩
              rw [eval_minus ρ hn.2.2.1 hn.2.2.2, term_name ρ hn, hm]; simp
            · obtain ⟨s, e, h⟩ := Out.bind_eq_ok.mp h; cases h
              rw [(buffered_ok e).1]
              refine ⟨fun ρ => eval_times ρ v hn, fun hf => ⟨?_, rfl⟩, fun _ x => by cases x⟩
              subst hf
              exact signed_neg (by simpa using hfn) _
        · next hfn =>
          simp only [Bool.or_eq_true, decide_eq_true_eq, not_or, Bool.not_eq_true] at hfn
          obtain ⟨rfl, hv⟩ := hfn
          split at h
          · next ho =>
            have ho : v = 1 := by simpa using ho
            obtain ⟨s, e, h⟩ := Out.bind_eq_ok.mp h; cases h
            rw [(buffered_ok e).1]
            refine ⟨fun ρ => ?_, fun _ => ⟨signed_cons (.inl rfl), rfl⟩, fun _ x => by cases x⟩
            rw [eval_plus ρ hn.2.2.1 hn.2.2.2, term_name ρ hn, ho]; simp
          · obtain ⟨s, e, h⟩ := Out.bind_eq_ok.mp h; cases h
            rw [(buffered_ok e).1]
            exact ⟨fun ρ => eval_plus_times ρ hv hn, fun _ => ⟨signed_cons (.inl rfl), rfl⟩, fun _ x => by cases x⟩

/-- The values of the columns of a row: that of the column of the tag is not used. -/
def values (ρ : Str → Int) (strings : List Str) : List Int := strings.dropLast.map ρ ++ [1]

theorem values_length (ρ : Str → Int) {strings : List Str} (h : strings ≠ []) : (values ρ strings).length = strings.length := by
  have := List.length_pos_iff.mpr h
  simp only [values, List.length_append, List.length_map, List.length_dropLast, List.length_cons, List.length_nil]; omega

theorem values_get (ρ : Str → Int) {strings : List Str} {j : Nat} (h : j < strings.length) (h' : j < (values ρ strings).length) :
    (values ρ strings)[j] = if decide ((j : Int) = (strings.length : Int) - 1) then 1 else ρ strings[j] := by
  have e : (values ρ strings)[j]? = some (if decide ((j : Int) = (strings.length : Int) - 1) then 1 else ρ strings[j]) := by
    unfold values
    by_cases hj : j < strings.length - 1
    · rw [if_neg (by simp only [decide_eq_true_eq]; omega), List.getElem?_append_left (by simpa using hj)]
      simp [List.getElem?_dropLast, hj, List.getElem?_eq_getElem h]
    · rw [if_pos (by simp only [decide_eq_true_eq]; omega), List.getElem?_append_right (by simp; omega)]
      simp only [List.length_map, List.length_dropLast]
      rw [show j - (strings.length - 1) = 0 by omega]; rfl
  rw [List.getElem?_eq_getElem h'] at e
  exact Option.some.inj e

/-- The loop on the columns: its text is the sum of the terms. -/
theorem subLoop_says {c : Cfg} (hv : c.Valid) {r : Part} (hf : PartFits c r) {i : Nat} (hi : i < r.m.length) (op : Bool)
    {strings : List Str} (hn : (strings.length : Int) = r.nb_columns) (hs : ∀ j (h : j < strings.length), 0 < j → j + 1 < strings.length → IsName strings[j]) :
    ∀ (n j : Nat) (s s' : Str × Bool), 0 < j → j + n ≤ r.m[i].length → (s.2 = true → s.1 = []) →
    loopN (subBody c r i op strings) n j s = .ok s' →
    ∀ ρ, eval ρ s'.1 = eval ρ s.1 + (if op then -1 else 1) * dot ((r.m[i].drop j).take n) ((values ρ strings).drop j) := by
  have hc := hf.valid.cols r.m[i] (List.getElem_mem hi)
  intro n
  induction n with
  | zero => intro j s s' _ _ _ h ρ; simp only [loopN] at h; cases h; simp [dot]
  | succ n ih =>
    intro j s s' hj0 hj hfirst h ρ
    have hj' : j < r.m[i].length := by omega
    have hjs : j < strings.length := by omega
    have hne : strings ≠ [] := by intro e; rw [e] at hjs; simp at hjs
    have hjv : j < (values ρ strings).length := by rw [values_length ρ hne]; exact hjs
    simp only [loopN] at h
    cases hb : subBody c r i op strings j s with
    | err => rw [hb] at h; cases h
    | ub => rw [hb] at h; cases h
    | ok s1 =>
      rw [hb] at h
      dsimp only at h
      unfold subBody at hb
      rw [get2_nat hi hj'] at hb
      simp only [Out.ok_bind] at hb
      have hb : ∃ v, v = (if op then -1 else 1) * r.m[i][j] ∧ (do
          let name ← strAt strings (j : Int)
          let (t, first) ← expression_element c r.precision v s.2 (decide ((j : Int) = r.nb_columns - 1)) name
          let line ← buffered (s.1 ++ t)
          return (line, first) : Out (Str × Bool)) = .ok s1 := by
        cases op with
        | false => exact ⟨_, by simp, hb⟩
        | true =>
          have := (OInt.int_oppose_abs_correct hv (hf.valid.ents _ (List.getElem_mem hi) _ (List.getElem_mem hj'))
            (hf.notMin _ (List.getElem_mem hi) _ (List.getElem_mem hj'))).1
          simp only [if_true] at hb
          rw [this] at hb
          exact ⟨_, by simp, hb⟩
      obtain ⟨v, ev, hb⟩ := hb
      have hst : strAt strings (j : Int) = .ok strings[j] := by
        unfold strAt; simp only [Int.toNat_natCast, List.getElem?_eq_getElem hjs]
      rw [hst] at hb
      simp only [Out.ok_bind] at hb
      obtain ⟨⟨t, f⟩, e2, hb⟩ := Out.bind_eq_ok.mp hb
      dsimp only at hb
      obtain ⟨line, e3, hb⟩ := Out.bind_eq_ok.mp hb
      have e3 := (buffered_ok e3).1
      cases hb
      obtain ⟨g1, g2, g3⟩ := expression_element_says (fun hcst => hs j hjs hj0 (by
        simp only [decide_eq_false_iff_not] at hcst
        omega)) e2
      have key : eval ρ (s.1 ++ t) = eval ρ s.1 + v * (values ρ strings)[j] := by
        rw [values_get ρ hjs hjv, hn, ← g1 ρ]
        cases hs2 : s.2 with
        | true => rw [hfirst hs2, eval_nil]; simp
        | false => exact eval_append ρ (g2 hs2).1
      rw [List.drop_eq_getElem_cons hj', List.drop_eq_getElem_cons hjv]
      simp only [List.take_succ_cons, dot]
      cases n with
      | zero =>
        simp only [loopN] at h; cases h
        rw [e3, key, ev]
        simp only [List.take_zero, dot, Int.add_zero, Int.mul_assoc]
      | succ n =>
        have := ih (j + 1) (line, f) s' (by omega) (by omega) (by
          dsimp only
          intro hft
          have hcst : decide ((j : Int) = r.nb_columns - 1) = false := by simp only [decide_eq_false_iff_not]; omega
          have ht := g3 hcst hft
          cases hs2 : s.2 with
          | true => rw [e3, hfirst hs2, ht]; rfl
          | false => rw [(g2 hs2).2] at hft; cases hft) h ρ
        rw [this]
        dsimp only
        rw [e3, key, ev, Int.mul_add]
        simp only [Int.mul_assoc]
        omega

theorem subexpression_says {c : Cfg} (hv : c.Valid) {r : Part} (hf : PartFits c r) {i : Nat} (hi : i < r.m.length) (op : Bool)
    {strings : List Str} (hn : (strings.length : Int) = r.nb_columns) (hs : ∀ j (h : j < strings.length), 0 < j → j + 1 < strings.length → IsName strings[j])
    {start stop : Int} (h1 : 0 < start) (h2 : start ≤ stop + 1) (h3 : stop < r.nb_columns) {t : Str}
    (h : subexpression c r i start stop op strings = .ok t) (ρ : Str → Int) :
    eval ρ t = (if op then -1 else 1) * dot ((r.m[i].drop start.toNat).take (stop + 1 - start).toNat) ((values ρ strings).drop start.toNat) := by
  have hc := hf.valid.cols r.m[i] (List.getElem_mem hi)
  rw [subexpression_eq] at h
  obtain ⟨s', e, h⟩ := Out.bind_eq_ok.mp h
  cases h
  unfold loop at e
  have := subLoop_says hv hf hi op hn hs (stop + 1 - start).toNat start.toNat ([], true) s' (by omega) (by omega) (fun _ => rfl)
    (by rw [show ((start.toNat : Nat) : Int) = start by omega]; exact e) ρ
  rw [this, eval_nil]
  omega

/-- The point of the values of the dimensions. -/
theorem values_drop (ρ : Str → Int) (s : Str) (dims : List Str) (l : Str) : (values ρ (s :: dims ++ [l])).drop 1 = dims.map ρ ++ [1] := by
  unfold values
  rw [List.dropLast_concat]
  rfl

theorem dot_split : ∀ (n : Nat) (l v : List Int), dot l v = dot (l.take n) v + dot (l.drop n) (v.drop n)
  | 0, l, v => by simp [dot]
  | n + 1, [], v => by simp [dot]
  | n + 1, a :: l, [] => by
    rw [List.drop_nil, List.take_succ_cons, List.drop_succ_cons]
    cases List.drop n l <;> simp [dot]
  | n + 1, a :: l, b :: v => by
    have := dot_split n l v
    simp only [List.take_succ_cons, List.drop_succ_cons, dot]
    omega

theorem dot_zeros : ∀ (l v : List Int), (∀ a ∈ l, a = 0) → dot l v = 0
  | [], v, _ => by simp [dot]
  | a :: l, [], _ => by simp [dot]
  | a :: l, b :: v, h => by
    simp only [dot, h a (by simp), dot_zeros l v fun x hx => h x (by simp [hx])]; omega

/-- A row found simple is an equality. -/
theorem simple_row {c : Cfg} {r : Part} (hf : PartFits c r) {i : Nat} (hi : i < r.m.length) (h0 : 0 < r.m[i].length) {s : Int}
    (h : is_simple_output c r i = .ok s) (hs : s ≠ 0) : r.m[i][0] = 0 ∧ simpleLoop c r i r.nb_output_dims.toNat 1 true 0 = .ok s := by
  obtain ⟨k, hk⟩ := Option.ne_none_iff_exists'.mp hf.valid.prec
  unfold is_simple_output at h
  split at h
  · cases h; exact absurd rfl hs
  · split at h
    · cases h
    · have g : get2 r.m i 0 = .ok r.m[i][0] := get2_nat (j := 0) hi h0
      rw [g] at h
      simp only [Out.ok_bind, OInt.zero, hk] at h
      split at h
      · cases h; exact absurd rfl hs
      · next hz => exact ⟨by simpa using hz, h⟩

/-- The loop of `osl_relation_is_simple_output`: exactly one coefficient is not zero, and it is the answer. -/
theorem simpleLoop_says {c : Cfg} {r : Part} (hf : PartFits c r) {i : Nat} (hi : i < r.m.length) : ∀ (n j : Nat) (first : Bool) (sign s : Int),
    j + n ≤ r.m[i].length → simpleLoop c r i n j first sign = .ok s → s ≠ 0 →
    if first then sign = 0 → ∃ k, ∃ _ : k < r.m[i].length, j ≤ k ∧ k < j + n ∧ (s = 1 ∨ s = -1) ∧ r.m[i][k] = s ∧
      (∀ k', ∀ _ : k' < r.m[i].length, j ≤ k' → k' < j + n → r.m[i][k'] ≠ 0 → k' = k) ∧
      (∀ v : List Int, v.length = r.m[i].length → dot ((r.m[i].drop j).take n) (v.drop j) = s * v.getD k 0)
    else s = sign ∧ ∀ a ∈ (r.m[i].drop j).take n, a = 0 := by
  obtain ⟨kd, hkd⟩ := Option.ne_none_iff_exists'.mp hf.valid.prec
  intro n
  induction n with
  | zero =>
    intro j first sign s hj h hs
    simp only [simpleLoop] at h; cases h
    cases first with
    | true => simp only [if_true]; intro h; exact absurd h hs
    | false => simp
  | succ n ih =>
    intro j first sign s hj h hs
    have hj' : j < r.m[i].length := by omega
    simp only [simpleLoop] at h
    rw [get2_nat hi hj'] at h
    simp only [OInt.zero, OInt.one, OInt.mone, hkd] at h
    rw [List.drop_eq_getElem_cons hj', List.take_succ_cons]
    by_cases hz : r.m[i][j] = 0
    · simp only [hz, decide_true, Bool.not_true, Bool.false_eq_true, if_false] at h
      have := ih (j + 1) first sign s (by omega) h hs
      cases first with
      | true =>
        simp only [if_true] at this ⊢
        intro hsg
        obtain ⟨k, hk, k1, k2, k3, k4, k6, k5⟩ := this hsg
        refine ⟨k, hk, by omega, by omega, k3, k4, fun k' hk' l1 l2 l3 => ?_, fun v hv => ?_⟩
        · by_cases e : k' = j
          · subst e; exact absurd hz l3
          · exact k6 k' hk' (by omega) (by omega) l3
        rw [List.drop_eq_getElem_cons (l := v) (by omega)]
        simp only [dot, hz, k5 v hv]; omega
      | false =>
        simp only [Bool.false_eq_true, if_false] at this ⊢
        refine ⟨this.1, fun a ha => ?_⟩
        rcases List.mem_cons.mp ha with rfl | ha
        · exact hz
        · exact this.2 a ha
    · simp only [hz, decide_false, Bool.not_false, if_true] at h
      cases first with
      | false => simp only [Bool.not_false, if_true] at h; cases h; exact absurd rfl hs
      | true =>
        simp only [Bool.not_true, Bool.false_eq_true, if_false] at h
        have go : ∀ sg : Int, (sg = 1 ∨ sg = -1) → r.m[i][j] = sg → simpleLoop c r i n (j + 1) false sg = .ok s → 
            ∃ k, ∃ _ : k < r.m[i].length, j ≤ k ∧ k < j + (n + 1) ∧ (s = 1 ∨ s = -1) ∧ r.m[i][k] = s ∧
            (∀ k', ∀ _ : k' < r.m[i].length, j ≤ k' → k' < j + (n + 1) → r.m[i][k'] ≠ 0 → k' = k) ∧
            (∀ v : List Int, v.length = r.m[i].length → dot (r.m[i][j] :: (r.m[i].drop (j + 1)).take n) (v.drop j) = s * v.getD k 0) := by
          intro sg h1 h2 h3
          have := ih (j + 1) false sg s (by omega) h3 hs
          simp only [Bool.false_eq_true, if_false] at this
          obtain ⟨rfl, h4⟩ := this
          refine ⟨j, hj', by omega, by omega, h1, h2, fun k' hk' l1 l2 l3 => ?_, fun v hv => ?_⟩
          · by_cases e : k' = j
            · exact e
            · refine absurd (h4 _ ?_) l3
              refine List.mem_iff_getElem.mpr ⟨k' - (j + 1), by simp; omega, ?_⟩
              simp only [List.getElem_take, List.getElem_drop]
              congr 1; omega
          rw [List.drop_eq_getElem_cons (l := v) (by omega)]
          simp only [dot]
          rw [dot_zeros _ _ h4, h2]
          rw [List.getD_eq_getElem?_getD, List.getElem?_eq_getElem (by omega : j < v.length)]
          simp
        split at h
        · next ho => simp only [if_true]; intro _; exact go 1 (.inl rfl) (by simpa using ho) h
        · split at h
          · next ho => simp only [if_true]; intro _; exact go (-1) (.inr rfl) (by simpa using ho) h
          · cases h; exact absurd rfl hs

end Rel
end Osl
