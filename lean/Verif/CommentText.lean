import Verif.CommentProps
/-!
# C68: the comments of the text of a relation
-/

namespace Osl
namespace Rel
open Comment

theorem mapOut_get {α β : Type} {f : α → Out β} : ∀ {l : List α} {r : List β}, Out.mapOut f l = .ok r →
    ∀ (k : Nat) (h : k < l.length) (h' : k < r.length), f l[k] = .ok r[k]
  | [], r, e, k, h, _ => by simp at h
  | a :: l, r, e, k, h, h' => by
    obtain ⟨b, r', e1, e2, rfl⟩ := Out.mapOut_cons_eq_ok.mp e
    cases k with
    | zero => exact e1
    | succ k => exact mapOut_get e2 k (by simpa using h) (by simpa using h')

theorem names_taken {s : Option Strings} {n : Int} {l : List Str} (h : Out.mapOut (nameAt s) (upto n) = .ok l) : l = (wordsOf s).take n.toNat := by
  have hl := Out.mapOut_length h
  rw [upto_length] at hl
  have key : ∀ k (hk : k < l.length), (wordsOf s)[k]? = some l[k] := by
    intro k hk
    have := mapOut_get h k (by rw [upto_length]; omega) hk
    simp only [upto, List.getElem_map, List.getElem_range, Int.ofNat_eq_natCast] at this
    unfold nameAt at this
    split at this
    · next _ w =>
      simp only [Int.toNat_natCast] at this
      split at this
      · next w' hw =>
        cases this
        simpa [wordsOf, Strings.words] using hw
      · cases this
    · cases this
  refine List.ext_getElem? fun k => ?_
  rw [List.getElem?_take]
  split
  · next hk => rw [key k (by omega), List.getElem?_eq_getElem (by omega)]
  · next hk => exact List.getElem?_eq_none (by omega)

theorem showInt_nat (n : Nat) : showInt (n : Int) = showNat n := by
  unfold showInt
  rw [if_neg (by omega)]; rfl

/-- The strings used for the columns are the names of the dimensions, between that of the tag and that of the constant. -/
theorem relation_strings_dims {p : Part} {names : Names} {l : List Str} (h : relation_strings p names = .ok l) :
    l = "e/i".toList :: dimNames p names ++ [['1']] := by
  unfold relation_strings at h
  split at h
  · obtain ⟨o, e1, h⟩ := Out.bind_eq_ok.mp h
    obtain ⟨i, e2, h⟩ := Out.bind_eq_ok.mp h
    obtain ⟨lo, e3, h⟩ := Out.bind_eq_ok.mp h
    obtain ⟨pa, e4, h⟩ := Out.bind_eq_ok.mp h
    cases h
    have ho : o = (if p.type = TYPE_ACCESS ∨ p.type = TYPE_READ ∨ p.type = TYPE_WRITE ∨ p.type = TYPE_MAY_WRITE then
      (List.range p.nb_output_dims.toNat).map fun i => if i = 0 then "Arr".toList else '[' :: showNat i ++ [']']
      else if p.type = TYPE_DOMAIN ∨ p.type = TYPE_CONTEXT then (wordsOf names.iterators).take p.nb_output_dims.toNat
      else (wordsOf names.scatt_dims).take p.nb_output_dims.toNat) := by
      unfold outputNames at e1
      by_cases ha : isAccessPart p = true
      · rw [if_pos ha] at e1
        have := (isAccessPart_iff p).mp ha
        rw [if_pos this]
        cases e1
        unfold upto
        rw [List.map_map]
        refine List.map_congr_left fun k _ => ?_
        simp only [Function.comp, Int.ofNat_eq_natCast, showInt_nat]
        by_cases hk : k = 0
        · rw [if_pos hk, if_pos (by omega)]
        · rw [if_neg hk, if_neg (by omega)]
      · rw [if_neg ha] at e1
        rw [if_neg (fun x => ha ((isAccessPart_iff p).mpr x))]
        split at e1
        · next hd => rw [if_pos hd]; exact names_taken e1
        · next hd => rw [if_neg hd]; exact names_taken e1
    rw [ho, names_taken e2, names_taken e3, names_taken e4]
    simp [dimNames]
  · cases h

/-- The names which the user gives can be used in expressions. -/
structure GoodNames (names : Names) : Prop where
  iterators : ∀ w ∈ wordsOf names.iterators, IsName w
  scatt : ∀ w ∈ wordsOf names.scatt_dims, IsName w
  locals : ∀ w ∈ wordsOf names.local_dims, IsName w
  params : ∀ w ∈ wordsOf names.parameters, IsName w

theorem dimNames_good {p : Part} {names : Names} (h : GoodNames names) : ∀ w ∈ dimNames p names, IsName w := by
  intro w hw
  unfold dimNames at hw
  simp only [List.mem_append] at hw
  rcases hw with ((hw | hw) | hw) | hw
  · split at hw
    · obtain ⟨k, _, rfl⟩ := List.mem_map.mp hw
      split
      · exact ⟨by decide, fun ch hc => by cases hc; decide, by decide, by decide⟩
      · have hn := showNat_noSign k
        refine ⟨by simp, fun ch hc => by cases hc; decide, ?_, ?_⟩
        · simp only [List.cons_append, List.mem_cons, List.mem_append, not_or]; exact ⟨by decide, hn.1, by decide, by simp⟩
        · simp only [List.cons_append, List.mem_cons, List.mem_append, not_or]; exact ⟨by decide, hn.2, by decide, by simp⟩
    · split at hw
      · exact h.iterators _ (List.mem_of_mem_take hw)
      · exact h.scatt _ (List.mem_of_mem_take hw)
  · exact h.iterators _ (List.mem_of_mem_take hw)
  · exact h.locals _ (List.mem_of_mem_take hw)
  · exact h.params _ (List.mem_of_mem_take hw)

theorem truncated_short {s : Str} (h : s.length < MAX_STRING) : truncated s = s := by
  unfold truncated
  exact List.take_of_length_le (by omega)

theorem sign_iff {a b s : Int} : (if decide (s < 0) = true then -1 else 1 : Int) * a = (if decide (s > 0) = true then -1 else 1 : Int) * b → s ≠ 0 → a + b = 0 := by
  intro h hs
  by_cases h1 : s < 0
  · rw [if_pos (by simpa using h1), if_neg (by simp; omega)] at h; omega
  · rw [if_neg (by simpa using h1), if_pos (by simp; omega)] at h; omega

theorem sign_iff' {a b s : Int} (hs : s ≠ 0) (h : a + b = 0) : (if decide (s < 0) = true then -1 else 1 : Int) * a = (if decide (s > 0) = true then -1 else 1 : Int) * b := by
  by_cases h1 : s < 0
  · rw [if_pos (by simpa using h1), if_neg (by simp; omega)]; omega
  · rw [if_neg (by simpa using h1), if_pos (by simp; omega)]; omega

/-- The row of a part which fixes its first dimension. -/
theorem fixes_row {p : Part} {k : Int} (h : FixesFirst p k) {i : Nat} (hi : i < p.m.length) (h1 : (p.m[i][1]?).getD 0 ≠ 0) :
    ∃ a b : Int, a ≠ 0 ∧ p.m[i] = [0, a] ++ List.replicate (p.nb_columns - 3).toNat 0 ++ [b] ∧ a * k + b = 0 ∧ 3 ≤ p.nb_columns := by
  obtain ⟨h3, j, hj, a, b, ha, hm, hk, ho⟩ := h
  by_cases hij : i = j
  · subst hij; exact ⟨a, b, ha, hm, hk, h3⟩
  · exact absurd (ho i hi hij) h1

theorem dot_fixes (a b : Int) (x : Int) : ∀ (n : Nat) (v : List Int), v.length = n → dot (a :: (List.replicate n 0 ++ [b])) (x :: (v ++ [1])) = a * x + b
  | 0, [], _ => by simp [dot]
  | n + 1, y :: v, h => by
    have := dot_fixes a b x n v (by simpa using h)
    simp only [dot, List.replicate_succ, List.cons_append] at this ⊢
    omega

theorem toNat_pred (id : Int) (h : 1 ≤ id) : id.toNat - 1 = (id - 1).toNat := by omega

/-- C68: the comment of a row of a part `r` of a union, followed by the parts `rest`: it is written, and says what the row says. -/
theorem row_comment_says {c : Cfg} (hv : c.Valid) (hnd : c.ndebug = false) {names : Names} {r : Part} {rest : Rel} (hf : PartFits c r)
    (h : Named c names r (r :: rest)) (hg : GoodNames names) (hr : isAccessPart r = true → ∀ q ∈ r :: rest, q.Valid c ∧ IntEntries q)
    {strings : List Str} (es : relation_strings r names = .ok strings) {i : Nat} (hi : i < r.m.length) :
    ∃ t, rowComment c r rest i strings names = .ok t ∧ Says r.m[i] (dimNames r names) (wordsOf names.arrays) t := by
  obtain ⟨strings', es', hn, hs⟩ := relation_strings_total hf h
  rw [es] at es'
  cases es'
  have ed := relation_strings_dims es
  have hdl : (dimNames r names).length + 2 = strings.length := by rw [ed]; simp
  have hgood : ∀ j (hj : j < strings.length), 0 < j → j + 1 < strings.length → IsName strings[j] := by
    intro j hj h0 h1
    subst ed
    rw [List.getElem_append_left (by simp only [List.length_cons]; omega)]
    cases j with
    | zero => omega
    | succ j =>
      rw [List.getElem_cons_succ]
      exact dimNames_good hg _ (List.getElem_mem _)
  have hc := hf.valid.cols r.m[i] (List.getElem_mem hi)
  have hw := hf.width r.m[i] (List.getElem_mem hi)
  have hd := hf.dims
  unfold Part.Dims at hd
  have hlen : 2 ≤ r.m[i].length := by omega
  have hwd : 16 + rowWidth (r.m[i].drop 1) ≤ rowWidth r.m[i] := by
    have := rowWidth_drop r.m[i] 0 (by omega)
    have hp : 0 < (showInt r.m[i][0]).length := List.length_pos_iff.mpr (showInt_ne_nil _)
    simp only [List.drop_zero, Nat.zero_add] at this
    omega
  have hM : MAX_STRING = 2048 := rfl
  have hvals : ∀ ρ, (values ρ strings).drop 1 = (dimNames r names).map ρ ++ [1] := by
    intro ρ; rw [ed]; exact values_drop ρ _ _ _
  have hvl : ∀ ρ, (values ρ strings).length = strings.length := fun ρ => values_length ρ (by intro e; rw [e] at hdl; simp at hdl)
  have hrow : r.m[i] = r.m[i][0] :: r.m[i].drop 1 := by
    have := List.drop_eq_getElem_cons (l := r.m[i]) (i := 0) (by omega)
    simpa using this
  have hholds : ∀ ρ, RowHolds r.m[i] ((dimNames r names).map ρ) ↔
      if r.m[i][0] = 0 then dot (r.m[i].drop 1) ((values ρ strings).drop 1) = 0 else 0 ≤ dot (r.m[i].drop 1) ((values ρ strings).drop 1) := by
    intro ρ
    rw [hvals ρ]
    generalize hg1 : r.m[i][0] = tag at hrow ⊢
    generalize hg2 : r.m[i].drop 1 = coefs at hrow ⊢
    rw [hrow]
    exact Iff.rfl
  obtain ⟨k, hk⟩ := Option.ne_none_iff_exists'.mp hf.valid.prec
  obtain ⟨sign, e0⟩ := is_simple_output_total hf hi
  cases ha : names.arrays with
  | none => exact absurd ha h.arrays
  | some arr =>
    have er : rowComment c r rest i strings names = sprint_comment c r rest i strings (some arr) := by unfold rowComment; rw [ha]
    rw [er]
    unfold sprint_comment
    rw [e0]
    simp only [Out.ok_bind]
    by_cases hz : sign ≠ 0
    · rw [if_pos hz]
      obtain ⟨h00, hsl⟩ := simple_row hf hi (by omega) e0 hz
      obtain ⟨t1, e1, h1⟩ := subexpression_total hv hf hi (decide (sign < 0)) hn hs (start := 1) (stop := r.nb_output_dims) (by omega) (by omega) (by omega)
      have v1 := subexpression_says hv hf hi (decide (sign < 0)) hn hgood (start := 1) (stop := r.nb_output_dims) (by omega) (by omega) (by omega) e1
      rw [e1]
      simp only [Out.ok_bind]
      have g1 : get2 r.m i 1 = .ok (r.m[i][1]'(by omega)) := get2_nat (j := 1) hi (by omega)
      rw [g1]
      simp only [Out.ok_bind, OInt.zero, hk]
      simp only [show (1 : Int).toNat = 1 from rfl, show (r.nb_output_dims + 1 - 1).toNat = r.nb_output_dims.toNat by omega] at h1 v1
      split
      · obtain ⟨t2, e2, h2⟩ := subexpression_total hv hf hi (decide (sign > 0)) hn hs (start := r.nb_output_dims + 1) (stop := r.nb_columns - 1) (by omega) (by omega) (by omega)
        have v2 := subexpression_says hv hf hi (decide (sign > 0)) hn hgood (start := r.nb_output_dims + 1) (stop := r.nb_columns - 1) (by omega) (by omega) (by omega) e2
        have d2 := rowWidth_drop_le (r.m[i].drop 1) r.nb_output_dims.toNat
        rw [List.drop_drop, show 1 + r.nb_output_dims.toNat = (r.nb_output_dims + 1).toNat by omega] at d2
        rw [e2]
        simp only [Out.ok_bind, Util.emit_eq]
        rw [truncated_short (by simp only [List.length_append, show "   ## ".toList.length = 6 from rfl]; omega),
          truncated_short (by simp only [List.length_append, show " == ".toList.length = 4 from rfl]; omega)]
        refine ⟨_, rfl, .equality t1 t2 (by simp only [List.flatten_cons, List.flatten_nil, List.append_nil]) fun ρ => ?_⟩
        rw [hholds ρ, if_pos h00, v1 ρ, v2 ρ]
        rw [dot_split r.nb_output_dims.toNat (r.m[i].drop 1)]
        rw [List.drop_drop, List.drop_drop, show 1 + r.nb_output_dims.toNat = (r.nb_output_dims + 1).toNat by omega]
        rw [List.take_of_length_le (l := r.m[i].drop (r.nb_output_dims + 1).toNat) (by simp only [List.length_drop]; omega)]
        exact ⟨sign_iff' hz, fun e => sign_iff e hz⟩
      · next hnot =>
        have hacc : isAccessPart r = true := by
          cases hb : isAccessPart r with
          | true => rfl
          | false => rw [hb] at hnot; simp at hnot
        have h1z : r.m[i][1]'(by omega) ≠ 0 := by
          intro e; rw [e] at hnot; simp at hnot
        obtain ⟨id, e2, h2, h3⟩ := h.array hacc
        rw [ha] at h3
        obtain ⟨l, el, l1, l2⟩ := h3 (by omega)
        have el' : arr = { string := some l } := by simpa using el
        have hid : (id - 1).toNat < l.length := by omega
        have e3 : nameAt (some arr) (id - 1) = .ok l[(id - 1).toNat] := by
          rw [el']; unfold nameAt; simp only [List.getElem?_eq_getElem hid]
        rw [e2]
        simp only [Out.ok_bind]
        rw [if_neg (by omega), e3]
        simp only [Out.ok_bind, Util.emit_eq]
        have hwl := l2 _ (List.getElem_mem hid)
        rw [truncated_short (by simp only [List.length_append, show "   ## ".toList.length = 6 from rfl]; omega),
          truncated_short (by simp only [List.length_append, show " == ".toList.length = 4 from rfl]; omega)]
        -- the row fixes the first dimension
        obtain ⟨id', e2', hid1, _⟩ := relation_get_array_id_iff hv hnd (r := r :: rest) (fun q hq => (hr hacc q hq).1) (fun q hq => (hr hacc q hq).2) hacc
        rw [e2] at e2'
        cases e2'
        have hfix := (hid1 id (by omega)).mp rfl r (by simp)
        have h1g : (r.m[i][1]?).getD 0 ≠ 0 := by rw [List.getElem?_eq_getElem (by omega)]; exact h1z
        obtain ⟨a, b, ha0, hm, hab, h3c⟩ := fixes_row hfix hi h1g
        have hsim := simpleLoop_says hf hi r.nb_output_dims.toNat 1 true 0 sign (by omega) hsl hz
        simp only [if_true] at hsim
        obtain ⟨kk, hkk, k1, k2, k3, k4, k5, k6⟩ := hsim trivial
        have hout : 0 < r.nb_output_dims := by omega
        have k1' := k5 1 (by omega) (by omega) (by omega) h1z
        subst k1'
        obtain ⟨dtail, hdt⟩ : ∃ dtail, dimNames r names = "Arr".toList :: dtail := by
          unfold dimNames
          rw [if_pos ((isAccessPart_iff r).mp hacc)]
          cases hc : r.nb_output_dims.toNat with
          | zero => omega
          | succ n => rw [List.range_succ_eq_map]; exact ⟨_, rfl⟩
        have hval1 : ∀ ρ, (values ρ strings).getD 1 0 = ρ "Arr".toList := by
          intro ρ
          have := hvals ρ
          rw [hdt] at this
          rw [List.getD_eq_getElem?_getD]
          have h2 : (values ρ strings)[1]? = ((values ρ strings).drop 1)[0]? := by rw [List.getElem?_drop]
          rw [h2, this]; rfl
        have hfirst : ∀ ρ, eval ρ t1 = ρ "Arr".toList := by
          intro ρ
          rw [v1 ρ, k6 _ (by rw [hvl ρ]; omega), hval1 ρ]
          rcases k3 with rfl | rfl <;> simp
        refine ⟨_, rfl, .array id.toNat t1 l[(id - 1).toNat] (by simp only [List.flatten_cons, List.flatten_nil, List.append_nil]) ⟨by omega, ?_⟩ hfirst fun ρ => ?_⟩
        · rw [el']
          simp only [wordsOf, Strings.words, Option.map_some, Option.getD_some]
          rw [toNat_pred id h2, List.getElem?_eq_getElem hid]
        · rw [hholds ρ, if_pos h00, hvals ρ, hdt, hm]
          have hdl2 : dtail.length = (r.nb_columns - 3).toNat := by
            have := hdl; rw [hdt] at this; simp only [List.length_cons] at this; omega
          have e4 := dot_fixes a b (ρ "Arr".toList) (r.nb_columns - 3).toNat (dtail.map ρ) (by simpa using hdl2)
          simp only [List.map_cons, List.cons_append, List.nil_append, List.drop_succ_cons, List.drop_zero] at e4 ⊢
          rw [e4, show ((id.toNat : Nat) : Int) = id by omega]
          constructor
          · intro e
            have : a * ρ "Arr".toList = a * id := by omega
            exact Int.eq_of_mul_eq_mul_left ha0 this
          · intro e; rw [e]; exact hab
    · rw [if_neg hz]
      obtain ⟨t1, e1, h1⟩ := subexpression_total hv hf hi false hn hs (start := 1) (stop := r.nb_columns - 1) (by omega) (by omega) (by omega)
      have v1 := subexpression_says hv hf hi false hn hgood (start := 1) (stop := r.nb_columns - 1) (by omega) (by omega) (by omega) e1
      unfold expression
      rw [e1]
      have g1 : get2 r.m i 0 = .ok (r.m[i][0]'(by omega)) := get2_nat (j := 0) hi (by omega)
      rw [g1]
      simp only [Out.ok_bind, OInt.zero, hk, Util.emit_eq]
      simp only [show (1 : Int).toNat = 1 from rfl] at h1 v1
      rw [truncated_short (by simp only [List.length_append, show "   ## ".toList.length = 6 from rfl]; omega)]
      have v1' : ∀ ρ, eval ρ t1 = dot (r.m[i].drop 1) ((values ρ strings).drop 1) := by
        intro ρ
        rw [v1 ρ, List.take_of_length_le (by simp only [List.length_drop]; omega)]
        simp
      by_cases h00 : r.m[i][0] = 0
      · refine ⟨_, rfl, .equality t1 ['0'] ?_ fun ρ => ?_⟩
        · simp only [h00, decide_true, if_true, List.flatten_cons, List.flatten_nil, List.append_nil]; rfl
        · rw [hholds ρ, if_pos h00, v1' ρ, eval_zero]
      · refine ⟨_, rfl, .inequality t1 ['0'] ?_ fun ρ => ?_⟩
        · simp only [h00, decide_false, Bool.false_eq_true, if_false, List.flatten_cons, List.flatten_nil, List.append_nil]; rfl
        · rw [hholds ρ, if_neg h00, v1' ρ, eval_zero]

theorem isAfter_mono {t u : Str} {row : List Int} {cm : Str} (h : IsAfter t row cm) (a b : Str) (e : u = a ++ (t ++ b)) : IsAfter u row cm := by
  obtain ⟨x, y, rfl⟩ := h
  exact ⟨a ++ x, y ++ b, by rw [e]; simp⟩

theorem cells_entries {c : Cfg} {r : Part} (hk : kind c r.precision ≠ none) {i : Nat} (hi : i < r.m.length) (hc : (r.m[i].length : Int) = r.nb_columns)
    {cells : List (List Str)} (h : Out.mapOut (fun j => do
      let v ← get2 r.m i j
      let t ← OInt.sprint c r.precision v
      let t ← buffered t
      return [t, [' ']]) (upto r.nb_columns) = .ok cells) : cells.flatten.flatten = entries r.m[i] := by
  obtain ⟨k, hk⟩ := Option.ne_none_iff_exists'.mp hk
  have hl := Out.mapOut_length h
  rw [upto_length] at hl
  have e : cells = r.m[i].map fun v => [padLeft 4 (showInt v), [' ']] := by
    refine List.ext_getElem (by rw [List.length_map]; omega) fun j h1 h2 => ?_
    have hj : j < r.m[i].length := by rw [List.length_map] at h2; exact h2
    have := mapOut_get h j (by rw [upto_length]; omega) h1
    simp only [upto, List.getElem_map, List.getElem_range, Int.ofNat_eq_natCast] at this
    rw [get2_nat hi hj] at this
    simp only [Out.ok_bind, OInt.sprint, hk] at this
    obtain ⟨t, e1, this⟩ := Out.bind_eq_ok.mp this
    have e1 := (buffered_ok e1).1
    injection this with this
    rw [List.getElem_map, ← this, e1]
  rw [e]
  simp only [entries]
  generalize r.m[i] = l
  induction l with
  | nil => rfl
  | cons v l ih => simp [ih]

/-- The comments of a part, in the text of this part. -/
theorem part_comments {c : Cfg} (hv : c.Valid) (hnd : c.ndebug = false) {names : Names} {r : Part} {rest : Rel} (hf : PartFits c r)
    (h : Named c names r (r :: rest)) (hg : GoodNames names) (hr : isAccessPart r = true → ∀ q ∈ r :: rest, q.Valid c ∧ IntEntries q) {nb part : Nat}
    {l : List Str} (e : partPieces c nb part r rest names = .ok l) (i : Nat) (hi : i < r.m.length) :
    ∃ cm, IsAfter l.flatten r.m[i] cm ∧ Says r.m[i] (dimNames r names) (wordsOf names.arrays) cm := by
  unfold partPieces at e
  obtain ⟨strings, es, e⟩ := Out.bind_eq_ok.mp e
  obtain ⟨col, ec, e⟩ := Out.bind_eq_ok.mp e
  obtain ⟨rows, er, e⟩ := Out.bind_eq_ok.mp e
  obtain ⟨cm, e1, hs⟩ := row_comment_says hv hnd hf h hg hr es hi
  refine ⟨cm, ?_, hs⟩
  have hl := Out.mapOut_length er
  rw [upto_length] at hl
  have hrows := hf.valid.rows
  have hi' : i < rows.length := by omega
  have := mapOut_get er i (by rw [upto_length]; omega) hi'
  simp only [upto, List.getElem_map, List.getElem_range, Int.ofNat_eq_natCast] at this
  unfold rowPieces at this
  obtain ⟨cells, e2, this⟩ := Out.bind_eq_ok.mp this
  rw [e1] at this
  simp only [Out.ok_bind, Out.pure_eq] at this
  have hrow : rows[i].flatten = entries r.m[i] ++ (cm ++ ['\n']) := by
    injection this with this
    rw [← this, List.flatten_append, cells_entries hf.valid.prec hi (hf.valid.cols _ (List.getElem_mem hi)) e2]
    simp
  obtain ⟨a, b, eab⟩ := List.append_of_mem (List.getElem_mem hi')
  injection e with e
  generalize (if nb > 1 then ["# Union part No.".toList ++ showNat part ++ ['\n']] else []) = x at e
  refine ⟨x.flatten ++ (headerLine r ++ (col.flatten ++ a.flatten.flatten)), b.flatten.flatten, ?_⟩
  rw [← e, eab]
  simp only [List.flatten_append, List.flatten_cons, hrow, List.append_assoc, List.cons_append, List.nil_append]

/-- The comments of all parts. -/
theorem parts_comments {c : Cfg} (hv : c.Valid) (hnd : c.ndebug = false) {names : Names} (hg : GoodNames names) {nb : Nat} : ∀ (r : Rel) (part : Nat) (l : List Str),
    (∀ p ∈ r, PartFits c p) → (∀ ps ∈ suffixes r, Named c names ps.1 ps.2) → (r.any isAccessPart = true → ∀ q ∈ r, IntEntries q) →
    partsPieces c nb names part r = .ok l →
    ∀ p ∈ r, ∀ (i : Nat) (hi : i < p.m.length), ∃ cm, IsAfter l.flatten p.m[i] cm ∧ Says p.m[i] (dimNames p names) (wordsOf names.arrays) cm
  | [], _, _, _, _, _, _, p, hp, _, _ => by cases hp
  | q :: r, part, l, hf, h, hint, e, p, hp, i, hi => by
    simp only [partsPieces] at e
    obtain ⟨a, e1, e⟩ := Out.bind_eq_ok.mp e
    obtain ⟨b, e2, e⟩ := Out.bind_eq_ok.mp e
    cases e
    rw [List.flatten_append]
    rcases List.mem_cons.mp hp with rfl | hp'
    · obtain ⟨cm, h1, h2⟩ := part_comments hv hnd (hf p (by simp)) (h (p, p :: r) (by simp [suffixes])) hg
        (fun ha q hq => ⟨(hf q hq).valid, hint (List.any_eq_true.mpr ⟨p, by simp, ha⟩) q hq⟩) e1 i hi
      exact ⟨cm, isAfter_mono h1 [] b.flatten (by simp), h2⟩
    · obtain ⟨cm, h1, h2⟩ := parts_comments hv hnd hg r (part + 1) b (fun x hx => hf x (by simp [hx])) (fun x hx => h x (by simp [suffixes, hx]))
        (fun ha x hx => hint (by
          obtain ⟨y, hy, hy'⟩ := List.any_eq_true.mp ha
          exact List.any_eq_true.mpr ⟨y, by simp [hy], hy'⟩) x (by simp [hx])) e2 p hp' i hi
      exact ⟨cm, isAfter_mono h1 a.flatten [] (by simp), h2⟩

/-- C68: a relation is printed with names covering its dimensions, and the comment which follows the entries of each row says what the row says. -/
theorem relation_comments_say {c : Cfg} (hv : c.Valid) (hnd : c.ndebug = false) {names : Names} (hg : GoodNames names) {r : Rel}
    (hf : ∀ p ∈ r, PartFits c p) (h : ∀ ps ∈ suffixes r, Named c names ps.1 ps.2) (hint : r.any isAccessPart = true → ∀ q ∈ r, IntEntries q) :
    ∃ t, spprint c r (some names) = .ok t ∧
      ∀ p ∈ r, ∀ (i : Nat) (hi : i < p.m.length), ∃ cm, IsAfter t p.m[i] cm ∧ Says p.m[i] (dimNames p names) (wordsOf names.arrays) cm := by
  obtain ⟨t, e⟩ := relation_spprint_total hv hf h
  refine ⟨t, e, fun p hp i hi => ?_⟩
  cases r with
  | nil => cases hp
  | cons q r =>
    simp only [spprint, spprint_polylib, chooseNames, Out.ok_bind] at e
    obtain ⟨u, e1, e⟩ := Out.bind_eq_ok.mp e
    obtain ⟨l, e2, e1⟩ := Out.bind_eq_ok.mp e1
    rw [Util.emit_eq] at e1 e
    cases e1
    cases e
    obtain ⟨cm, h1, h2⟩ := parts_comments hv hnd hg (q :: r) 1 l hf h hint e2 p hp i hi
    exact ⟨cm, isAfter_mono h1 (sprint_type q.type ++ (['\n'] ++ (if (q :: r).length > 1 then
      ["# Union with ".toList ++ showNat (q :: r).length ++ " parts\n".toList ++ showNat (q :: r).length ++ ['\n']] else []).flatten)) [] (by simp), h2⟩

theorem generated_names {pre : Char} (h1 : isDigit pre = false) (h2 : pre ≠ '+') (h3 : pre ≠ '-') {n : Int} {s : Strings}
    (h : Strings.generate [pre] n = .ok s) : ∀ w ∈ wordsOf (some s), IsName w := by
  intro w hw
  have hw : w ∈ s.words := hw
  unfold Strings.generate at h
  split at h
  · cases h; simp [Strings.words] at hw
  · split at h
    · cases h
    · injection h with h
      subst h
      simp only [Strings.words, Option.getD_some, Strings.genLoop_eq, List.mem_map] at hw
      obtain ⟨k, _, rfl⟩ := hw
      have hn := showNat_noSign k
      refine ⟨by simp, fun ch hc => by cases hc; exact h1, ?_, ?_⟩
      · simp only [List.cons_append, List.nil_append, List.mem_cons, not_or]; exact ⟨Ne.symm h2, hn.1⟩
      · simp only [List.cons_append, List.nil_append, List.mem_cons, not_or]; exact ⟨Ne.symm h3, hn.2⟩

theorem generate_good {np ni ns nl na : Int} {n : Names} (h : Names.generate ['P'] np ['i'] ni ['c'] ns ['l'] nl ['A'] na = .ok n) : GoodNames n := by
  obtain ⟨sa, h1, h⟩ := Out.bind_eq_ok.mp h
  obtain ⟨sb, h2, h⟩ := Out.bind_eq_ok.mp h
  obtain ⟨sc, h3, h⟩ := Out.bind_eq_ok.mp h
  obtain ⟨sd, h4, h⟩ := Out.bind_eq_ok.mp h
  obtain ⟨se, h5, h⟩ := Out.bind_eq_ok.mp h
  cases h
  exact ⟨generated_names (by decide) (by decide) (by decide) h2, generated_names (by decide) (by decide) (by decide) h3,
    generated_names (by decide) (by decide) (by decide) h4, generated_names (by decide) (by decide) (by decide) h1⟩

/-- C68: the same with the names which `osl_relation_sprint` generates. -/
theorem relation_sprint_comments_say {c : Cfg} (hv : c.Valid) (hnd : c.ndebug = false) {r : Rel} (hne : r ≠ [])
    (hf : ∀ p ∈ r, PartFits c p) (ht : Typed r) :
    ∃ names t, relation_names c r = .ok names ∧ sprint c r = .ok t ∧
      ∀ p ∈ r, ∀ (i : Nat) (hi : i < p.m.length), ∃ cm, IsAfter t p.m[i] cm ∧ Says p.m[i] (dimNames p names) (wordsOf names.arrays) cm := by
  obtain ⟨names, e, h⟩ := relation_names_cover hv hnd hne hf ht
  have hg : GoodNames names := by
    have e' := e
    unfold relation_names at e'
    obtain ⟨a, _, e'⟩ := Out.bind_eq_ok.mp e'
    exact generate_good e'
  obtain ⟨t, e1, h1⟩ := relation_comments_say hv hnd hg hf h fun ha q hq => ((ht.access ha).1 q hq).2
  refine ⟨names, t, e, ?_, h1⟩
  rw [← e1]
  unfold sprint
  cases r with
  | nil => exact absurd rfl hne
  | cons p r =>
    simp only [spprint, spprint_polylib, chooseNames]
    rw [e]

end Rel
end Osl
