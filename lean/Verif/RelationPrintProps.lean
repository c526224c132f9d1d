import Verif.RelationTextProps
import Verif.RelationProps6
/-!
# Printing a relation succeeds (C59)

`osl_relation_spprint` builds the comment of each row in buffers of OSL_MAX_STRING bytes, and the column comment in another one.
Here: a bound on the rows under which no buffer overflows, whatever the shape of the relation, the names covering its dimensions;
the names which `osl_relation_names` generates cover them, except for access relations without an array identifier, for which
the printer writes out of bounds.
-/

namespace Osl
namespace Rel

/-- The room which the entries of a row may need in the buffers of the comments: each of them is written with a sign, a name of
at most 12 characters and a `*`. -/
def rowWidth (row : List Int) : Nat := (row.map fun v => (showInt v).length + 15).sum

theorem rowWidth_cons (v : Int) (row : List Int) : rowWidth (v :: row) = (showInt v).length + 15 + rowWidth row := by
  simp [rowWidth]

theorem rowWidth_drop (row : List Int) (i : Nat) (h : i < row.length) : rowWidth (row.drop i) = (showInt row[i]).length + 15 + rowWidth (row.drop (i + 1)) := by
  rw [List.drop_eq_getElem_cons h, rowWidth_cons]

theorem rowWidth_drop_le (row : List Int) (i : Nat) : rowWidth (row.drop i) ≤ rowWidth row := by
  induction row generalizing i with
  | nil => simp
  | cons v row ih =>
    cases i with
    | zero => simp
    | succ i => rw [List.drop_succ_cons, rowWidth_cons]; have := ih i; omega

theorem rowWidth_length (row : List Int) : 16 * row.length ≤ rowWidth row := by
  induction row with
  | nil => simp [rowWidth]
  | cons v row ih =>
    rw [rowWidth_cons]
    have : 0 < (showInt v).length := List.length_pos_iff.mpr (showInt_ne_nil v)
    simp only [List.length_cons]; omega

/-- What is required of one part, names apart: its matrix has the declared size, its dimensions account for its columns, its
attributes are C integers, no entry is the least integer of the precision (the printer opposes them), and its rows are not too
wide for the buffers. -/
structure PartFits (c : Cfg) (p : Part) : Prop where
  valid : p.Valid c
  dims : p.Dims
  small : Part.Small p
  notMin : ∀ row ∈ p.m, ∀ a ∈ row, ¬ OInt.IsMin c p.precision a
  width : ∀ row ∈ p.m, rowWidth row < MAX_STRING

/-- There are at least `n` names, of at most 12 characters. -/
def Enough (s : Option Strings) (n : Int) : Prop :=
  0 < n → ∃ l, s = some { string := some l } ∧ n ≤ (l.length : Int) ∧ ∀ w ∈ l, w.length ≤ 12

/-- The names cover the dimensions of the part `p` of the union `u` (which starts with `p`). -/
structure Named (c : Cfg) (names : Names) (p : Part) (u : Rel) : Prop where
  domain : p.type = TYPE_DOMAIN ∨ p.type = TYPE_CONTEXT → Enough names.iterators p.nb_output_dims
  scatt : isAccessPart p = false → p.type ≠ TYPE_DOMAIN → p.type ≠ TYPE_CONTEXT → Enough names.scatt_dims p.nb_output_dims
  iters : Enough names.iterators p.nb_input_dims
  locals : Enough names.local_dims p.nb_local_dims
  params : Enough names.parameters p.nb_parameters
  arrays : names.arrays ≠ none
  array : isAccessPart p = true → ∃ id, get_array_id c u = .ok id ∧ 1 ≤ id ∧ Enough names.arrays id

theorem nameAt_enough {s : Option Strings} {n i : Int} (h : Enough s n) (h0 : 0 ≤ i) (h1 : i < n) : ∃ w, nameAt s i = .ok w ∧ w.length ≤ 12 := by
  obtain ⟨l, rfl, h2, h3⟩ := h (by omega)
  have hi : i.toNat < l.length := by omega
  refine ⟨l[i.toNat], ?_, h3 _ (List.getElem_mem hi)⟩
  unfold nameAt
  simp only [List.getElem?_eq_getElem hi]

theorem mem_upto {n i : Int} (h : i ∈ upto n) : 0 ≤ i ∧ i < n := by
  unfold upto at h
  obtain ⟨k, hk, rfl⟩ := List.mem_map.mp h
  have := List.mem_range.mp hk
  simp only [Int.ofNat_eq_natCast]; omega

theorem upto_length (n : Int) : (upto n).length = n.toNat := by simp [upto]

/-- A loop which never fails. -/
theorem mapOut_total {α β : Type} {f : α → Out β} {P : β → Prop} : ∀ {l : List α}, (∀ a ∈ l, ∃ b, f a = .ok b ∧ P b) →
    ∃ r, Out.mapOut f l = .ok r ∧ r.length = l.length ∧ ∀ b ∈ r, P b
  | [], _ => ⟨[], rfl, rfl, by simp⟩
  | a :: l, h => by
    obtain ⟨b, e1, h1⟩ := h a (by simp)
    obtain ⟨r, e2, h2, h3⟩ := mapOut_total (l := l) fun x hx => h x (by simp [hx])
    refine ⟨b :: r, Out.mapOut_cons_eq_ok.mpr ⟨b, r, e1, e2, rfl⟩, by simp [h2], ?_⟩
    intro x hx
    rcases List.mem_cons.mp hx with rfl | hx
    · exact h1
    · exact h3 x hx

theorem names_total {s : Option Strings} {n : Int} (h : Enough s n) :
    ∃ l, Out.mapOut (nameAt s) (upto n) = .ok l ∧ l.length = n.toNat ∧ ∀ w ∈ l, w.length ≤ 12 := by
  obtain ⟨l, e, h1, h2⟩ := mapOut_total (f := nameAt s) (P := fun w => w.length ≤ 12) (l := upto n)
    fun i hi => nameAt_enough h (mem_upto hi).1 (mem_upto hi).2
  exact ⟨l, e, by rw [h1, upto_length], h2⟩

theorem outputNames_total {c : Cfg} {names : Names} {p : Part} {u : Rel} (h : Named c names p u) (hs : fits 32 p.nb_output_dims) :
    ∃ l, outputNames p names = .ok l ∧ l.length = p.nb_output_dims.toNat ∧ ∀ w ∈ l, w.length ≤ 12 := by
  unfold outputNames
  by_cases ha : isAccessPart p = true
  · rw [if_pos ha]
    refine ⟨_, rfl, by simp [upto_length], ?_⟩
    intro w hw
    obtain ⟨i, hi, rfl⟩ := List.mem_map.mp hw
    have hb := mem_upto hi
    split
    · simp
    · have : i.natAbs < 10 ^ (9 + 1) := by unfold fits cMax at hs; simp at hs; omega
      have := Util.showNat_length_le i.natAbs 9 this
      simp only [showInt, if_neg (show ¬ i < 0 by omega)]
      simp; omega
  · rw [if_neg ha]
    by_cases hd : p.type = TYPE_DOMAIN ∨ p.type = TYPE_CONTEXT
    · rw [if_pos hd]; exact names_total (h.domain hd)
    · rw [if_neg hd]
      exact names_total (h.scatt (by simpa using ha) (fun e => hd (.inl e)) (fun e => hd (.inr e)))

theorem relation_strings_total {c : Cfg} {names : Names} {p : Part} {u : Rel} (hf : PartFits c p) (h : Named c names p u) :
    ∃ l, relation_strings p names = .ok l ∧ (l.length : Int) = p.nb_columns ∧ ∀ w ∈ l, w.length ≤ 12 := by
  obtain ⟨l1, e1, n1, w1⟩ := outputNames_total h hf.small.2.2.1
  obtain ⟨l2, e2, n2, w2⟩ := names_total h.iters
  obtain ⟨l3, e3, n3, w3⟩ := names_total h.locals
  obtain ⟨l4, e4, n4, w4⟩ := names_total h.params
  refine ⟨"e/i".toList :: l1 ++ l2 ++ l3 ++ l4 ++ [['1']], ?_, ?_, ?_⟩
  · unfold relation_strings
    rw [if_pos hf.dims, e1, e2, e3, e4]
    rfl
  · have := hf.dims
    unfold Part.Dims at this
    simp only [List.length_append, List.length_cons, List.length_nil, n1, n2, n3, n4]
    omega
  · intro w hw
    simp only [List.cons_append, List.mem_cons, List.mem_append, List.not_mem_nil, or_false] at hw
    rcases hw with rfl | (((hw | hw) | hw) | hw) | rfl
    · decide
    · exact w1 w hw
    · exact w2 w hw
    · exact w3 w hw
    · exact w4 w hw
    · decide

theorem buffered_lt {s : Str} (h : s.length < MAX_STRING) : buffered s = .ok s := by unfold buffered; rw [if_pos h]

theorem expression_element_total {c : Cfg} {p v : Int} (hk : kind c p ≠ none) (first cst : Bool) {name : Str} (hn : name.length ≤ 12)
    (hl : (showInt v).length + 14 < MAX_STRING) :
    ∃ r, expression_element c p v first cst name = .ok r ∧ r.1.length ≤ (showInt v).length + 14 := by
  obtain ⟨k, hk'⟩ := Option.ne_none_iff_exists'.mp hk
  have b1 : buffered name = .ok name := buffered_lt (by omega)
  have b2 : buffered ('-' :: name) = .ok ('-' :: name) := buffered_lt (by simp only [List.length_cons]; omega)
  have b3 : buffered (showInt v ++ '*' :: name) = .ok (showInt v ++ '*' :: name) := buffered_lt (by simp only [List.length_append, List.length_cons]; omega)
  have b4 : buffered ('+' :: name) = .ok ('+' :: name) := buffered_lt (by simp only [List.length_cons]; omega)
  have b5 : buffered ('+' :: showInt v ++ '*' :: name) = .ok ('+' :: showInt v ++ '*' :: name) := buffered_lt (by simp only [List.length_append, List.length_cons]; omega)
  have b6 : buffered (showInt v) = .ok (showInt v) := buffered_lt (by omega)
  have b7 : buffered ('+' :: showInt v) = .ok ('+' :: showInt v) := buffered_lt (by simp only [List.length_cons]; omega)
  unfold expression_element
  simp only [OInt.zero, OInt.neg, OInt.one, OInt.mone, OInt.sprint_txt, OInt.pos, hk', Out.ok_bind, b1, b2, b3, b4, b5, b6, b7, Out.pure_eq]
  repeat' split
  all_goals (refine ⟨_, rfl, ?_⟩; simp only [List.length_append, List.length_cons, List.length_nil]; omega)

theorem showInt_neg_length (v : Int) : (showInt (-v)).length ≤ (showInt v).length + 1 := by
  simp only [showInt, Int.natAbs_neg]
  repeat' split
  all_goals (try simp only [List.length_cons])
  all_goals omega

theorem get2_nat {m : Matrix} {i j : Nat} (hi : i < m.length) (hj : j < m[i].length) : get2 m i j = .ok m[i][j] := by
  unfold get2
  rw [if_neg (by omega)]
  simp only [Int.toNat_natCast, List.getElem?_eq_getElem hi, List.getElem?_eq_getElem hj]

theorem strAt_total {strings : List Str} {j : Nat} (h : j < strings.length) (hs : ∀ w ∈ strings, w.length ≤ 12) :
    ∃ w, strAt strings (j : Int) = .ok w ∧ w.length ≤ 12 := by
  refine ⟨strings[j], ?_, hs _ (List.getElem_mem h)⟩
  unfold strAt
  simp only [Int.toNat_natCast, List.getElem?_eq_getElem h]

/-- The body of the loop of `osl_relation_subexpression`. -/
def subBody (c : Cfg) (r : Part) (row : Int) (op : Bool) (strings : List Str) (i : Int) (s : Str × Bool) : Out (Str × Bool) := do
  let v ← get2 r.m row i
  let v ← if op then OInt.oppose c r.precision v else .ok v
  let name ← strAt strings i
  let (t, first) ← expression_element c r.precision v s.2 (decide (i = r.nb_columns - 1)) name
  let line ← buffered (s.1 ++ t)
  return (line, first)

theorem subexpression_eq (c : Cfg) (r : Part) (row start stop : Int) (op : Bool) (strings : List Str) :
    subexpression c r row start stop op strings = (loop start (stop + 1) (subBody c r row op strings) ([], true)).bind fun s => .ok s.1 := rfl

theorem subBody_total {c : Cfg} (hv : c.Valid) {r : Part} (hf : PartFits c r) {i j : Nat} (hi : i < r.m.length) (hj : j < r.m[i].length) (op : Bool)
    {strings : List Str} (hn : (strings.length : Int) = r.nb_columns) (hs : ∀ w ∈ strings, w.length ≤ 12) {s : Str × Bool}
    (hw : s.1.length + ((showInt r.m[i][j]).length + 15) < MAX_STRING) :
    ∃ s', subBody c r i op strings j s = .ok s' ∧ s'.1.length ≤ s.1.length + ((showInt r.m[i][j]).length + 15) := by
  have hc := hf.valid.cols r.m[i] (List.getElem_mem hi)
  obtain ⟨name, e1, h1⟩ := strAt_total (strings := strings) (j := j) (by omega) hs
  have key : ∀ v : Int, (showInt v).length ≤ (showInt r.m[i][j]).length + 1 → ∃ s', (do
      let name ← strAt strings (j : Int)
      let (t, first) ← expression_element c r.precision v s.2 (decide ((j : Int) = r.nb_columns - 1)) name
      let line ← buffered (s.1 ++ t)
      return (line, first) : Out (Str × Bool)) = .ok s' ∧ s'.1.length ≤ s.1.length + ((showInt r.m[i][j]).length + 15) := by
    intro v hl
    obtain ⟨⟨t, f⟩, e2, h2⟩ := expression_element_total (v := v) hf.valid.prec s.2 (decide ((j : Int) = r.nb_columns - 1)) h1 (by omega)
    dsimp only at h2
    rw [e1]
    simp only [Out.ok_bind]
    rw [e2]
    simp only [Out.ok_bind]
    rw [buffered_lt (by simp only [List.length_append]; omega)]
    refine ⟨_, rfl, ?_⟩
    simp only [List.length_append]; omega
  unfold subBody
  rw [get2_nat hi hj]
  simp only [Out.ok_bind]
  cases op with
  | false => exact key _ (by omega)
  | true =>
    have := (OInt.int_oppose_abs_correct hv (hf.valid.ents _ (List.getElem_mem hi) _ (List.getElem_mem hj))
      (hf.notMin _ (List.getElem_mem hi) _ (List.getElem_mem hj))).1
    simp only [if_true]
    rw [this]
    exact key _ (showInt_neg_length _)

theorem subLoop_total {c : Cfg} (hv : c.Valid) {r : Part} (hf : PartFits c r) {i : Nat} (hi : i < r.m.length) (op : Bool)
    {strings : List Str} (hn : (strings.length : Int) = r.nb_columns) (hs : ∀ w ∈ strings, w.length ≤ 12) :
    ∀ (n j : Nat) (s : Str × Bool), j + n ≤ r.m[i].length → s.1.length + rowWidth (r.m[i].drop j) < MAX_STRING →
    ∃ s', loopN (subBody c r i op strings) n j s = .ok s' ∧ s'.1.length + rowWidth (r.m[i].drop (j + n)) ≤ s.1.length + rowWidth (r.m[i].drop j) := by
  intro n
  induction n with
  | zero => intro j s _ _; exact ⟨s, rfl, Nat.le_refl _⟩
  | succ n ih =>
    intro j s hj hw
    have hj' : j < r.m[i].length := by omega
    have hd := rowWidth_drop r.m[i] j hj'
    obtain ⟨s1, e1, h1⟩ := subBody_total hv hf hi hj' op hn hs (s := s) (by omega)
    obtain ⟨s2, e2, h2⟩ := ih (j + 1) s1 (by omega) (by omega)
    refine ⟨s2, ?_, ?_⟩
    · simp only [loopN]
      rw [e1]
      exact e2
    · rw [show j + (n + 1) = j + 1 + n by omega]; omega

/-- The text of the columns from `start` to `stop` fits in the buffer, and takes at most the room of these columns. -/
theorem subexpression_total {c : Cfg} (hv : c.Valid) {r : Part} (hf : PartFits c r) {i : Nat} (hi : i < r.m.length) (op : Bool)
    {strings : List Str} (hn : (strings.length : Int) = r.nb_columns) (hs : ∀ w ∈ strings, w.length ≤ 12) {start stop : Int} (h1 : 0 ≤ start)
    (h2 : start ≤ stop + 1) (h3 : stop < r.nb_columns) :
    ∃ t, subexpression c r i start stop op strings = .ok t ∧
      t.length + rowWidth (r.m[i].drop (stop + 1).toNat) ≤ rowWidth (r.m[i].drop start.toNat) := by
  have hc := hf.valid.cols r.m[i] (List.getElem_mem hi)
  have hw := hf.width r.m[i] (List.getElem_mem hi)
  have := rowWidth_drop_le r.m[i] start.toNat
  obtain ⟨s, e, h⟩ := subLoop_total hv hf hi op hn hs (stop + 1 - start).toNat start.toNat ([], true) (by omega) (by simp only [List.length_nil]; omega)
  refine ⟨s.1, ?_, ?_⟩
  · rw [subexpression_eq]
    unfold loop
    rw [show ((start.toNat : Nat) : Int) = start by omega] at e
    rw [e]
    rfl
  · rw [show start.toNat + (stop + 1 - start).toNat = (stop + 1).toNat by omega] at h
    simp only [List.length_nil] at h
    omega

theorem simpleLoop_total {c : Cfg} {r : Part} (hf : PartFits c r) {i : Nat} (hi : i < r.m.length) :
    ∀ (n j : Nat) (first : Bool) (sign : Int), j + n ≤ r.m[i].length → ∃ s, simpleLoop c r i n j first sign = .ok s := by
  obtain ⟨k, hk⟩ := Option.ne_none_iff_exists'.mp hf.valid.prec
  intro n
  induction n with
  | zero => intro j first sign _; exact ⟨sign, rfl⟩
  | succ n ih =>
    intro j first sign h
    simp only [simpleLoop]
    rw [get2_nat hi (by omega : j < r.m[i].length)]
    simp only [OInt.zero, OInt.one, OInt.mone, hk]
    repeat' split
    all_goals first | exact ⟨_, rfl⟩ | exact ih (j + 1) _ _ (by omega)

theorem is_simple_output_total {c : Cfg} {r : Part} (hf : PartFits c r) {i : Nat} (hi : i < r.m.length) : ∃ s, is_simple_output c r i = .ok s := by
  have hc := hf.valid.cols r.m[i] (List.getElem_mem hi)
  have hd := hf.dims
  unfold Part.Dims at hd
  obtain ⟨k, hk⟩ := Option.ne_none_iff_exists'.mp hf.valid.prec
  unfold is_simple_output
  by_cases h0 : r.nb_output_dims = 0
  · rw [if_pos h0]; exact ⟨_, rfl⟩
  rw [if_neg h0, if_neg (by have := hf.valid.rows; omega)]
  rw [show (0 : Int) = ((0 : Nat) : Int) from rfl, get2_nat hi (by omega : 0 < r.m[i].length)]
  simp only [Out.ok_bind, OInt.zero, hk]
  split
  · exact ⟨_, rfl⟩
  · exact simpleLoop_total hf hi r.nb_output_dims.toNat 1 true _ (by omega)

theorem truncated_length (s : Str) : (truncated s).length ≤ s.length := by unfold truncated; simp only [List.length_take]; omega

theorem sprint_comment_total {c : Cfg} (hv : c.Valid) {names : Names} {r : Part} {rest : Rel} (hf : PartFits c r) (h : Named c names r (r :: rest))
    {i : Nat} (hi : i < r.m.length) {strings : List Str} (hn : (strings.length : Int) = r.nb_columns) (hs : ∀ w ∈ strings, w.length ≤ 12) :
    ∃ t, rowComment c r rest i strings names = .ok t ∧ t.length ≤ rowWidth r.m[i] + 10 := by
  have hc := hf.valid.cols r.m[i] (List.getElem_mem hi)
  have hd := hf.dims
  unfold Part.Dims at hd
  obtain ⟨k, hk⟩ := Option.ne_none_iff_exists'.mp hf.valid.prec
  obtain ⟨sign, e0⟩ := is_simple_output_total hf hi
  cases ha : names.arrays with
  | none => exact absurd ha h.arrays
  | some a =>
    have er : rowComment c r rest i strings names = sprint_comment c r rest i strings (some a) := by unfold rowComment; rw [ha]
    rw [er]
    unfold sprint_comment
    rw [e0]
    simp only [Out.ok_bind]
    by_cases hz : sign ≠ 0
    · rw [if_pos hz]
      obtain ⟨t1, e1, h1⟩ := subexpression_total hv hf hi (decide (sign < 0)) hn hs (start := 1) (stop := r.nb_output_dims) (by omega) (by omega) (by omega)
      rw [e1]
      simp only [Out.ok_bind]
      have g1 : get2 r.m i 1 = .ok (r.m[i][1]'(by omega)) := get2_nat (j := 1) hi (by omega)
      rw [g1]
      simp only [Out.ok_bind, OInt.zero, hk]
      have d1 := rowWidth_drop_le r.m[i] 1
      have d2 := rowWidth_length (r.m[i].drop (r.nb_output_dims + 1).toNat)
      simp only [List.length_drop] at d2
      simp only [show (1 : Int).toNat = 1 from rfl] at h1
      split
      · obtain ⟨t2, e2, h2⟩ := subexpression_total hv hf hi (decide (sign > 0)) hn hs (start := r.nb_output_dims + 1) (stop := r.nb_columns - 1) (by omega) (by omega) (by omega)
        rw [e2]
        simp only [Out.ok_bind, Util.emit_eq]
        refine ⟨_, rfl, ?_⟩
        have l1 := truncated_length ("   ## ".toList ++ t1)
        have l2 := truncated_length (" == ".toList ++ t2)
        simp only [List.flatten_cons, List.flatten_nil, List.length_append, List.length_nil] at l1 l2 ⊢
        simp only [show "   ## ".toList.length = 6 from rfl, show " == ".toList.length = 4 from rfl] at l1 l2
        omega
      · next hacc =>
        have hacc' : isAccessPart r = true := by
          cases hb : isAccessPart r with
          | true => rfl
          | false => rw [hb] at hacc; simp at hacc
        obtain ⟨id, e2, h2, h3⟩ := h.array hacc'
        rw [ha] at h3
        obtain ⟨w, e3, h4⟩ := nameAt_enough h3 (i := id - 1) (by omega) (by omega)
        rw [e2]
        simp only [Out.ok_bind]
        rw [if_neg (by omega), e3]
        simp only [Out.ok_bind, Util.emit_eq]
        refine ⟨_, rfl, ?_⟩
        have l1 := truncated_length ("   ## ".toList ++ t1)
        have l2 := truncated_length (" == ".toList ++ w)
        simp only [List.flatten_cons, List.flatten_nil, List.length_append, List.length_nil] at l1 l2 ⊢
        simp only [show "   ## ".toList.length = 6 from rfl, show " == ".toList.length = 4 from rfl] at l1 l2
        omega
    · rw [if_neg hz]
      obtain ⟨t1, e1, h1⟩ := subexpression_total hv hf hi false hn hs (start := 1) (stop := r.nb_columns - 1) (by omega) (by omega) (by omega)
      unfold expression
      rw [e1]
      have g1 : get2 r.m i 0 = .ok (r.m[i][0]'(by omega)) := get2_nat (j := 0) hi (by omega)
      rw [g1]
      simp only [Out.ok_bind, OInt.zero, hk, Util.emit_eq]
      refine ⟨_, rfl, ?_⟩
      have d1 := rowWidth_drop_le r.m[i] 1
      simp only [show (1 : Int).toNat = 1 from rfl] at h1
      have l1 := truncated_length ("   ## ".toList ++ t1)
      have l2 : (if decide (r.m[i][0]'(by omega) = 0) = true then " == 0".toList else " >= 0".toList).length = 5 := by split <;> rfl
      simp only [List.flatten_cons, List.flatten_nil, List.length_append, List.length_nil, l2] at l1 ⊢
      simp only [show "   ## ".toList.length = 6 from rfl] at l1
      have hp : 15 ≤ rowWidth r.m[i] - rowWidth (r.m[i].drop 1) := by
        have := rowWidth_drop r.m[i] 0 (by omega)
        simp only [List.drop_zero, Nat.zero_add] at this
        omega
      omega

theorem rowPieces_total {c : Cfg} (hv : c.Valid) {names : Names} {r : Part} {rest : Rel} (hf : PartFits c r) (h : Named c names r (r :: rest))
    {i : Nat} (hi : i < r.m.length) {strings : List Str} (hn : (strings.length : Int) = r.nb_columns) (hs : ∀ w ∈ strings, w.length ≤ 12) :
    ∃ l, rowPieces c r rest strings names i = .ok l := by
  have hc := hf.valid.cols r.m[i] (List.getElem_mem hi)
  obtain ⟨k, hk⟩ := Option.ne_none_iff_exists'.mp hf.valid.prec
  obtain ⟨t, e1, _⟩ := sprint_comment_total hv hf h hi hn hs
  obtain ⟨cells, e2, _⟩ := mapOut_total (P := fun _ => True) (l := upto r.nb_columns) (f := fun j => (do
    let v ← get2 r.m i j
    let t ← OInt.sprint c r.precision v
    let t ← buffered t
    return [t, [' ']] : Out (List Str))) (by
      intro j hj
      have hb := mem_upto hj
      have hj' : j.toNat < r.m[i].length := by omega
      have g : get2 r.m i j = .ok (r.m[i][j.toNat]) := by
        have := get2_nat hi hj'
        rwa [show ((j.toNat : Nat) : Int) = j by omega] at this
      have hw := hf.width r.m[i] (List.getElem_mem hi)
      have hd := rowWidth_drop r.m[i] j.toNat hj'
      have hl := rowWidth_drop_le r.m[i] j.toNat
      rw [g]
      simp only [Out.ok_bind, OInt.sprint, hk]
      rw [buffered_lt (by simp only [padLeft, List.length_append, List.length_replicate]; omega)]
      exact ⟨_, rfl, trivial⟩)
  unfold rowPieces
  rw [e2]
  simp only [Out.ok_bind]
  rw [e1]
  exact ⟨_, rfl⟩

theorem columnName_length {s : Str} : (columnName s).length ≤ 4 := by
  unfold columnName
  simp only [List.length_append, List.length_replicate, List.length_take]
  split
  · simp only [List.length_take, List.length_drop]; omega
  · simp only [List.length_cons, List.length_nil]; omega

theorem columns_length (r : Part) : ∀ (l : List Str) (i : Int), (columns r l i).length ≤ 5 * l.length
  | [], _ => by simp [columns]
  | s :: ss, i => by
    simp only [columns, List.length_append, List.length_cons]
    have := columns_length r ss (i + 1)
    have := columnName_length (s := s)
    omega

theorem partPieces_total {c : Cfg} (hv : c.Valid) {names : Names} {r : Part} {rest : Rel} (hf : PartFits c r) (h : Named c names r (r :: rest))
    (nb part : Nat) : ∃ l, partPieces c nb part r rest names = .ok l := by
  obtain ⟨strings, e1, hn, hs⟩ := relation_strings_total hf h
  have hrows := hf.valid.rows
  have e2 : ∃ l, columnPieces r strings = .ok l := by
    unfold columnPieces
    by_cases h0 : r.nb_rows > 0
    · rw [if_pos h0]
      have hi : 0 < r.m.length := by omega
      have hc := hf.valid.cols r.m[0] (List.getElem_mem hi)
      have hw := hf.width r.m[0] (List.getElem_mem hi)
      have := rowWidth_length r.m[0]
      have := columns_length r strings 0
      unfold column_string
      rw [buffered_lt (by
        simp only [List.length_append, List.length_cons, List.length_nil]
        have : MAX_STRING = 2048 := rfl
        omega)]
      exact ⟨_, rfl⟩
    · rw [if_neg h0]; exact ⟨_, rfl⟩
  obtain ⟨cs, e2⟩ := e2
  obtain ⟨rows, e3, _⟩ := mapOut_total (P := fun _ => True) (f := rowPieces c r rest strings names) (l := upto r.nb_rows) (by
    intro i hi
    have hb := mem_upto hi
    obtain ⟨l, e⟩ := rowPieces_total hv hf h (i := i.toNat) (by omega) hn hs
    rw [show ((i.toNat : Nat) : Int) = i by omega] at e
    exact ⟨l, e, trivial⟩)
  unfold partPieces
  rw [e1]
  simp only [Out.ok_bind]
  rw [e2]
  simp only [Out.ok_bind]
  rw [e3]
  exact ⟨_, rfl⟩

theorem partsPieces_total {c : Cfg} (hv : c.Valid) {names : Names} (nb : Nat) : ∀ (r : Rel) (part : Nat), (∀ p ∈ r, PartFits c p) →
    (∀ ps ∈ suffixes r, Named c names ps.1 ps.2) → ∃ l, partsPieces c nb names part r = .ok l
  | [], _, _, _ => ⟨_, rfl⟩
  | p :: r, part, hf, h => by
    obtain ⟨a, e1⟩ := partPieces_total hv (hf p (by simp)) (h (p, p :: r) (by simp [suffixes])) nb part
    obtain ⟨b, e2⟩ := partsPieces_total hv nb r (part + 1) (fun q hq => hf q (by simp [hq])) (fun q hq => h q (by simp [suffixes, hq]))
    simp only [partsPieces]
    rw [e1, e2]
    exact ⟨_, rfl⟩

/-- C59: with names for all its dimensions, a relation which rows are not too wide is printed without overflowing any buffer. -/
theorem relation_spprint_total {c : Cfg} (hv : c.Valid) {names : Names} {r : Rel} (hf : ∀ p ∈ r, PartFits c p)
    (h : ∀ ps ∈ suffixes r, Named c names ps.1 ps.2) : ∃ t, spprint c r (some names) = .ok t := by
  cases r with
  | nil => simp only [spprint, Util.emit_eq]; exact ⟨_, rfl⟩
  | cons p r =>
    obtain ⟨l, e⟩ := partsPieces_total hv (p :: r).length (p :: r) 1 hf h
    simp only [spprint, spprint_polylib, chooseNames, Out.ok_bind]
    rw [e]
    simp only [Out.ok_bind, Util.emit_eq]
    exact ⟨_, rfl⟩

/-! ## The generated names -/

/-- What the printer requires, besides `PartFits`, to generate the names of the dimensions: a context has no iterator, a domain
has no more input than output dimensions; if there is an access, all parts are accesses to the same array. -/
structure Typed (r : Rel) : Prop where
  context : ∀ p ∈ r, p.type = TYPE_CONTEXT → p.nb_output_dims = 0 ∧ p.nb_input_dims = 0
  domain : ∀ p ∈ r, p.type = TYPE_DOMAIN → p.nb_input_dims ≤ p.nb_output_dims
  access : r.any isAccessPart = true → (∀ p ∈ r, isAccessPart p = true ∧ IntEntries p) ∧ ∃ k, 0 < k ∧ k < 2 ^ 31 - 1 ∧ ∀ p ∈ r, FixesFirst p k

theorem suffixes_mem {r : Rel} {ps : Part × Rel} (h : ps ∈ suffixes r) : ps.1 ∈ r ∧ (∃ rest, ps.2 = ps.1 :: rest) ∧ ∀ q ∈ ps.2, q ∈ r := by
  induction r with
  | nil => simp [suffixes] at h
  | cons p r ih =>
    simp only [suffixes, List.mem_cons] at h
    rcases h with rfl | h
    · exact ⟨by simp, ⟨r, rfl⟩, fun q hq => hq⟩
    · obtain ⟨h1, h2, h3⟩ := ih h
      exact ⟨by simp [h1], h2, fun q hq => by simp [h3 q hq]⟩

theorem generate_enough {pre : Str} (hp : pre.length = 1) {n : Int} (h0 : 0 ≤ n) (h1 : n < 2 ^ 31 - 1) :
    ∃ s, Strings.generate pre n = .ok s ∧ ∀ m, m ≤ n → Enough (some s) m := by
  obtain ⟨s, e, hw⟩ := Strings.strings_generate_correct pre n.toNat (by omega)
  rw [show ((n.toNat : Nat) : Int) = n by omega] at e
  refine ⟨s, e, fun m hm h2 => ?_⟩
  cases s with
  | mk o =>
    cases o with
    | none =>
      have hl := congrArg List.length hw
      simp [Strings.words] at hl
      omega
    | some l =>
      simp only [Strings.words, Option.getD_some] at hw
      refine ⟨l, rfl, by rw [hw]; simp; omega, ?_⟩
      intro w hw'
      rw [hw] at hw'
      obtain ⟨k, hk, rfl⟩ := List.mem_map.mp hw'
      have hk := List.mem_range'_1.mp hk
      have := Util.showNat_length_le k 9 (by omega)
      simp only [List.length_append]; omega

theorem isAccess_types {p : Part} (h : p.type = TYPE_DOMAIN ∨ p.type = TYPE_CONTEXT) : isAccessPart p = false := by
  cases hb : isAccessPart p with
  | false => rfl
  | true =>
    have := (isAccessPart_iff p).mp hb
    rcases h with h | h <;> (rw [h] at this; exact absurd this (by decide))

theorem localAttrs_cases {c : Cfg} {p : Part} {u : Rel} {l : Attrs} (h : localAttrs c p u = .ok l) :
    l.nb_parameters = p.nb_parameters ∧ l.nb_localdims = p.nb_local_dims ∧
    (p.type = TYPE_CONTEXT → l.nb_iterators = 0 ∧ l.nb_scattdims = 0 ∧ l.array_id = 0) ∧
    (p.type = TYPE_DOMAIN → l.nb_iterators = p.nb_output_dims ∧ l.nb_scattdims = 0 ∧ l.array_id = 0) ∧
    (isAccessPart p = true → l.nb_iterators = p.nb_input_dims ∧ l.nb_scattdims = 0 ∧ get_array_id c u = .ok l.array_id) ∧
    (isAccessPart p = false → p.type ≠ TYPE_CONTEXT → p.type ≠ TYPE_DOMAIN → l.nb_iterators = p.nb_input_dims ∧ l.nb_scattdims = p.nb_output_dims ∧ l.array_id = 0) := by
  unfold localAttrs at h
  by_cases ha : isAccessPart p = true
  · have hc : p.type ≠ TYPE_CONTEXT := fun e => by rw [isAccess_types (.inr e)] at ha; cases ha
    have hd : p.type ≠ TYPE_DOMAIN := fun e => by rw [isAccess_types (.inl e)] at ha; cases ha
    simp only [ha, if_true] at h
    rw [if_neg (by decide), if_neg (by decide), if_neg (by decide)] at h
    obtain ⟨id, e, h⟩ := Out.bind_eq_ok.mp h
    cases h
    exact ⟨rfl, rfl, fun x => absurd x hc, fun x => absurd x hd, fun _ => ⟨rfl, rfl, e⟩, fun x => by rw [ha] at x; cases x⟩
  · have ha' : isAccessPart p = false := by simpa using ha
    simp only [ha', Bool.false_eq_true, if_false] at h
    have hacc : p.type ≠ TYPE_ACCESS := fun e => ha ((isAccessPart_iff p).mpr (.inl e))
    by_cases h1 : p.type = TYPE_CONTEXT
    · rw [if_pos h1] at h; cases h
      exact ⟨rfl, rfl, fun _ => ⟨rfl, rfl, rfl⟩, fun x => by rw [h1] at x; exact absurd x (by decide), fun x => absurd x ha, fun _ x => absurd h1 x⟩
    rw [if_neg h1] at h
    by_cases h2 : p.type = TYPE_DOMAIN
    · rw [if_pos h2] at h; cases h
      exact ⟨rfl, rfl, fun x => absurd x h1, fun _ => ⟨rfl, rfl, rfl⟩, fun x => absurd x ha, fun _ _ x => absurd h2 x⟩
    rw [if_neg h2] at h
    refine ⟨?_, ?_, fun x => absurd x h1, fun x => absurd x h2, fun x => absurd x ha, fun _ _ _ => ?_⟩ <;>
    · split at h
      · cases h; first | rfl | exact ⟨rfl, rfl, rfl⟩
      · cases h; first | rfl | exact ⟨rfl, rfl, rfl⟩

/-- The names generated by `osl_relation_names` cover the dimensions of all parts. -/
theorem relation_names_cover {c : Cfg} (hv : c.Valid) (hnd : c.ndebug = false) {r : Rel} (hne : r ≠ []) (hf : ∀ p ∈ r, PartFits c p) (ht : Typed r) :
    ∃ names, relation_names c r = .ok names ∧ ∀ ps ∈ suffixes r, Named c names ps.1 ps.2 := by
  obtain ⟨a, e, h⟩ := relation_get_attributes_lub hv hnd (r := r) (fun p hp => (hf p hp).valid) (fun ha p hp => ((ht.access ha).1 p hp).2)
    ⟨UNDEFINED, UNDEFINED, UNDEFINED, UNDEFINED, UNDEFINED⟩
  have hid : ∀ ps ∈ suffixes r, isAccessPart ps.1 = true → ∃ k, get_array_id c ps.2 = .ok k ∧ 0 < k ∧ k < 2 ^ 31 - 1 := by
    intro ps hps ha
    obtain ⟨m1, ⟨rest, m2⟩, m3⟩ := suffixes_mem hps
    obtain ⟨hall, k, k1, k2, k3⟩ := ht.access (List.any_eq_true.mpr ⟨ps.1, m1, ha⟩)
    obtain ⟨id, e1, e2, _⟩ := relation_get_array_id_iff hv hnd (r := ps.2) (fun q hq => (hf q (m3 q hq)).valid) (fun q hq => (hall q (m3 q hq)).2) (by
      rw [m2]; exact ha)
    have := (e2 k k1).mpr fun q hq => k3 q (m3 q hq)
    exact ⟨id, e1, by omega, by omega⟩
  have low := (h a).mp ⟨Int.le_refl _, Int.le_refl _, Int.le_refl _, Int.le_refl _, Int.le_refl _⟩
  have dims : ∀ p ∈ r, 0 ≤ p.nb_output_dims ∧ 0 ≤ p.nb_input_dims ∧ 0 ≤ p.nb_local_dims ∧ 0 ≤ p.nb_parameters ∧ p.nb_output_dims ≤ 2 ^ 31 - 2 ∧
      p.nb_input_dims ≤ 2 ^ 31 - 2 ∧ p.nb_local_dims ≤ 2 ^ 31 - 2 ∧ p.nb_parameters ≤ 2 ^ 31 - 2 := by
    intro p hp
    have hd := (hf p hp).dims
    have hs := (hf p hp).small.2.1
    unfold Part.Dims at hd
    unfold fits cMax at hs
    simp at hs
    omega
  have types : ∀ p : Part, p.type = TYPE_CONTEXT ∨ p.type = TYPE_DOMAIN ∨ isAccessPart p = true ∨
      (isAccessPart p = false ∧ p.type ≠ TYPE_CONTEXT ∧ p.type ≠ TYPE_DOMAIN) := by
    intro p
    by_cases h1 : p.type = TYPE_CONTEXT
    · exact .inl h1
    by_cases h2 : p.type = TYPE_DOMAIN
    · exact .inr (.inl h2)
    cases h3 : isAccessPart p with
    | true => exact .inr (.inr (.inl rfl))
    | false => exact .inr (.inr (.inr ⟨rfl, h1, h2⟩))
  have up : Attrs.Le a ⟨2 ^ 31 - 2, 2 ^ 31 - 2, 2 ^ 31 - 2, 2 ^ 31 - 2, 2 ^ 31 - 2⟩ := by
    refine (h _).mpr ⟨by unfold Attrs.Le; simp only [UNDEFINED]; omega, fun ps hps => ?_⟩
    obtain ⟨l, l1, l2, l3, _⟩ := low.2 ps hps
    refine ⟨l, l1, l2, l3, ?_⟩
    have hd := dims ps.1 (suffixes_mem hps).1
    obtain ⟨c1, c2, c3, c4, c5, c6⟩ := localAttrs_cases l3
    unfold Attrs.Le
    dsimp only
    rcases types ps.1 with ty | ty | ty | ⟨ty1, ty2, ty3⟩
    · have := c3 ty; omega
    · have := c4 ty; omega
    · obtain ⟨k, k1, k2, k3⟩ := hid ps hps ty
      have := c5 ty
      rw [k1] at this
      have hk := this.2.2
      injection hk with hk
      omega
    · have := c6 ty1 ty2 ty3; omega
  have pos : 0 ≤ a.nb_parameters ∧ 0 ≤ a.nb_iterators ∧ 0 ≤ a.nb_scattdims ∧ 0 ≤ a.nb_localdims ∧ 0 ≤ a.array_id := by
    cases r with
    | nil => exact absurd rfl hne
    | cons p rest =>
      have hps : (p, p :: rest) ∈ suffixes (p :: rest) := by simp [suffixes]
      obtain ⟨l, l1, l2, l3, g1, g2, g3, g4, g5⟩ := low.2 _ hps
      have hd := dims p (by simp)
      obtain ⟨c1, c2, c3, c4, c5, c6⟩ := localAttrs_cases l3
      dsimp only at c1 c2 c3 c4 c5 c6
      rcases types p with ty | ty | ty | ⟨ty1, ty2, ty3⟩
      · have := c3 ty; omega
      · have := c4 ty; omega
      · obtain ⟨k, k1, k2, k3⟩ := hid _ hps ty
        have := c5 ty
        dsimp only at k1
        rw [k1] at this
        have hk := this.2.2
        injection hk with hk
        omega
      · have := c6 ty1 ty2 ty3; omega
  obtain ⟨u1, u2, u3, u4, u5⟩ := up
  dsimp only at u1 u2 u3 u4 u5
  obtain ⟨s1, e1, n1⟩ := generate_enough (pre := ['P']) rfl pos.1 (by omega)
  obtain ⟨s2, e2, n2⟩ := generate_enough (pre := ['i']) rfl pos.2.1 (by omega)
  obtain ⟨s3, e3, n3⟩ := generate_enough (pre := ['c']) rfl pos.2.2.1 (by omega)
  obtain ⟨s4, e4, n4⟩ := generate_enough (pre := ['l']) rfl pos.2.2.2.1 (by omega)
  obtain ⟨s5, e5, n5⟩ := generate_enough (pre := ['A']) rfl pos.2.2.2.2 (by omega)
  refine ⟨⟨some s1, some s2, some s3, some s4, some s5⟩, ?_, ?_⟩
  · unfold relation_names
    rw [e]
    simp only [Out.ok_bind, Names.generate]
    rw [e1, e2, e3, e4, e5]
    rfl
  · intro ps hps
    obtain ⟨l, l1, l2, l3, g1, g2, g3, g4, g5⟩ := low.2 _ hps
    obtain ⟨c1, c2, c3, c4, c5, c6⟩ := localAttrs_cases l3
    have hm := (suffixes_mem hps).1
    have hd := dims _ hm
    constructor
    · rintro (ty | ty)
      · exact n2 _ (by have := c4 ty; omega)
      · intro hpos; have := (ht.context _ hm ty).1; omega
    · intro t1 t2 t3
      exact n3 _ (by have := c6 t1 t3 t2; omega)
    · rcases types ps.1 with ty | ty | ty | ⟨ty1, ty2, ty3⟩
      · intro hpos; have := (ht.context _ hm ty).2; omega
      · exact n2 _ (by have := c4 ty; have := ht.domain _ hm ty; omega)
      · exact n2 _ (by have := c5 ty; omega)
      · exact n2 _ (by have := c6 ty1 ty2 ty3; omega)
    · exact n4 _ (by omega)
    · exact n1 _ (by omega)
    · simp
    · intro ty
      obtain ⟨k, k1, k2, k3⟩ := hid _ hps ty
      refine ⟨k, k1, k2, n5 _ ?_⟩
      have := (c5 ty).2.2
      rw [k1] at this
      injection this with this
      omega

/-- C59: a relation is printed without overflowing any buffer, with the names which the library generates. -/
theorem relation_sprint_total {c : Cfg} (hv : c.Valid) (hnd : c.ndebug = false) {r : Rel} (hf : ∀ p ∈ r, PartFits c p) (ht : Typed r) :
    ∃ t, sprint c r = .ok t := by
  cases r with
  | nil => unfold sprint; simp only [spprint, Util.emit_eq]; exact ⟨_, rfl⟩
  | cons p r =>
    obtain ⟨names, e, h⟩ := relation_names_cover hv hnd (by simp) hf ht
    obtain ⟨t, e1⟩ := relation_spprint_total hv hf h
    refine ⟨t, ?_⟩
    rw [← e1]
    unfold sprint
    simp only [spprint, spprint_polylib, chooseNames]
    rw [e]

/-! ## The lines of the text -/

/-- A text made of lines shorter than the reading buffer. -/
def ShortText (t : Str) : Prop := ∃ ls : List Str, t = (ls.map (· ++ ['\n'])).flatten ∧ ∀ l ∈ ls, l.length < MAX_STRING - 1

theorem ShortText.nil : ShortText [] := ⟨[], rfl, by simp⟩

theorem ShortText.append {s t : Str} (hs : ShortText s) (ht : ShortText t) : ShortText (s ++ t) := by
  obtain ⟨l1, rfl, h1⟩ := hs
  obtain ⟨l2, rfl, h2⟩ := ht
  refine ⟨l1 ++ l2, by simp, ?_⟩
  intro l hl
  rcases List.mem_append.mp hl with hl | hl
  · exact h1 l hl
  · exact h2 l hl

theorem ShortText.line {s : Str} (h : s.length < MAX_STRING - 1) : ShortText (s ++ ['\n']) := ⟨[s], by simp, by simpa using h⟩

theorem ShortText.flatten {l : List Str} (h : ∀ t ∈ l, ShortText t) : ShortText l.flatten := by
  induction l with
  | nil => exact .nil
  | cons a l ih => exact (h a (by simp)).append (ih fun t ht => h t (by simp [ht]))

theorem ShortText.shortLines {t : Str} (h : ShortText t) : ShortLines t := by
  obtain ⟨ls, rfl, h⟩ := h
  induction ls with
  | nil =>
    intro a b d e _
    have := congrArg List.length e
    simp only [List.map_nil, List.flatten_nil, List.length_nil, List.length_append] at this
    have : MAX_STRING = 2048 := rfl
    omega
  | cons l ls ih =>
    intro a b d e hb
    have ih := ih fun x hx => h x (by simp [hx])
    have hl := h l (by simp)
    have h0 : ([] : Str).length < MAX_STRING - 1 := by decide
    simp only [List.map_cons, List.flatten_cons, List.append_assoc] at e
    rcases List.append_eq_append_iff.mp e with ⟨a', e1, e2⟩ | ⟨c', e1, e2⟩
    · cases a' with
      | nil =>
        simp only [List.nil_append] at e2
        cases b with
        | nil => exact h0
        | cons x b =>
          simp only [List.cons_append, List.nil_append, List.cons.injEq] at e2
          exact absurd (e2.1 ▸ List.mem_cons_self) hb
      | cons x a' =>
        simp only [List.cons_append, List.nil_append, List.cons.injEq] at e2
        exact ih a' b d e2.2 hb
    · rcases List.append_eq_append_iff.mp e2 with ⟨x, e3, e4⟩ | ⟨x, e3, e4⟩
      · rw [e1, e3] at hl
        simp only [List.length_append] at hl
        omega
      · cases x with
        | nil =>
          rw [List.append_nil] at e3
          rw [e1, ← e3] at hl
          simp only [List.length_append] at hl
          omega
        | cons y x =>
          exfalso
          simp only [List.cons_append, List.nil_append, List.cons.injEq] at e4
          apply hb
          rw [e3, e4.1]
          simp

/-- The row and its comment fit on one line of the reading buffer. -/
def LineFits (p : Part) : Prop := ∀ row ∈ p.m, (cells row).length + rowWidth row + 10 < MAX_STRING - 1

theorem rowPieces_short {c : Cfg} (hv : c.Valid) {names : Names} {r : Part} {rest : Rel} (hf : PartFits c r) (hl : LineFits r)
    (h : Named c names r (r :: rest)) {i : Nat} (hi : i < r.m.length) {strings : List Str} (hn : (strings.length : Int) = r.nb_columns)
    (hs : ∀ w ∈ strings, w.length ≤ 12) {l : List Str} (e : rowPieces c r rest strings names i = .ok l) : ShortText l.flatten := by
  unfold rowPieces at e
  obtain ⟨cs, h4, e⟩ := Out.bind_eq_ok.mp e
  have hcs := cells_of_pieces (c := c) (p := r.precision) (row := r.m[i]) (cs := cs) (by
    refine mapOut_upto_all2 (hf.valid.cols _ (List.getElem_mem hi)) ?_ h4
    intro j hj b hb
    obtain ⟨v, h5, hb⟩ := Out.bind_eq_ok.mp hb
    rw [get2_nat hi hj] at h5
    cases h5
    exact hb)
  obtain ⟨cm, h5, e⟩ := Out.bind_eq_ok.mp e
  cases e
  obtain ⟨t, e1, h1⟩ := sprint_comment_total hv hf h hi hn hs
  rw [h5] at e1
  cases e1
  have := ShortText.line (s := cells r.m[i] ++ cm) (by
    have := hl _ (List.getElem_mem hi)
    simp only [List.length_append]; omega)
  simpa [hcs.1] using this

theorem partPieces_short {c : Cfg} (hv : c.Valid) {names : Names} {r : Part} {rest : Rel} (hf : PartFits c r) (hl : LineFits r)
    (h : Named c names r (r :: rest)) {nb part : Nat} (hp : part < 10 ^ 10) {l : List Str} (e : partPieces c nb part r rest names = .ok l) : ShortText l.flatten := by
  obtain ⟨strings, e1, hn, hs⟩ := relation_strings_total hf h
  unfold partPieces at e
  rw [e1] at e
  simp only [Out.ok_bind] at e
  obtain ⟨sc, e2, e⟩ := Out.bind_eq_ok.mp e
  obtain ⟨rows, e3, e⟩ := Out.bind_eq_ok.mp e
  cases e
  have s1 : ShortText (if nb > 1 then ["# Union part No.".toList ++ showNat part ++ ['\n']] else []).flatten := by
    split
    · have := Util.showNat_length_le part 9 hp
      have := ShortText.line (s := "# Union part No.".toList ++ showNat part) (by
        simp only [List.length_append, show "# Union part No.".toList.length = 16 from rfl]
        have : MAX_STRING = 2048 := rfl
        omega)
      simpa using this
    · exact .nil
  have s2 : ShortText (headerLine r) := by
    have e0 := headerLine_hdr r []
    rw [List.append_nil] at e0
    rw [e0]
    exact ShortText.line (by have := hdr_length hf.small; have : MAX_STRING = 2048 := rfl; omega)
  have s3 : ShortText sc.flatten := by
    unfold columnPieces at e2
    split at e2
    · next h0 =>
      obtain ⟨s, e4, e2⟩ := Out.bind_eq_ok.mp e2
      cases e2
      obtain ⟨rfl, _⟩ := buffered_ok e4
      have hrows := hf.valid.rows
      have hi : 0 < r.m.length := by omega
      have hc := hf.valid.cols r.m[0] (List.getElem_mem hi)
      have hw := hf.width r.m[0] (List.getElem_mem hi)
      have h1 := rowWidth_length r.m[0]
      have h2 := columns_length r strings 0
      have := ShortText.line (s := '#' :: columns r strings 0) (by
        simp only [List.length_cons]
        have : MAX_STRING = 2048 := rfl
        omega)
      simpa using this
    · cases e2; exact .nil
  have s4 : ShortText rows.flatten.flatten := by
    have : ∀ ps ∈ rows, ShortText (List.flatten ps) := by
      refine mapOut_forall _ e3 ?_
      intro i hi ps hps
      have hb := mem_upto hi
      have hrows := hf.valid.rows
      rw [show i = ((i.toNat : Nat) : Int) by omega] at hps
      exact rowPieces_short hv hf hl h (by omega) hn hs hps
    have := ShortText.flatten (l := rows.map List.flatten) (by
      intro t ht
      obtain ⟨ps, hps, rfl⟩ := List.mem_map.mp ht
      exact this ps hps)
    rwa [List.flatten_flatten]
  have := s1.append (s2.append (s3.append s4))
  simpa only [List.flatten_append, List.flatten_cons, List.append_assoc, List.cons_append] using this

theorem partsPieces_short {c : Cfg} (hv : c.Valid) {names : Names} {nb : Nat} : ∀ (r : Rel) (part : Nat) (l : List Str), (∀ p ∈ r, PartFits c p) → (∀ p ∈ r, LineFits p) →
    (∀ ps ∈ suffixes r, Named c names ps.1 ps.2) → part + r.length < 10 ^ 10 → partsPieces c nb names part r = .ok l → ShortText l.flatten
  | [], _, _, _, _, _, _, e => by cases e; exact .nil
  | p :: r, part, l, hf, hl, h, hp, e => by
    simp only [partsPieces] at e
    obtain ⟨a, e1, e⟩ := Out.bind_eq_ok.mp e
    obtain ⟨b, e2, e⟩ := Out.bind_eq_ok.mp e
    cases e
    simp only [List.length_cons] at hp
    rw [List.flatten_append]
    exact (partPieces_short hv (hf p (by simp)) (hl p (by simp)) (h (p, p :: r) (by simp [suffixes])) (by omega) e1).append
      (partsPieces_short hv r (part + 1) b (fun q hq => hf q (by simp [hq])) (fun q hq => hl q (by simp [hq])) (fun q hq => h q (by simp [suffixes, hq])) (by omega) e2)

theorem spprint_short {c : Cfg} (hv : c.Valid) {names : Names} {r : Rel} (hf : ∀ p ∈ r, PartFits c p) (hl : ∀ p ∈ r, LineFits p)
    (h : ∀ ps ∈ suffixes r, Named c names ps.1 ps.2) (hlen : (r.length : Int) < 2 ^ 31) {t : Str} (e : spprint c r (some names) = .ok t) : ShortText t := by
  cases r with
  | nil => simp only [spprint, Util.emit_eq] at e; cases e; exact .nil
  | cons p r =>
    simp only [spprint, spprint_polylib, chooseNames, Out.ok_bind, Util.emit_eq] at e
    obtain ⟨parts, e1, e⟩ := Out.bind_eq_ok.mp e
    obtain ⟨l, e2, e1⟩ := Out.bind_eq_ok.mp e1
    cases e1
    cases e
    have s1 := partsPieces_short hv (p :: r) 1 l hf hl h (by omega) e2
    have s2 : ShortText (sprint_type p.type ++ ['\n']) := ShortText.line (by
      have : (sprint_type p.type).length < 100 := by unfold sprint_type; repeat' split
                                                     all_goals decide
      have : MAX_STRING = 2048 := rfl
      omega)
    have s3 : ShortText (if (p :: r).length > 1 then ["# Union with ".toList ++ showNat (p :: r).length ++ " parts\n".toList ++ showNat (p :: r).length ++ ['\n']] else []).flatten := by
      split
      · have h1 := Util.showNat_length_le (p :: r).length 9 (by omega)
        have h2 := (ShortText.line (s := "# Union with ".toList ++ showNat (p :: r).length ++ " parts".toList) (by
          simp only [List.length_append, show "# Union with ".toList.length = 13 from rfl, show " parts".toList.length = 6 from rfl]
          have : MAX_STRING = 2048 := rfl
          omega)).append (ShortText.line (s := showNat (p :: r).length) (by have : MAX_STRING = 2048 := rfl; omega))
        simpa using h2
      · exact .nil
    have := s2.append (s3.append s1)
    simpa using this

/-! ## C59 -/

/-- C59 and C24, from a file: a relation of any size and shape, the parts of which have one type, is printed (with the names
which the library generates) and the text, followed by anything, is read back as the same relation, the file being left just
after it.  The only limits are the sizes of the buffers of the library, in which the rows have to fit. -/
theorem relation_print_read {c : Cfg} (hv : c.Valid) (hnd : c.ndebug = false) {prec : Int} {p : Part} {r : Rel} (hf : ∀ q ∈ p :: r, PartFits c q)
    (hp : ∀ q ∈ p :: r, q.precision = prec) (hl : ∀ q ∈ p :: r, LineFits q) (ht : Typed (p :: r)) (hk : KnownType p.type) (hu : ∀ q ∈ r, q.type = p.type)
    (hlen : (r.length : Int) < 2 ^ 31 - 1) :
    ∃ t, sprint c (p :: r) = .ok t ∧ ∀ rest, pread c prec (t ++ rest) = .ok (p :: r, rest) := by
  obtain ⟨names, e, h⟩ := relation_names_cover hv hnd (by simp) hf ht
  obtain ⟨t, e1⟩ := relation_spprint_total hv hf h
  have e2 : sprint c (p :: r) = .ok t := by
    rw [← e1]
    unfold sprint
    simp only [spprint, spprint_polylib, chooseNames]
    rw [e]
  refine ⟨t, e2, fun rest => ?_⟩
  have hs := (spprint_short hv hf hl h (by simp only [List.length_cons]; omega) e1).shortLines
  have := relation_read_print (prec := prec) (fun q hq => ⟨(hf q hq).valid, hp q hq, (hf q hq).small⟩) hlen hk (names := none) (by simp) e2 hs rest
  rw [this]
  have : (p :: r).map (fun q => { q with type := p.type }) = p :: r := by
    have : ∀ q ∈ p :: r, (fun q : Part => { q with type := p.type }) q = q := by
      intro q hq
      rcases List.mem_cons.mp hq with rfl | hq
      · rfl
      · simp only; rw [← hu q hq]
    rw [List.map_congr_left this, List.map_id']
  rw [this]

/-- C59 and C24, from a string: a relation with one part is printed, and read back from the text; the position is left before
what follows the text (blanks and comments apart). -/
theorem relation_print_sread {c : Cfg} (hv : c.Valid) (hnd : c.ndebug = false) {p : Part} (hf : PartFits c p) (ht : Typed [p]) (hk : KnownType p.type) :
    ∃ t, sprint c [p] = .ok t ∧ ∀ rest, ∃ pos, psread c p.precision (t ++ rest) = .ok ([p], some pos) ∧ Util.sskip pos = Util.sskip rest := by
  obtain ⟨t, e⟩ := relation_sprint_total hv hnd (r := [p]) (by simpa using hf) ht
  refine ⟨t, e, fun rest => ?_⟩
  exact relation_sread_sprint (prec := p.precision) (r := []) (by simpa using ⟨hf.valid, rfl, hf.small⟩) (by simp) hk (names := none) (by simp) e rest

/-- Finding (C59): the printer writes out of bounds for every access relation without an array identifier: the number of array
names which it generates is -1 (source/relation.c:745-757, source/strings.c:457-478).  Otherwise it succeeds. -/
theorem relation_sprint_access_iff {c : Cfg} (hv : c.Valid) (hnd : c.ndebug = false) {p : Part} (hf : PartFits c p) (ha : isAccessPart p = true)
    (hi : IntEntries p) (hid : ∀ k, FixesFirst p k → k < 2 ^ 31 - 1) :
    (∃ t, sprint c [p] = .ok t) ↔ ∃ k, 0 < k ∧ FixesFirst p k := by
  have hc : p.type ≠ TYPE_CONTEXT := fun e => by rw [isAccess_types (.inr e)] at ha; cases ha
  have hd : p.type ≠ TYPE_DOMAIN := fun e => by rw [isAccess_types (.inl e)] at ha; cases ha
  constructor
  · rintro ⟨t, e⟩
    obtain ⟨id, e1, _, e3⟩ := relation_get_array_id_iff hv hnd (r := [p]) (by intro q hq; simp at hq; subst hq; exact hf.valid)
      (by intro q hq; simp at hq; subst hq; exact hi) ha
    apply Classical.byContradiction
    intro hno
    have hu : id = UNDEFINED := e3.mpr (by rintro ⟨k, hk, hk2⟩; exact hno ⟨k, hk, hk2 p (by simp)⟩)
    subst hu
    simp only [sprint, spprint, spprint_polylib, chooseNames, relation_names, get_attributes] at e
    have el : localAttrs c p [p] = .ok ⟨p.nb_parameters, p.nb_input_dims, 0, p.nb_local_dims, UNDEFINED⟩ := by
      unfold localAttrs
      simp only [ha, if_true]
      rw [if_neg (by decide), if_neg (by decide), if_neg (by decide), e1]
      rfl
    rw [el] at e
    simp only [Out.ok_bind, Names.generate] at e
    obtain ⟨t1, e, _⟩ := Out.bind_eq_ok.mp e
    obtain ⟨n, e, _⟩ := Out.bind_eq_ok.mp e
    obtain ⟨_, _, e⟩ := Out.bind_eq_ok.mp e
    obtain ⟨_, _, e⟩ := Out.bind_eq_ok.mp e
    obtain ⟨_, _, e⟩ := Out.bind_eq_ok.mp e
    obtain ⟨_, _, e⟩ := Out.bind_eq_ok.mp e
    obtain ⟨s, e, _⟩ := Out.bind_eq_ok.mp e
    have : Strings.generate ['A'] (omax UNDEFINED UNDEFINED) = .ub := by decide
    rw [this] at e
    cases e
  · rintro ⟨k, hk, hk2⟩
    refine relation_sprint_total hv hnd (r := [p]) (by simpa using hf) ⟨?_, ?_, ?_⟩
    · intro q hq e; simp at hq; subst hq; exact absurd e hc
    · intro q hq e; simp at hq; subst hq; exact absurd e hd
    · intro _
      refine ⟨?_, k, hk, hid k hk2, ?_⟩
      · intro q hq; simp at hq; subst hq; exact ⟨ha, hi⟩
      · intro q hq; simp at hq; subst hq; exact hk2

theorem notMin_of {c : Cfg} {p : Int} {m : Matrix} {w : Nat} (hk : kind c p = some (.fixed w)) (h : ∀ row ∈ m, ∀ a ∈ row, a ≠ cMin w) :
    ∀ row ∈ m, ∀ a ∈ row, ¬ OInt.IsMin c p a := by
  rintro row hr a ha ⟨w', hw, e⟩
  rw [hk] at hw
  cases hw
  exact h row hr a ha e

/-- An access `A[i1]` (identifier 1) of a part with one parameter. -/
def exRead : Part := { type := TYPE_READ, precision := PREC_SP, nb_rows := 2, nb_columns := 6, nb_output_dims := 2, nb_input_dims := 1, nb_local_dims := 0, nb_parameters := 1, m := [[0, -1, 0, 0, 0, 1], [0, 0, -1, 1, 0, 0]] }

/-- The hypotheses of the theorems are met by a domain and by an access. -/
example : PartFits Cfg.std exPart ∧ LineFits exPart ∧ Typed [exPart, exPart] ∧ KnownType exPart.type := by
  refine ⟨⟨⟨by decide, by decide, by decide, by decide, by decide⟩, by decide, by unfold Part.Small; decide, notMin_of (w := 64) rfl (by decide), by decide⟩, by unfold LineFits; decide,
    ⟨by decide, by decide, fun h => absurd h (by decide)⟩, by decide⟩

example : PartFits Cfg.std exRead ∧ LineFits exRead ∧ Typed [exRead] ∧ KnownType exRead.type := by
  refine ⟨⟨⟨by decide, by decide, by decide, by decide, by decide⟩, by decide, by unfold Part.Small; decide, notMin_of (w := 64) rfl (by decide), by decide⟩, by unfold LineFits; decide,
    ⟨by decide, by decide, ?_⟩, by decide⟩
  intro _
  refine ⟨?_, 1, by decide, by decide, ?_⟩
  · intro q hq; simp at hq; subst hq; exact ⟨by decide, by unfold IntEntries; decide⟩
  · intro q hq; simp at hq; subst hq
    refine ⟨by decide, 0, by decide, -1, 1, by decide, by decide, by decide, by decide⟩

/-- The printer does write out of bounds for an access without identifier. -/
example : sprint Cfg.std [{ exRead with m := [[0, 0, 0, 0, 0, 0], [0, 0, -1, 1, 0, 0]] }] = .ub := by decide

/-- A domain with 100 iterators and large coefficients. -/
def exWide : Part := { type := TYPE_DOMAIN, precision := PREC_SP, nb_rows := 1, nb_columns := 102, nb_output_dims := 100, nb_input_dims := 0, nb_local_dims := 0, nb_parameters := 0, m := [1 :: (List.replicate 100 (-9223372036854775807) ++ [0])] }
/-- It is well formed. -/
example : exWide.Valid Cfg.std ∧ exWide.Dims ∧ Typed [exWide] :=
  ⟨⟨by decide, by decide, by decide, by decide, by decide⟩, by decide, ⟨by decide, by decide, fun h => absurd h (by decide)⟩⟩

set_option maxRecDepth 20000 in
/-- Finding (C59): the rows have to fit in the buffers: the comment of a row of this well-formed domain overflows one of them. -/
theorem relation_sprint_wide_violates : sprint Cfg.std [exWide] = .ub := by decide +kernel

end Rel
end Osl
