import Verif.ExtArrays
import Verif.ExtMiscProps
/-!
# Properties of the extensions arrays (C44) and scatnames (parts of C45, C46)
-/

namespace Osl
namespace Ext

namespace Arrays

theorem found_iff (p : Int × Str) (m : List (Int × Str)) : found p m = true ↔ p ∈ m := by
  induction m with
  | nil => simp [found]
  | cons q m ih =>
    obtain ⟨a, b⟩ := p
    obtain ⟨c, d⟩ := q
    simp only [found, List.mem_cons, Prod.mk.injEq]
    by_cases h : a = c ∧ b = d <;> simp [h, ih]

theorem equalLoop_iff (m l : List (Int × Str)) : equalLoop m l = true ↔ ∀ p ∈ l, p ∈ m := by
  induction l with
  | nil => simp [equalLoop]
  | cons p l ih =>
    simp only [equalLoop]
    by_cases h : p ∈ m
    · simp [(found_iff p m).mpr h, ih, h]
    · have : found p m = false := by
        cases hf : found p m
        · rfl
        · exact absurd ((found_iff p m).mp hf) h
      simp [this, h]

theorem equal_some_iff (a b : Arrays) : equal (some a) (some b) = .ok true ↔
    a.pairs.length = b.pairs.length ∧ ∀ p ∈ a.pairs, p ∈ b.pairs := by
  unfold equal
  by_cases h1 : a.pairs.length = b.pairs.length
  · simp only [h1, ne_eq, not_true_eq_false, if_false, Out.ok.injEq, true_and]
    exact equalLoop_iff _ _
  · simp [h1]

/-- C44: on arrays without a repeated pair the equality is that of the contents, in any order, hence reflexive, symmetric
and transitive. -/
theorem arrays_equal_nodup {a b : Arrays} (ha : a.pairs.Nodup) (hb : b.pairs.Nodup) :
    ∃ r, ops.equal (some a) (some b) = .ok r ∧ ops.equal (some b) (some a) = .ok r ∧ (r = true ↔ a.pairs.Perm b.pairs) := by
  have tot : ∀ x y : Arrays, ∃ r, equal (some x) (some y) = .ok r := by
    intro x y; unfold equal; simp only; split <;> exact ⟨_, rfl⟩
  obtain ⟨r, h1⟩ := tot a b
  obtain ⟨r', h2⟩ := tot b a
  have i1 := equal_some_iff a b
  have i2 := equal_some_iff b a
  rw [h1] at i1
  rw [h2] at i2
  simp only [Out.ok.injEq] at i1 i2
  have key : r = true ↔ a.pairs.Perm b.pairs := by
    rw [i1]
    constructor
    · rintro ⟨e1, e2⟩; exact (List.perm_ext_iff_of_nodup ha hb).mpr fun p => ⟨e2 p, subset_of_length ha e1 e2 p⟩
    · intro h; exact ⟨h.length_eq, fun p hp => h.mem_iff.mp hp⟩
  have key' : r' = true ↔ a.pairs.Perm b.pairs := by
    rw [i2]
    constructor
    · rintro ⟨e1, e2⟩; exact (List.perm_ext_iff_of_nodup ha hb).mpr fun p => ⟨subset_of_length hb e1 e2 p, e2 p⟩
    · intro h; exact ⟨h.length_eq.symm, fun p hp => h.mem_iff.mpr hp⟩
  have : r = r' := by rw [← key'] at key; exact Bool.eq_iff_iff.mpr key
  subst this
  exact ⟨r, h1, h2, key⟩

/-- C44 finding: with a repeated pair the equality is not symmetric. -/
theorem arrays_equal_violates :
    ops.equal (some ⟨[(1, "A".toList), (1, "A".toList)]⟩) (some ⟨[(1, "A".toList), (2, "B".toList)]⟩) = .ok true ∧
    ops.equal (some ⟨[(1, "A".toList), (2, "B".toList)]⟩) (some ⟨[(1, "A".toList), (1, "A".toList)]⟩) = .ok false := by decide

theorem arrays_clone_eq (a : Arrays) : ops.clone (some a) = .ok (some a) ∧ ops.CloneEqual a := by
  have : ops.clone (some a) = .ok (some a) := by
    cases a; simp [ops, clone, Util.strdup]
  refine ⟨this, a, this, ?_⟩
  rw [show ops.equal = equal from rfl, equal_some_iff]; exact ⟨rfl, fun _ h => h⟩

/-- C44: `osl_arrays_add` appends the pair and returns the new number of names; without structure or name it changes nothing
and returns -1. -/
theorem arrays_add_correct (a : Arrays) (id : Int) (name : Str) (h : (a.pairs.length : Int) + 1 < 2 ^ 31) :
    add (some a) id (some name) = .ok (some ⟨a.pairs ++ [(id, name)]⟩, a.pairs.length + 1) ∧
    add (some a) id none = .ok (some a, -1) ∧ (∀ n, add none id n = .ok (none, -1)) := by
  refine ⟨?_, rfl, fun n => by cases n <;> rfl⟩
  unfold add
  simp only
  rw [if_neg (by simp [cMax]; omega)]
  rfl

theorem idLoop_spec (id : Int) (l : List (Int × Str)) :
    (idLoop id l < l.length → (l[idLoop id l]?).map Prod.fst = some id) ∧ (∀ k < idLoop id l, (l[k]?).map Prod.fst ≠ some id) ∧
    (idLoop id l ≤ l.length) ∧ ((∃ p ∈ l, p.1 = id) → idLoop id l < l.length) := by
  induction l with
  | nil => simp [idLoop]
  | cons p l ih =>
    obtain ⟨h1, h2, h3, h4⟩ := ih
    simp only [idLoop]
    by_cases h : p.1 = id
    · simp [h]
    · rw [if_neg h]
      refine ⟨fun hl => ?_, fun k hk => ?_, by simpa using h3, ?_⟩
      · simpa using h1 (by simpa using hl)
      · cases k with
        | zero => simpa using h
        | succ k => simpa using h2 k (by omega)
      · rintro ⟨q, hq, e⟩
        rcases List.mem_cons.mp hq with rfl | hq
        · exact absurd e h
        · have := h4 ⟨q, hq, e⟩; simp; exact this

theorem nameLoop_spec (name : Str) (l : List (Int × Str)) :
    (nameLoop name l < l.length → (l[nameLoop name l]?).map Prod.snd = some name) ∧ (∀ k < nameLoop name l, (l[k]?).map Prod.snd ≠ some name) ∧
    (nameLoop name l ≤ l.length) ∧ ((∃ p ∈ l, p.2 = name) → nameLoop name l < l.length) := by
  induction l with
  | nil => simp [nameLoop]
  | cons p l ih =>
    obtain ⟨h1, h2, h3, h4⟩ := ih
    simp only [nameLoop]
    by_cases h : p.2 = name
    · simp [h]
    · rw [if_neg h]
      refine ⟨fun hl => ?_, fun k hk => ?_, by simpa using h3, ?_⟩
      · simpa using h1 (by simpa using hl)
      · cases k with
        | zero => simpa using h
        | succ k => simpa using h2 k (by omega)
      · rintro ⟨q, hq, e⟩
        rcases List.mem_cons.mp hq with rfl | hq
        · exact absurd e h
        · have := h4 ⟨q, hq, e⟩; simp; exact this

/-- C44: the index found from an identifier is the first index holding it, and the number of names when there is none. -/
theorem arrays_get_index_from_id_correct (a : Arrays) (id : Int) :
    ((∃ p ∈ a.pairs, p.1 = id) → get_index_from_id (some a) id < a.pairs.length ∧
      (a.pairs[get_index_from_id (some a) id]?).map Prod.fst = some id ∧
      ∀ k < get_index_from_id (some a) id, (a.pairs[k]?).map Prod.fst ≠ some id) ∧
    ((∀ p ∈ a.pairs, p.1 ≠ id) → get_index_from_id (some a) id = a.pairs.length) := by
  obtain ⟨h1, h2, h3, h4⟩ := idLoop_spec id a.pairs
  refine ⟨fun h => ⟨h4 h, h1 (h4 h), h2⟩, fun h => ?_⟩
  rcases Nat.lt_or_ge (idLoop id a.pairs) a.pairs.length with hl | hl
  · have := h1 hl
    rw [List.getElem?_eq_getElem hl] at this
    simp at this
    exact absurd this (h _ (List.getElem_mem hl))
  · show idLoop id a.pairs = _; omega

/-- C44: the same for the index found from a name. -/
theorem arrays_get_index_from_name_correct (a : Arrays) (name : Str) :
    ((∃ p ∈ a.pairs, p.2 = name) → get_index_from_name (some a) (some name) < a.pairs.length ∧
      (a.pairs[get_index_from_name (some a) (some name)]?).map Prod.snd = some name ∧
      ∀ k < get_index_from_name (some a) (some name), (a.pairs[k]?).map Prod.snd ≠ some name) ∧
    ((∀ p ∈ a.pairs, p.2 ≠ name) → get_index_from_name (some a) (some name) = a.pairs.length) := by
  obtain ⟨h1, h2, h3, h4⟩ := nameLoop_spec name a.pairs
  refine ⟨fun h => ⟨h4 h, h1 (h4 h), h2⟩, fun h => ?_⟩
  rcases Nat.lt_or_ge (nameLoop name a.pairs) a.pairs.length with hl | hl
  · have := h1 hl
    rw [List.getElem?_eq_getElem hl] at this
    simp at this
    exact absurd this (h _ (List.getElem_mem hl))
  · show nameLoop name a.pairs = _; omega

/-- Finding: without structure or name, the index is 0, which is a valid index. -/
theorem arrays_get_index_null : get_index_from_id none 1 = 0 ∧ get_index_from_name none (some []) = 0 := ⟨rfl, rfl⟩

/-! ### osl_arrays_to_strings -/

theorem maxLoop_spec (m : Int) (l : List (Int × Str)) : m ≤ maxLoop m l ∧ (∀ p ∈ l, p.1 ≤ maxLoop m l) ∧
    (maxLoop m l = m ∨ ∃ p ∈ l, p.1 = maxLoop m l) := by
  induction l generalizing m with
  | nil => simp [maxLoop]
  | cons p l ih =>
    obtain ⟨h1, h2, h3⟩ := ih (if p.1 > m then p.1 else m)
    simp only [maxLoop]
    refine ⟨?_, ?_, ?_⟩
    · clear h2 h3
      by_cases hp : p.1 > m
      · simp only [if_pos hp] at h1 ⊢; omega
      · simp only [if_neg hp] at h1 ⊢; omega
    · intro q hq
      rcases List.mem_cons.mp hq with rfl | hq
      · clear h2 h3
        by_cases hp : q.1 > m
        · simp only [if_pos hp] at h1 ⊢; omega
        · simp only [if_neg hp] at h1 ⊢; omega
      · exact h2 q hq
    · rcases h3 with h3 | ⟨q, hq, e⟩
      · by_cases hp : p.1 > m
        · rw [if_pos hp] at h3; exact .inr ⟨p, by simp, by rw [if_pos hp]; exact h3.symm⟩
        · rw [if_neg hp] at h3; exact .inl (by rw [if_neg hp]; exact h3)
      · exact .inr ⟨q, by simp [hq], e⟩

/-- The greatest identifier. -/
theorem maxId_spec (l : List (Int × Str)) (hne : l ≠ []) : (∀ p ∈ l, p.1 ≤ maxId l) ∧ ∃ p ∈ l, p.1 = maxId l := by
  cases l with
  | nil => exact absurd rfl hne
  | cons p l =>
    obtain ⟨h1, h2, h3⟩ := maxLoop_spec p.1 l
    refine ⟨?_, ?_⟩
    · intro q hq
      rcases List.mem_cons.mp hq with rfl | hq
      · exact h1
      · exact h2 q hq
    · rcases h3 with h3 | ⟨q, hq, e⟩
      · exact ⟨p, by simp, h3.symm⟩
      · exact ⟨q, by simp [hq], e⟩

/-- The name the last pair of identifier `k` gives, if any (specification). -/
def nameOf (l : List (Int × Str)) (k : Int) : Option Str := (l.reverse.find? fun p => decide (p.1 = k)).map Prod.snd

theorem nameOf_cons (p : Int × Str) (l : List (Int × Str)) (k : Int) :
    nameOf (p :: l) k = (nameOf l k).or (if p.1 = k then some p.2 else none) := by
  unfold nameOf
  rw [List.reverse_cons, List.find?_append]
  cases List.find? (fun p => decide (p.1 = k)) l.reverse with
  | some q => simp
  | none => by_cases h : p.1 = k <;> simp [h]

theorem fillLoop_spec (ss : List Str) (l : List (Int × Str)) (h : ∀ p ∈ l, 1 ≤ p.1 ∧ p.1 ≤ ss.length) :
    ∃ r, fillLoop ss l = .ok r ∧ r.length = ss.length ∧ ∀ k : Nat, k < ss.length → r[k]? = (nameOf l (k + 1)).or ss[k]? := by
  induction l generalizing ss with
  | nil => exact ⟨ss, rfl, rfl, fun k _ => by simp [nameOf]⟩
  | cons p l ih =>
    have hp := h p (by simp)
    obtain ⟨r, h1, h2, h3⟩ := ih (ss.set (p.1 - 1).toNat (Util.strdup p.2)) (by
      intro q hq; rw [List.length_set]; exact h q (by simp [hq]))
    rw [List.length_set] at h2 h3
    refine ⟨r, by rw [fillLoop, if_pos hp, h1], h2, fun k hk => ?_⟩
    rw [h3 k hk, nameOf_cons]
    cases nameOf l (k + 1) with
    | some n => simp
    | none =>
      simp only [Option.none_or]
      by_cases e : p.1 = (k : Int) + 1
      · have : (p.1 - 1).toNat = k := by omega
        rw [this, if_pos e, List.getElem?_set_self hk]; rfl
      · rw [if_neg e, List.getElem?_set_ne (by omega)]; rfl

/-- C44: when the identifiers are positive, `osl_arrays_to_strings` gives as many strings as the greatest identifier; the
string at position `k - 1` is the name of the (last) array of identifier `k`, or a dummy name if there is none. -/
theorem arrays_to_strings_correct (a : Arrays) (h1 : ∀ p ∈ a.pairs, 1 ≤ p.1 ∧ p.1 < 2 ^ 31 - 1) :
    ∃ s, to_strings (some a) = .ok (some s) ∧ (s.words.length : Int) = maxId a.pairs ∧
      ∀ k : Nat, k < s.words.length → s.words[k]? = some ((nameOf a.pairs (k + 1)).getD ("Dummy".toList ++ showNat (k + 1))) := by
  by_cases hne : a.pairs = []
  · refine ⟨{ string := none }, ?_, ?_, ?_⟩
    · simp [to_strings, hne, maxId, Strings.generate]
    · simp [hne, maxId, Strings.words]
    · intro k hk; simp [Strings.words] at hk
  · obtain ⟨m1, q, hq, m2⟩ := maxId_spec a.pairs hne
    have hq1 := h1 q hq
    obtain ⟨n, hn⟩ : ∃ n : Nat, maxId a.pairs = n := ⟨(maxId a.pairs).toNat, by omega⟩
    obtain ⟨s, g1, g2⟩ := Strings.strings_generate_correct "Dummy".toList n (by omega)
    have hlen : s.words.length = n := by rw [g2]; simp
    obtain ⟨r, r1, r2, r3⟩ := fillLoop_spec s.words a.pairs (by
      intro p hp; have := m1 p hp; have := h1 p hp; omega)
    have hE : a.pairs.isEmpty = false := by cases h : a.pairs <;> simp_all
    refine ⟨{ string := some r }, ?_, ?_, ?_⟩
    · simp only [to_strings, hn, g1, Out.ok_bind, hE, Bool.false_eq_true, if_false, r1]; rfl
    · simp only [Strings.words, Option.getD_some]; omega
    · intro k hk
      simp only [Strings.words, Option.getD_some] at hk ⊢
      rw [r3 k (by omega), g2]
      rw [List.getElem?_map, List.getElem?_range' (by omega)]
      cases nameOf a.pairs (k + 1) with
      | none => simp [Nat.add_comm]
      | some x => simp

/-- C44: with distinct identifiers, the name of identifier `k` is at position `k - 1`. -/
theorem arrays_to_strings_name (a : Arrays) (h1 : ∀ p ∈ a.pairs, 1 ≤ p.1 ∧ p.1 < 2 ^ 31 - 1) (h2 : (a.pairs.map Prod.fst).Nodup) :
    ∃ s, to_strings (some a) = .ok (some s) ∧ ∀ p ∈ a.pairs, s.words[(p.1 - 1).toNat]? = some p.2 := by
  obtain ⟨s, e1, e2, e3⟩ := arrays_to_strings_correct a h1
  refine ⟨s, e1, fun p hp => ?_⟩
  have hne : a.pairs ≠ [] := by rintro e; rw [e] at hp; cases hp
  have := (maxId_spec a.pairs hne).1 p hp
  have hp1 := h1 p hp
  rw [e3 (p.1 - 1).toNat (by omega)]
  have hk : ((p.1 - 1).toNat : Int) + 1 = p.1 := by omega
  rw [hk]
  have : nameOf a.pairs p.1 = some p.2 := by
    unfold nameOf
    cases hf : a.pairs.reverse.find? (fun q => decide (q.1 = p.1)) with
    | none =>
      have := List.find?_eq_none.mp hf p (by simpa using hp)
      simp at this
    | some q =>
      have hq := List.find?_some hf
      have hm := List.mem_of_find?_eq_some hf
      simp only [decide_eq_true_eq] at hq
      simp only [List.mem_reverse] at hm
      -- the identifiers are distinct
      have : q = p := by
        clear hf e1 e2 e3 this hne h1
        generalize a.pairs = l at *
        induction l with
        | nil => cases hp
        | cons x l ih =>
          simp only [List.map_cons, List.nodup_cons] at h2
          rcases List.mem_cons.mp hm with rfl | hm' <;> rcases List.mem_cons.mp hp with rfl | hp'
          · rfl
          · exact absurd (List.mem_map.mpr ⟨p, hp', hq.symm⟩) h2.1
          · exact absurd (List.mem_map.mpr ⟨q, hm', hq⟩) h2.1
          · exact ih h2.2 hp' hm'
      rw [this]; rfl
  rw [this]; rfl

/-- The hypotheses are met, and the result of an example. -/
example : to_strings (some ⟨[(3, "B".toList), (1, "A".toList)]⟩) = .ok (some { string := some ["A".toList, "Dummy2".toList, "B".toList] }) := by decide

/-- C44 finding: a null or negative identifier makes `osl_arrays_to_strings` write out of its array. -/
theorem arrays_to_strings_violates : to_strings (some ⟨[(0, "A".toList)]⟩) = .ub ∧ to_strings (some ⟨[(1, "A".toList), (0, "B".toList)]⟩) = .ub := by
  decide

/-! ### Text -/

/-- Arrays whose text can be read back: the names are words, the identifiers are C `int`s. -/
structure Textable (a : Arrays) : Prop where
  ids : ∀ p ∈ a.pairs, fits 32 p.1
  names : ∀ p ∈ a.pairs, Strings.Word p.2 ∧ p.2.length + 14 ≤ MAX_STRING
  nb : (a.pairs.length : Int) < 2 ^ 31

/-- The printed pairs (specification). -/
def body : List (Int × Str) → Str
  | [] => []
  | (i, n) :: l => showInt i ++ (" ".toList ++ (n ++ ("\n".toList ++ body l)))

/-- The text of arrays (specification). -/
def text (l : List (Int × Str)) : Str :=
  "# Number of arrays\n".toList ++ (showInt l.length ++ ("\n".toList ++
    ((if l.length ≠ 0 then "# Mapping array-identifiers/array-names\n".toList else []) ++ body l)))

theorem body_eq (l : List (Int × Str)) : (l.map fun p => showInt p.1 ++ " ".toList ++ p.2 ++ "\n".toList).flatten = body l := by
  induction l with
  | nil => rfl
  | cons p l ih =>
    obtain ⟨a, b⟩ := p
    have e : body ((a, b) :: l) = showInt a ++ (" ".toList ++ (b ++ ("\n".toList ++ body l))) := rfl
    rw [List.map_cons, List.flatten_cons, ih, e]
    simp only [List.append_assoc]

theorem sprint_text {a : Arrays} (h : Textable a) : sprint (some a) = .ok (some (text a.pairs)) := by
  have hm : Out.mapOut piece a.pairs = .ok (a.pairs.map fun p => showInt p.1 ++ " ".toList ++ p.2 ++ "\n".toList) := by
    apply Out.mapOut_ok
    intro p hp
    have l1 := Util.showInt_length (h.ids p hp)
    have l2 := (h.names p hp).2
    exact buf_ok (by simp [MAX_STRING] at l2 ⊢; omega)
  unfold sprint
  simp only
  rw [hm, Out.ok_bind, Util.emit_eq, Out.ok_bind, Out.pure_eq, List.flatten_append, List.flatten_append, body_eq]
  unfold text
  by_cases hn : a.pairs.length ≠ 0
  · simp only [if_pos hn, List.flatten_cons, List.flatten_nil, List.append_nil, List.append_assoc]
  · simp only [if_neg hn, List.flatten_cons, List.flatten_nil, List.append_nil, List.nil_append, List.append_assoc]

theorem readLoop_body (l : List (Int × Str)) (h1 : ∀ p ∈ l, fits 32 p.1) (h2 : ∀ p ∈ l, Strings.Word p.2) {pre : Str} (hp : Util.Skips pre) :
    ∃ tail, Util.Skips tail ∧ ∀ rest, readLoop l.length (pre ++ (body l ++ rest)) = .ok (l, tail ++ rest) := by
  induction l generalizing pre with
  | nil => exact ⟨pre, hp, fun rest => rfl⟩
  | cons p l ih =>
    obtain ⟨a, b⟩ := p
    have hw := h2 (a, b) (by simp)
    obtain ⟨tail, s1, r1⟩ := ih (fun q hq => h1 q (by simp [hq])) (fun q hq => h2 q (by simp [hq])) Util.Skips.newline
    refine ⟨tail, s1, fun rest => ?_⟩
    have e : body ((a, b) :: l) = showInt a ++ (" ".toList ++ (b ++ ("\n".toList ++ body l))) := rfl
    rw [e]
    simp only [List.length_cons, readLoop, List.append_assoc]
    rw [Util.read_int_pre hp (h1 (a, b) (by simp)) (Util.Sep.space _)]
    simp only [Out.ok_bind]
    rw [Util.read_string_pre Util.Skips.space hw.1 (by
      intro c hc
      obtain ⟨x1, x2⟩ := hw.2.2 c hc
      have x3 : c ≠ '\n' := by rintro rfl; simp [isSpace] at x1
      simp [Util.wordChar, x1, x2, x3]) hw.2.1 (Util.Sep.newline _)]
    simp only [Out.ok_bind]
    rw [r1]; rfl

/-- C44: the reader inverts the printer. -/
theorem arrays_text_round_trip {a : Arrays} (h : Textable a) : ops.RoundTrip a ∧
    ∀ pre : Str, (∀ c ∈ pre, isSpace c = true) → ∃ rest, ops.sread (some (pre ++ text a.pairs)) = .ok (some a, rest) := by
  have key : ∀ pre : Str, (∀ c ∈ pre, isSpace c = true) → ∃ rest, ops.sread (some (pre ++ text a.pairs)) = .ok (some a, rest) := by
    intro pre hp
    have hh : Util.Skips "# Number of arrays\n".toList := Util.skips_of (by decide)
    have hc : Util.Skips ("\n".toList ++ (if a.pairs.length ≠ 0 then "# Mapping array-identifiers/array-names\n".toList else [])) := by
      split
      · exact Util.skips_of (by decide)
      · exact Util.skips_of (by decide)
    obtain ⟨tail, s1, r1⟩ := readLoop_body a.pairs h.ids (fun p hp => (h.names p hp).1) hc
    have r1 := r1 []
    rw [List.append_nil, List.append_nil] at r1
    refine ⟨some tail, ?_⟩
    rw [show ops.sread = sread from rfl]
    unfold sread text
    simp only
    rw [← List.append_assoc pre, Util.read_int_pre ((Util.Skips.blanks hp).append hh) (Lines.fits_small h.nb) (Util.Sep.newline _)]
    simp only [Out.ok_bind, readPairs]
    rw [if_neg (by omega)]
    simp only [Int.toNat_natCast]
    rw [← List.append_assoc "\n".toList, r1]
    rfl
  refine ⟨⟨_, sprint_text h, fun pre hp => ?_⟩, key⟩
  obtain ⟨rest, e⟩ := key pre hp
  refine ⟨a, rest, e, ?_⟩
  rw [show ops.equal = equal from rfl, equal_some_iff]; exact ⟨rfl, fun _ h => h⟩

/-- The hypotheses are met. -/
example : Textable ⟨[(1, "A".toList), (2, "tab_2".toList)]⟩ where
  ids := by decide
  names := by
    intro p hp
    simp only [List.mem_cons, List.not_mem_nil, or_false] at hp
    rcases hp with rfl | rfl <;> exact ⟨⟨by decide, by decide, by decide⟩, by decide⟩
  nb := by decide

set_option maxRecDepth 8000 in
/-- C44 finding: a name with a blank is not read back. -/
theorem arrays_text_violates : ∃ t, sprint (some ⟨[(1, "a b".toList)]⟩) = .ok (some t) ∧
    ∃ r, sread (some t) = .ok (some ⟨[(1, "a".toList)]⟩, r) :=
  ⟨"# Number of arrays\n1\n# Mapping array-identifiers/array-names\n1 a b\n".toList, by decide, some " b\n".toList, by decide⟩

end Arrays

/-! ## scatnames -/

/-- C46: `osl_scatnames_equal` compares the names. -/
theorem scatnames_equal_decides : Scatnames.ops.EqualDecides (fun _ => True) (fun s => s.names.map Strings.words) := by
  refine ⟨fun x y _ _ => ?_, rfl, fun _ => ⟨rfl, rfl⟩⟩
  refine ⟨Strings.equal x.names y.names, ?_, ?_⟩
  · show Scatnames.equal (some x) (some y) = _
    simp only [Scatnames.equal]
    cases Strings.equal x.names y.names <;> rfl
  · rw [Strings.strings_equal_iff]
    obtain ⟨x⟩ := x
    obtain ⟨y⟩ := y
    cases x <;> cases y <;> simp

/-- C45 for scatnames: non-empty lists of words are read back. -/
theorem scatnames_text_round_trip (s : Strings) (hne : s.words ≠ []) (hw : ∀ w ∈ s.words, Strings.Word w) :
    Scatnames.ops.RoundTrip { names := some s } := by
  have hs := Strings.sprint_eq (s := s) (fun w h => (hw w h).2.1)
  refine ⟨Strings.line s.words ++ ['\n'], ?_, fun pre hp => ?_⟩
  · rw [show Scatnames.ops.sprint = Scatnames.sprint from rfl]
    simp only [Scatnames.sprint, hs, Out.ok_bind]; rfl
  · have h0 := Strings.sread_line hne hw []
    have h1 : Strings.sread (pre ++ (Strings.line s.words ++ ['\n'])) = .ok (some { string := some s.words }, some []) := by
      rw [← h0]
      unfold Strings.sread
      simp only
      rw [Util.sskip_spaces hp]
    refine ⟨{ names := some { string := some s.words } }, some [], ?_, ?_⟩
    · rw [show Scatnames.ops.sread = Scatnames.sread from rfl]
      simp only [Scatnames.sread, h1, Out.ok_bind]; rfl
    · obtain ⟨b, e1, e2⟩ := scatnames_equal_decides.1 { names := some s } { names := some { string := some s.words } } trivial trivial
      rw [e1, e2.mpr rfl]

theorem scatnames_clone_equal (s : Scatnames) : Scatnames.ops.CloneEqual s := by
  refine ⟨_, rfl, ?_⟩
  rw [show Scatnames.ops.equal = Scatnames.equal from rfl]
  simp [Scatnames.equal, Strings.strings_clone_equal]

/-- Findings: an empty list of names is read back as NULL; printing a NULL structure dereferences it. -/
theorem scatnames_text_violates : Scatnames.ops.sprint (some { names := some Strings.malloc }) = .ok (some "\n".toList) ∧
    Scatnames.ops.sread (some "\n".toList) = .ok (none, some []) ∧ Scatnames.ops.sprint none = .ub := by decide

end Ext
end Osl
