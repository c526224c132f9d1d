import Verif.Strings
import Verif.ReadLemmas
/-!
# Properties of source/strings.c and source/names.c: C28, C29, C43
-/

namespace Osl
namespace Strings

theorem size_eq (s : Strings) : size (some s) = s.words.length := by
  obtain ⟨_ | l⟩ := s <;> rfl

/-! ## C28 -/

theorem genLoop_eq (pre : Str) (i n : Nat) : genLoop pre i n = (List.range' (i + 1) n).map (fun k => pre ++ showNat k) := by
  induction n generalizing i with
  | zero => rfl
  | succ n ih => rw [genLoop, ih, List.range'_succ]; rfl

/-- C28: `osl_strings_generate(prefix, n)` gives `prefix1 .. prefixn`, for every `n` from 0 to INT_MAX - 1. -/
theorem strings_generate_correct (pre : Str) (n : Nat) (h : (n : Int) < 2 ^ 31 - 1) :
    ∃ s, generate pre n = .ok s ∧ s.words = (List.range' 1 n).map (fun k => pre ++ showNat k) := by
  unfold generate
  split
  · rename_i h0; have : n = 0 := by omega
    subst this; exact ⟨_, rfl, rfl⟩
  · rw [if_neg (by simp [cMax] at h ⊢; omega)]
    exact ⟨_, rfl, by simp [words, genLoop_eq]⟩

/-- Finding (C28): a negative number of strings, or INT_MAX, is undefined behaviour. -/
theorem strings_generate_negative_violates (pre : Str) {n : Int} (h : n < 0) : generate pre n = .ub := by
  unfold generate
  rw [if_neg (by omega), if_pos (.inl h)]

theorem showNat_injective {i j : Nat} (h : showNat i = showNat j) : i = j := by
  rw [← digitsVal_showNat i, ← digitsVal_showNat j, h]

/-- C28: the generated strings are pairwise distinct. -/
theorem strings_generate_nodup (pre : Str) (n : Int) (s : Strings) (h : generate pre n = .ok s) : s.words.Nodup := by
  unfold generate at h
  split at h
  · cases h; simp [words]
  · split at h
    · cases h
    · injection h with h
      subst h
      simp only [words, Option.getD_some, genLoop_eq]
      refine (List.pairwise_map).mpr (List.Pairwise.imp ?_ List.nodup_range')
      intro a b hab e
      exact hab (showNat_injective (List.append_cancel_left e))

theorem findLoop_spec (str : Str) (i : Nat) (l : List Str) :
    (str ∉ l → findLoop str i l = i + l.length) ∧
    (∀ before after, l = before ++ str :: after → str ∉ before → findLoop str i l = i + before.length) := by
  induction l generalizing i with
  | nil => exact ⟨fun _ => rfl, fun b a h => by simp at h⟩
  | cons w ws ih =>
    rw [findLoop]
    obtain ⟨ih1, ih2⟩ := ih (i + 1)
    constructor
    · intro h
      rw [if_neg (by rintro rfl; simp at h), ih1 (by simp at h; exact h.2)]
      simp; omega
    · intro b a h hb
      cases b with
      | nil => simp at h; rw [if_pos h.1]; rfl
      | cons x b =>
        simp at h
        obtain ⟨rfl, h⟩ := h
        rw [if_neg (by rintro rfl; simp at hb), ih2 b a h (by simp at hb; exact hb.2)]
        simp; omega

/-- C28: `osl_strings_find` gives the least index where the string is, the size if it is absent. -/
theorem strings_find_correct (s : Strings) (str : Str) :
    (str ∉ s.words → find (some s) str = size (some s)) ∧
    (str ∈ s.words → s.words[find (some s) str]? = some str ∧ ∀ i, i < find (some s) str → s.words[i]? ≠ some str) := by
  obtain ⟨h1, h2⟩ := findLoop_spec str 0 s.words
  refine ⟨fun h => by simp only [find]; rw [h1 h, size_eq]; omega, ?_⟩
  intro h
  obtain ⟨b, a, e, hb⟩ := List.append_of_mem_first h
  have := h2 b a e hb
  simp only [find]
  rw [this, Nat.zero_add]
  refine ⟨by rw [e]; simp, ?_⟩
  intro i hi hc
  rw [e, List.getElem?_append_left hi] at hc
  exact hb (List.mem_of_getElem? hc)
where
  List.append_of_mem_first {a : Str} {l : List Str} (h : a ∈ l) : ∃ b c, l = b ++ a :: c ∧ a ∉ b := by
    induction l with
    | nil => simp at h
    | cons x l ih =>
      by_cases e : a = x
      · subst e; exact ⟨[], l, rfl, by simp⟩
      · obtain ⟨b, c, h1, h2⟩ := ih (by simpa [e] using h)
        exact ⟨x :: b, c, by simp [h1], by simp [e, h2]⟩

/-- C28: `osl_strings_add` appends the string and changes nothing else. -/
theorem strings_add_correct (s : Strings) (str : Str) :
    (add s str).words = s.words ++ [str] ∧ size (some (add s str)) = size (some s) + 1 := by
  refine ⟨rfl, by rw [size_eq, size_eq]; simp [add, words]⟩

theorem equalLoop_iff (l m : List Str) (h : l.length = m.length) : equalLoop l m = true ↔ l = m := by
  induction l generalizing m with
  | nil => cases m with
    | nil => simp [equalLoop]
    | cons b m => simp at h
  | cons a l ih =>
    cases m with
    | nil => simp at h
    | cons b m =>
      rw [equalLoop]
      by_cases e : a = b
      · simp [e]; exact ih m (by simpa using h)
      · simp [e]

/-- C28: `osl_strings_equal` is the equality of the sequences of strings; NULL is equal to NULL only. -/
theorem strings_equal_iff (s1 s2 : Option Strings) : equal s1 s2 = true ↔
    (s1 = none ∧ s2 = none) ∨ (∃ a b, s1 = some a ∧ s2 = some b ∧ a.words = b.words) := by
  cases s1 with
  | none => cases s2 <;> simp [equal]
  | some a =>
    cases s2 with
    | none => simp [equal]
    | some b =>
      simp only [equal, size_eq]
      by_cases h : a.words.length = b.words.length
      · simp [h, equalLoop_iff _ _ h]
      · simp only [ne_eq, h, not_false_eq_true, if_true]
        constructor
        · intro h; cases h
        · rintro (h1 | ⟨x, y, h1, h2, h3⟩)
          · simp at h1
          · cases h1; cases h2; exact absurd (congrArg List.length h3) h

/-- C28: equality is an equivalence. -/
theorem strings_equal_equivalence : (∀ s, equal s s = true) ∧ (∀ s t, equal s t = equal t s) ∧
    (∀ s t u, equal s t = true → equal t u = true → equal s u = true) := by
  refine ⟨?_, ?_, ?_⟩
  · intro s; rw [strings_equal_iff]
    cases s with
    | none => exact .inl ⟨rfl, rfl⟩
    | some a => exact .inr ⟨a, a, rfl, rfl, rfl⟩
  · intro s t
    have : equal s t = true ↔ equal t s = true := by
      rw [strings_equal_iff, strings_equal_iff]
      constructor
      · rintro (⟨a, b⟩ | ⟨a, b, h1, h2, h3⟩)
        · exact .inl ⟨b, a⟩
        · exact .inr ⟨b, a, h2, h1, h3.symm⟩
      · rintro (⟨a, b⟩ | ⟨a, b, h1, h2, h3⟩)
        · exact .inl ⟨b, a⟩
        · exact .inr ⟨b, a, h2, h1, h3.symm⟩
    cases h1 : equal s t <;> cases h2 : equal t s <;> simp_all
  · intro s t u h1 h2
    rw [strings_equal_iff] at *
    rcases h1 with ⟨a, b⟩ | ⟨a, b, e1, e2, e3⟩
    · subst a; subst b
      rcases h2 with ⟨_, c⟩ | ⟨c, d, e4, _⟩
      · exact .inl ⟨rfl, c⟩
      · cases e4
    · subst e1; subst e2
      rcases h2 with ⟨c, _⟩ | ⟨c, d, e4, e5, e6⟩
      · cases c
      · cases e4; exact .inr ⟨a, d, rfl, e5, e3.trans e6⟩

theorem clone_words (s : Strings) : ∃ t, clone (some s) = some t ∧ t.words = s.words := by
  simp only [clone, size_eq]
  split
  · rename_i h
    exact ⟨malloc, rfl, by rw [List.length_eq_zero_iff.mp h]; rfl⟩
  · exact ⟨_, rfl, (List.map_congr_left (fun a _ => rfl)).trans (List.map_id _)⟩

/-- C28: a clone is equal to the original. -/
theorem strings_clone_equal (s : Option Strings) : equal s (clone s) = true := by
  rw [strings_equal_iff]
  cases s with
  | none => exact .inl ⟨rfl, rfl⟩
  | some s =>
    obtain ⟨t, h1, h2⟩ := clone_words s
    exact .inr ⟨s, t, rfl, h1, h2.symm⟩

/-- C28: `osl_strings_encapsulate` gives a one element array. -/
theorem strings_encapsulate (str : Str) : (encapsulate str).words = [str] := rfl

theorem addLoop_eq (r : Strings) (l : List Str) : ∃ t, addLoop (some r) l = .ok (some t) ∧ t.words = r.words ++ l := by
  induction l generalizing r with
  | nil => exact ⟨r, rfl, by simp⟩
  | cons w ws ih =>
    obtain ⟨t, h1, h2⟩ := ih (add r w)
    exact ⟨t, h1, by rw [h2]; simp [add, words]⟩

/-- C28, partial: `osl_strings_add_strings` concatenates, if the array of the second operand is not NULL. -/
theorem strings_add_strings_some (s1 s2 : Strings) (h : s2.string ≠ none) :
    ∃ t, add_strings (some s1) (some s2) = .ok (some t) ∧ t.words = s1.words ++ s2.words := by
  obtain ⟨_ | l⟩ := s2
  · exact absurd rfl h
  · obtain ⟨t, h1, h2⟩ := clone_words s1
    obtain ⟨u, h3, h4⟩ := addLoop_eq t l
    exact ⟨u, by simp only [add_strings]; rw [h1, h3], by rw [h4, h2]; rfl⟩

/-- Finding (C28): concatenating with the result of `osl_strings_generate(prefix, 0)` dereferences NULL. -/
theorem strings_add_strings_violates (pre : Str) (s1 : Option Strings) :
    ∃ s2, generate pre 0 = .ok s2 ∧ add_strings s1 (some s2) = .ub := ⟨_, rfl, rfl⟩

example : generate "N".toList 3 = .ok { string := some ["N1".toList, "N2".toList, "N3".toList] } ∧
    find (some { string := some ["a".toList, "b".toList, "b".toList] }) "b".toList = 1 ∧
    add_strings (some { string := some ["a".toList] }) (some { string := some ["b".toList] }) = .ok (some { string := some ["a".toList, "b".toList] }) := by decide

/-! ## C29 -/

/-- A word the textual format can hold: not empty, without blank nor comment mark, below the buffer size. -/
def Word (w : Str) : Prop := w ≠ [] ∧ w.length < MAX_STRING ∧ ∀ c ∈ w, isSpace c = false ∧ c ≠ '#'

theorem Word.tok {w : Str} (h : Word w) : ∀ c ∈ w, tokChar c = true := by
  intro c hc
  obtain ⟨h1, h2⟩ := h.2.2 c hc
  simp [tokChar, h1, h2]

/-- The text of a list of words. -/
def line : List Str → Str
  | [] => []
  | [w] => w
  | w :: ws => w ++ ' ' :: line ws

theorem pieces_flatten (l : List Str) : (pieces l).flatten = line l := by
  induction l with
  | nil => rfl
  | cons w ws ih =>
    cases ws with
    | nil => simp [pieces, line]
    | cons v vs => simp only [pieces, line, List.flatten_cons] at *; rw [ih]; simp

theorem sprint_eq {s : Strings} (h : ∀ w ∈ s.words, w.length < MAX_STRING) : sprint (some s) = .ok (line s.words ++ ['\n']) := by
  simp only [sprint]
  rw [if_pos (by simpa using h), Util.emit_eq]
  simp [pieces_flatten]

theorem countLoop_line (l : List Str) (hne : l ≠ []) (hl : ∀ w ∈ l, Word w) (rest : Str) (fuel nb : Nat)
    (hf : l.length ≤ fuel) : countLoop fuel (line l ++ '\n' :: rest) nb = nb + l.length := by
  induction l generalizing fuel nb with
  | nil => exact absurd rfl hne
  | cons w ws ih =>
    cases fuel with
    | zero => simp at hf
    | succ fuel =>
      have hw := hl w (by simp)
      have hwl : w.length ≠ 0 := fun h => hw.1 (List.length_eq_zero_iff.mp h)
      cases ws with
      | nil =>
        obtain ⟨h1, h2⟩ := takeWhile_append_stop (t := '\n' :: rest) hw.tok (by simp; decide)
        simp only [countLoop, line, h1, h2]
        simp [hwl]
      | cons v vs =>
        obtain ⟨h1, h2⟩ := takeWhile_append_stop (t := ' ' :: (line (v :: vs) ++ '\n' :: rest)) hw.tok (by simp; decide)
        simp only [countLoop, line, List.append_assoc, List.cons_append, h1, h2]
        simp only [hwl, ne_eq, not_false_eq_true, if_true]
        rw [if_neg (by decide), ih (by simp) (fun x hx => hl x (by simp [hx])) fuel (nb + 1) (by simp at hf ⊢; omega)]
        simp; omega

theorem readLoop_line (l : List Str) (hne : l ≠ []) (hl : ∀ w ∈ l, Word w) (rest : Str) :
    readLoop l.length (line l ++ '\n' :: rest) = .ok (l, some rest) := by
  induction l with
  | nil => exact absurd rfl hne
  | cons w ws ih =>
    have hw := hl w (by simp)
    cases ws with
    | nil =>
      obtain ⟨h1, h2⟩ := takeWhile_append_stop (t := '\n' :: rest) hw.tok (by simp; decide)
      simp only [List.length_cons, List.length_nil, readLoop, line]
      rw [h1, h2, if_neg (by have := hw.2.1; omega)]
      rfl
    | cons v vs =>
      obtain ⟨h1, h2⟩ := takeWhile_append_stop (t := ' ' :: (line (v :: vs) ++ '\n' :: rest)) hw.tok (by simp; decide)
      rw [List.length_cons, readLoop]
      simp only [line, List.append_assoc, List.cons_append]
      rw [h1, h2, if_neg (by have := hw.2.1; omega)]
      simp only [show (' ' = '#') = False by decide, if_false]
      rw [ih (by simp) (fun x hx => hl x (by simp [hx]))]

theorem line_starts {l : List Str} (hne : l ≠ []) (hl : ∀ w ∈ l, Word w) (rest : Str) : Util.Starts (line l ++ rest) := by
  cases l with
  | nil => exact absurd rfl hne
  | cons w ws =>
    have hw := hl w (by simp)
    cases hw' : w with
    | nil => exact absurd hw' hw.1
    | cons c cs =>
      have hc := hw.2.2 c (by rw [hw']; simp)
      intro d hd
      have : (line ((c :: cs) :: ws) ++ rest).head? = some c := by
        cases ws <;> simp [line]
      rw [this] at hd
      injection hd with hd
      subst hd
      exact hc

theorem line_length (l : List Str) (hl : ∀ w ∈ l, Word w) : l.length ≤ (line l).length + 1 := by
  induction l with
  | nil => simp
  | cons w ws ih =>
    have hw := hl w (by simp)
    have : 0 < w.length := List.length_pos_iff.mpr hw.1
    cases ws with
    | nil => simp
    | cons v vs =>
      have := ih (fun x hx => hl x (by simp [hx]))
      simp [line] at *; omega

theorem sread_line {l : List Str} (hne : l ≠ []) (hl : ∀ w ∈ l, Word w) (rest : Str) :
    sread (line l ++ '\n' :: rest) = .ok (some { string := some l }, some rest) := by
  unfold sread
  simp only
  rw [Util.sskip_starts (line_starts hne hl _), countLoop_line l hne hl rest _ 0 (by have := line_length l hl; simp; omega)]
  have : 0 < l.length := List.length_pos_iff.mpr hne
  rw [if_pos (by omega), Nat.zero_add, readLoop_line l hne hl rest]

theorem countLoop_comment (l : List Str) (hne : l ≠ []) (hl : ∀ w ∈ l, Word w) (rest : Str) (fuel nb : Nat)
    (hf : l.length ≤ fuel) : countLoop fuel (line l ++ '#' :: rest) nb = nb + l.length := by
  induction l generalizing fuel nb with
  | nil => exact absurd rfl hne
  | cons w ws ih =>
    cases fuel with
    | zero => simp at hf
    | succ fuel =>
      have hw := hl w (by simp)
      have hwl : w.length ≠ 0 := fun h => hw.1 (List.length_eq_zero_iff.mp h)
      cases ws with
      | nil =>
        obtain ⟨h1, h2⟩ := takeWhile_append_stop (t := '#' :: rest) hw.tok (by simp; decide)
        simp only [countLoop, line, h1, h2]
        simp [hwl]
      | cons v vs =>
        obtain ⟨h1, h2⟩ := takeWhile_append_stop (t := ' ' :: (line (v :: vs) ++ '#' :: rest)) hw.tok (by simp; decide)
        simp only [countLoop, line, List.append_assoc, List.cons_append, h1, h2]
        simp only [hwl, ne_eq, not_false_eq_true, if_true]
        rw [if_neg (by decide), ih (by simp) (fun x hx => hl x (by simp [hx])) fuel (nb + 1) (by simp at hf ⊢; omega)]
        simp; omega

theorem readLoop_comment (l : List Str) (hne : l ≠ []) (hl : ∀ w ∈ l, Word w) (rest : Str) :
    readLoop l.length (line l ++ '#' :: rest) = .ok (l, some ('#' :: rest)) := by
  induction l with
  | nil => exact absurd rfl hne
  | cons w ws ih =>
    have hw := hl w (by simp)
    cases ws with
    | nil =>
      obtain ⟨h1, h2⟩ := takeWhile_append_stop (t := '#' :: rest) hw.tok (by simp; decide)
      simp only [List.length_cons, List.length_nil, readLoop, line]
      rw [h1, h2, if_neg (by have := hw.2.1; omega)]
      rfl
    | cons v vs =>
      obtain ⟨h1, h2⟩ := takeWhile_append_stop (t := ' ' :: (line (v :: vs) ++ '#' :: rest)) hw.tok (by simp; decide)
      rw [List.length_cons, readLoop]
      simp only [line, List.append_assoc, List.cons_append]
      rw [h1, h2, if_neg (by have := hw.2.1; omega)]
      simp only [show (' ' = '#') = False by decide, if_false]
      rw [ih (by simp) (fun x hx => hl x (by simp [hx]))]

/-- C29: the words before a comment are read, whatever the comment; the comment is left. -/
theorem strings_sread_comment {l : List Str} (hne : l ≠ []) (hl : ∀ w ∈ l, Word w) (rest : Str) :
    sread (line l ++ '#' :: rest) = .ok (some { string := some l }, some ('#' :: rest)) := by
  unfold sread
  simp only
  rw [Util.sskip_starts (line_starts hne hl _), countLoop_comment l hne hl rest _ 0 (by have := line_length l hl; simp; omega)]
  have : 0 < l.length := List.length_pos_iff.mpr hne
  rw [if_pos (by omega), Nat.zero_add, readLoop_comment l hne hl rest]

/-- C29: reading the printed text of a non-empty array of words gives the array back, and leaves the
input just after it. -/
theorem strings_text_round_trip (s : Strings) (hne : s.words ≠ []) (hw : ∀ w ∈ s.words, Word w) (rest : Str) :
    ∃ t r, sprint (some s) = .ok t ∧ sread (t ++ rest) = .ok (some r, some rest) ∧ equal (some s) (some r) = true := by
  refine ⟨_, { string := some s.words }, sprint_eq (fun w h => (hw w h).2.1), ?_, ?_⟩
  · rw [List.append_assoc]; exact sread_line hne hw rest
  · rw [strings_equal_iff]; exact .inr ⟨_, _, rfl, rfl, rfl⟩

/-- Finding (C29): the empty array is printed as an empty line, which is read back as NULL, not equal to it. -/
theorem strings_text_empty_violates : sprint (some malloc) = .ok "\n".toList ∧ sread "\n".toList = .ok (none, some []) ∧
    equal (some malloc) none = false := by decide

/-- Finding (C29): two blanks between words (a legal input) make the last word disappear. -/
theorem strings_sread_double_blank_violates :
    sread "ab  cd\n".toList = .ok (some { string := some ["ab".toList, "".toList] }, some "cd\n".toList) := by decide

/-- Finding (C29): when the input ends with the last word the position is left after the terminator. -/
theorem strings_sread_position_violates :
    sread "ab cd".toList = .ok (some { string := some ["ab".toList, "cd".toList] }, none) := by decide

example : Word "foo".toList ∧ sprint (some { string := some ["foo".toList, "x_1".toList] }) = .ok "foo x_1\n".toList ∧
    sread "# c\n  foo x_1\nz".toList = .ok (some { string := some ["foo".toList, "x_1".toList] }, some "z".toList) := by
  refine ⟨⟨by decide, by decide, by decide⟩, by decide, by decide⟩

end Strings

/-! ## C43 -/

namespace Names

/-- C43: the generated names have the requested sizes and are `prefix1 .. prefixn`. -/
theorem names_generate_correct (pp ip sp lp ap : Str) (np ni ns nl na : Nat)
    (h1 : (np : Int) < 2 ^ 31 - 1) (h2 : (ni : Int) < 2 ^ 31 - 1) (h3 : (ns : Int) < 2 ^ 31 - 1)
    (h4 : (nl : Int) < 2 ^ 31 - 1) (h5 : (na : Int) < 2 ^ 31 - 1) :
    ∃ n p i s l a, generate pp np ip ni sp ns lp nl ap na = .ok n ∧
      n.parameters = some p ∧ p.words = (List.range' 1 np).map (fun k => pp ++ showNat k) ∧
      n.iterators = some i ∧ i.words = (List.range' 1 ni).map (fun k => ip ++ showNat k) ∧
      n.scatt_dims = some s ∧ s.words = (List.range' 1 ns).map (fun k => sp ++ showNat k) ∧
      n.local_dims = some l ∧ l.words = (List.range' 1 nl).map (fun k => lp ++ showNat k) ∧
      n.arrays = some a ∧ a.words = (List.range' 1 na).map (fun k => ap ++ showNat k) := by
  obtain ⟨p, p1, p2⟩ := Strings.strings_generate_correct pp np h1
  obtain ⟨i, i1, i2⟩ := Strings.strings_generate_correct ip ni h2
  obtain ⟨s, s1, s2⟩ := Strings.strings_generate_correct sp ns h3
  obtain ⟨l, l1, l2⟩ := Strings.strings_generate_correct lp nl h4
  obtain ⟨a, a1, a2⟩ := Strings.strings_generate_correct ap na h5
  refine ⟨⟨some p, some i, some s, some l, some a⟩, p, i, s, l, a, ?_, rfl, p2, rfl, i2, rfl, s2, rfl, l2, rfl, a2⟩
  simp [generate, p1, i1, s1, l1, a1]

/-- A prefix followed by a number determines both, if the prefix does not end with a digit. -/
theorem prefix_number_injective {p q : Str} {i j : Nat} (hp : ∀ c, p.getLast? = some c → isDigit c = false)
    (hq : ∀ c, q.getLast? = some c → isDigit c = false) (h : p ++ showNat i = q ++ showNat j) : p = q ∧ i = j := by
  have e := congrArg List.reverse h
  rw [List.reverse_append, List.reverse_append] at e
  have a1 := takeWhile_append_stop (p := isDigit) (s := (showNat i).reverse) (t := p.reverse)
    (fun c hc => showNat_digits i c (by simpa using hc)) (fun c hc => hp c (by simpa using hc))
  have a2 := takeWhile_append_stop (p := isDigit) (s := (showNat j).reverse) (t := q.reverse)
    (fun c hc => showNat_digits j c (by simpa using hc)) (fun c hc => hq c (by simpa using hc))
  rw [e] at a1
  have h1 := a1.1.symm.trans a2.1
  have h2 := a1.2.symm.trans a2.2
  exact ⟨List.reverse_inj.mp h2, Strings.showNat_injective (List.reverse_inj.mp h1)⟩

/-- C43, partial: names generated from two distinct prefixes are distinct, if the prefixes do not end
with a digit.  Without this condition the claim is false: `names_generate_distinct_violates`. -/
theorem names_generate_distinct {p q : Str} {n m : Int} {s t : Strings} (hpq : p ≠ q)
    (hp : ∀ c, p.getLast? = some c → isDigit c = false) (hq : ∀ c, q.getLast? = some c → isDigit c = false)
    (hs : Strings.generate p n = .ok s) (ht : Strings.generate q m = .ok t) : ∀ w ∈ s.words, w ∉ t.words := by
  have key : ∀ (p : Str) (n : Int) (s : Strings), Strings.generate p n = .ok s → ∀ w ∈ s.words, ∃ k, w = p ++ showNat k := by
    intro p n s h w hw
    unfold Strings.generate at h
    split at h
    · cases h; simp [Strings.words] at hw
    · split at h
      · cases h
      · injection h with h
        subst h
        simp only [Strings.words, Option.getD_some, Strings.genLoop_eq, List.mem_map] at hw
        obtain ⟨k, _, rfl⟩ := hw
        exact ⟨k, rfl⟩
  intro w hw hw'
  obtain ⟨k, rfl⟩ := key p n s hs w hw
  obtain ⟨k', e⟩ := key q m t ht _ hw'
  exact hpq (prefix_number_injective hp hq e).1

/-- Finding (C43): with the distinct prefixes `a` and `a1`, the eleventh `a` is the first `a1`. -/
theorem names_generate_distinct_violates : ∃ s t, Strings.generate "a".toList 11 = .ok s ∧
    Strings.generate "a1".toList 1 = .ok t ∧ "a11".toList ∈ s.words ∧ "a11".toList ∈ t.words :=
  ⟨_, _, rfl, rfl, by decide, by decide⟩

/-- C43: a clone of names has equal components. -/
theorem names_clone_equal (n : Names) : ∃ m, clone (some n) = some m ∧
    Strings.equal n.parameters m.parameters = true ∧ Strings.equal n.iterators m.iterators = true ∧
    Strings.equal n.scatt_dims m.scatt_dims = true ∧ Strings.equal n.local_dims m.local_dims = true ∧
    Strings.equal n.arrays m.arrays = true :=
  ⟨_, rfl, Strings.strings_clone_equal _, Strings.strings_clone_equal _, Strings.strings_clone_equal _,
    Strings.strings_clone_equal _, Strings.strings_clone_equal _⟩

example : (generate "P".toList 1 "i".toList 2 "c".toList 0 "l".toList 0 "A".toList 1) = .ok {
    parameters := some { string := some ["P1".toList] }, iterators := some { string := some ["i1".toList, "i2".toList] }, scatt_dims := some { string := none }, local_dims := some { string := none }, arrays := some { string := some ["A1".toList] } } := by decide

end Names
end Osl
