import Verif.HeapUpdate
import Verif.HeapQueryExtProps
/-!
# Searches in memory (C76): the index of a string, of an array identifier, of an array name
-/

set_option linter.unusedSectionVars false

namespace Osl.Mem

open Osl.Ext

variable [Allocator] {α : Type}

/-- The number of elements before the first one with `f`. -/
def firstWith (f : α → Bool) : List α → Nat
  | [] => 0
  | x :: l => if f x then 0 else firstWith f l + 1

theorem firstBelow_from {P : Assn} {t : Nat → M Bool} {f : α → Bool} : ∀ (l u : List α), (∀ j x, (u ++ l)[j]? = some x → Query P (t j) (f x)) →
    Query P (firstBelow t l.length u.length) (u.length + firstWith f l)
  | [], _, _ => Query.ret _
  | x :: l, u, h => by
    show Query P (firstBelow t (l.length + 1) u.length) _
    unfold firstBelow firstWith
    refine Query.bind (h u.length x (by simp)) ?_
    cases hx : f x with
    | true => exact Query.ret _
    | false =>
      rw [if_neg (by simp), if_neg (by simp)]
      have := firstBelow_from (P := P) (t := t) (f := f) l (u ++ [x]) (by simpa using h)
      rw [show (u ++ [x]).length + firstWith f l = u.length + (firstWith f l + 1) by simp; omega] at this
      simpa using this

theorem firstBelow_query {P : Assn} {t : Nat → M Bool} {f : α → Bool} {l : List α} {n v : Nat} (hn : n = l.length) (hv : v = firstWith f l)
    (h : ∀ j x, l[j]? = some x → Query P (t j) (f x)) : Query P (firstBelow t n 0) v := by
  subst hn hv
  have := firstBelow_from l [] h
  simpa using this

/-- One string of an array compared with another string. -/
theorem word_query {a q : Ptr} {ps t : List Ptr} {ws : List Str} {i : Nat} {w v : Str} (hw : ws[i]? = some w) :
    Query ((a ↦ .ptrs (ps ++ t) ∗ wordsAt ps ws) ∗ q ↦ .chars v) (do let w ← getField a i; strEq w q) (decide (w = v)) := by
  refine Query.opened (fun h hh => ?_)
  obtain ⟨h1, h2, hd, rfl, ⟨x1, x2, xd, rfl, xa, xb⟩, y⟩ := hh
  obtain ⟨s, hs, xb⟩ := wordsAt_get hw _ xb
  refine ⟨((a ↦ .ptrs (ps ++ t) ∗ (s ↦ .chars w ∗ anything)) ∗ q ↦ .chars v), ?_, ?_⟩
  · exact ⟨_, _, hd, rfl, ⟨x1, x2, xd, rfl, xa, xb⟩, y⟩
  · have ls : i < ps.length := (List.getElem?_eq_some_iff.mp hs).1
    qstep (getField_query (p := a) (i := i) (nth_of_get (by rw [List.getElem?_append_left ls]; exact hs)))
    rw [show ((a ↦ .ptrs (ps ++ t) ∗ (s ↦ .chars w ∗ anything)) ∗ q ↦ .chars v) =
      ((s ↦ .chars w ∗ q ↦ .chars v) ∗ a ↦ .ptrs (ps ++ t) ∗ anything) by ac_rfl]
    exact strEq_query.left

theorem arrayWord_query {a q : Ptr} {ws : List Str} {i : Nat} {w v : Str} (hw : ws[i]? = some w) :
    Query (arrayAt a ws ∗ q ↦ .chars v) (do let w ← getField a i; strEq w q) (decide (w = v)) := by
  unfold arrayAt
  rw [ex_sep]
  exact Query.ex (fun ps => word_query hw)

theorem strsWord_query {a q : Ptr} {ws : List Str} {i : Nat} {w v : Str} (hw : ws[i]? = some w) :
    Query (strsAt a ws ∗ q ↦ .chars v) (do let w ← getField a i; strEq w q) (decide (w = v)) := by
  refine Query.of_fact (φ := a ≠ 0) (fun h hh => ?_) (fun hp => ?_)
  · intro e
    subst e
    obtain ⟨_, _, _, _, h1, _⟩ := hh
    rw [strsAt_null] at h1
    rw [h1.1] at hw
    cases hw
  · rw [strsAt_ne hp, ex_sep]
    refine Query.ex (fun ps => ?_)
    have := word_query (a := a) (q := q) (ps := ps) (t := []) (v := v) hw
    simpa using this

theorem strFindLoop_query {p q : Ptr} {s : Strings} {t : Str} : ∀ (l u : List Str) (f i : Nat), s.words = u ++ l → u.length = i → l.length < f →
    Query (stringsAt p (some s) ∗ q ↦ .chars t) (strFindLoop p q f i) (Strings.findLoop t i l)
  | _, _, 0, _, _, _, hf => absurd hf (by omega)
  | [], u, f + 1, i, hs, hi, hf => by
    unfold strFindLoop
    qstep (strings_size_query (p := p) (s := some s))
    rw [size_words, if_neg (by rw [hs]; simp [hi])]
    exact Query.ret _
  | w :: l, u, f + 1, i, hs, hi, hf => by
    unfold strFindLoop Strings.findLoop
    qstep (strings_size_query (p := p) (s := some s))
    rw [size_words, if_pos (by rw [hs]; simp [hi])]
    have hw : s.words[i]? = some w := by rw [hs, ← hi]; simp
    have es : s.words ≠ [] := by intro e; rw [e] at hw; cases hw
    have ih := strFindLoop_query (p := p) (q := q) (s := s) (t := t) l (u ++ [w]) f (i + 1) (by simp [hs]) (by simp [hi]) (by simp at hf; omega)
    have key : Query (stringsAt p (some s) ∗ q ↦ .chars t) (strFindAt p q i) (decide (w = t)) := by
      show Query ((ex fun a => p ↦ .ptrs [a] ∗ stringAt a s.string) ∗ q ↦ .chars t) _ _
      rw [ex_sep]
      refine Query.ex (fun a => ?_)
      rw [stringAt_array es]
      unfold strFindAt
      qstep (getField_query (p := p) (i := 0) rfl)
      rw [show ((p ↦ .ptrs [a] ∗ arrayAt a s.words) ∗ q ↦ .chars t) = ((arrayAt a s.words ∗ q ↦ .chars t) ∗ p ↦ .ptrs [a]) by ac_rfl]
      exact (arrayWord_query hw).left
    refine Query.bind key ?_
    by_cases hx : w = t
    · rw [if_pos hx, if_pos (by simp [hx])]; exact Query.ret _
    · rw [if_neg hx, if_neg (by simp [hx])]; exact ih

/-- C76: `osl_strings_find` only reads, and gives the index of the first string which is the given one (the number of strings when there is none). -/
theorem strings_find_query {p q : Ptr} {s : Option Strings} {t : Str} : Query (stringsAt p s ∗ q ↦ .chars t) (strFind p q) (Strings.find s t) := by
  unfold strFind
  qstep (strings_size_query (p := p) (s := s))
  cases s with
  | none =>
    show Query _ (strFindLoop p q 1 0) _
    unfold strFindLoop
    qstep (strings_size_query (p := p) (s := none))
    exact Query.ret _
  | some s => exact strFindLoop_query s.words [] _ 0 rfl rfl (by rw [size_words]; omega)

theorem idLoop_first {id : Int} : ∀ (l : List (Int × Str)), Arrays.idLoop id l = firstWith (fun x => decide (x.1 = id)) l
  | [] => rfl
  | x :: l => by unfold Arrays.idLoop firstWith; rw [idLoop_first l]; by_cases h : x.1 = id <;> simp [h]

theorem nameLoop_first {t : Str} : ∀ (l : List (Int × Str)), Arrays.nameLoop t l = firstWith (fun x => decide (x.2 = t)) l
  | [] => rfl
  | x :: l => by unfold Arrays.nameLoop firstWith; rw [nameLoop_first l]; by_cases h : x.2 = t <;> simp [h]

/-- C76: `osl_arrays_get_index_from_id` only reads, and gives the index of the first array with the identifier (the number of arrays when there is none). -/
theorem arrays_get_index_from_id_query {p : Ptr} {d : Option Arrays} {id : Int} : Query (optAt arraysAt p d) (arrIndexFromId p id) (Arrays.get_index_from_id d id) := by
  unfold arrIndexFromId
  cases d with
  | none =>
    refine Query.of_fact (φ := p = 0) (fun _ hh => hh.1) (fun hp => ?_)
    rw [if_pos hp]
    exact Query.ret _
  | some x =>
    rw [optAt_some]
    refine Query.of_fact (φ := p ≠ 0) (fun _ hh => arraysAt_ne _ hh) (fun hp => ?_)
    rw [if_neg hp]
    unfold arraysAt
    refine Query.ex (fun a => Query.ex (fun b => ?_))
    qstep (getInt_query (p := p) (i := 0) rfl)
    refine firstBelow_query (l := x.pairs) (by simp) (idLoop_first _) (fun j y hy => ?_)
    unfold arrHasId
    qstep (getPtr_query (p := p) (i := 0) (x := a) rfl)
    qstep (int_query (a := a) (i := j) (x := y.1) (by simp [hy]))
    exact Query.ret _

/-- C76: `osl_arrays_get_index_from_name` only reads, and gives the index of the first array with the name (the number of arrays when there is none). -/
theorem arrays_get_index_from_name_query {p q : Ptr} {d : Option Arrays} {t : Option Str} :
    Query (optAt arraysAt p d ∗ uriAt q t) (arrIndexFromName p q) (Arrays.get_index_from_name d t) := by
  unfold arrIndexFromName
  cases d with
  | none =>
    rw [optAt_none]
    refine Query.fact (fun hp => ?_)
    rw [if_pos (Or.inl hp)]
    cases t <;> exact Query.ret _
  | some x =>
    cases t with
    | none =>
      rw [sep_comm]
      refine Query.fact (fun hp => ?_)
      rw [if_pos (Or.inr hp)]
      exact Query.ret _
    | some t =>
      rw [optAt_some]
      show Query (arraysAt p x ∗ q ↦ .chars t) _ _
      refine Query.of_fact (φ := p ≠ 0 ∧ q ≠ 0) (fun _ hh => ?_) (fun hp => ?_)
      · obtain ⟨_, _, _, _, h1, h2⟩ := hh
        exact ⟨arraysAt_ne _ h1, pto_ne _ h2⟩
      rw [if_neg (by simp [hp.1, hp.2])]
      unfold arraysAt
      rw [ex_sep]; refine Query.ex (fun a => ?_)
      rw [ex_sep]; refine Query.ex (fun b => ?_)
      qstep (getInt_query (p := p) (i := 0) rfl)
      refine firstBelow_query (l := x.pairs) (by simp) (nameLoop_first _) (fun j y hy => ?_)
      unfold arrHasName
      qstep (getPtr_query (p := p) (i := 1) (x := b) rfl)
      rw [show ((p ↦ .node [(x.pairs.length : Int)] [a, b] ∗ intsAt a (x.pairs.map (·.1)) ∗ strsAt b (x.pairs.map (·.2))) ∗ q ↦ .chars t) =
        ((strsAt b (x.pairs.map (·.2)) ∗ q ↦ .chars t) ∗ p ↦ .node [(x.pairs.length : Int)] [a, b] ∗ intsAt a (x.pairs.map (·.1))) by ac_rfl]
      exact (strsWord_query (by simp [hy])).left

end Osl.Mem
