import Verif.Scoplib
import Verif.ReadValues
import Verif.ScopPrintProps
/-!
# The SCoPLib text of a relation (C64)

What a SCoPLib text says is, for each of its lines, the words before a `#`; lines without any word do not count.
-/

namespace Osl

/-- The words of a line, before its comment (specification). -/
def lineWords (l : Str) : List Str := textWords (l.takeWhile (fun ch => ch != '#'))

/-- The words of the lines which have some (specification). -/
def rowsOf (ls : List Str) : List (List Str) := (ls.map lineWords).filter (fun ws => decide (ws ≠ []))

/-- The text `t` says `rows`, line by line, comments and blank lines apart (specification). -/
def Says (t : Str) (rows : List (List Str)) : Prop := ∃ ls, (∀ l ∈ ls, NoNL l) ∧ t = Util.unlines ls ∧ rowsOf ls = rows

/-- The text `t` is a table of integers (specification). -/
def SaysInts (t : Str) (rows : List (List Int)) : Prop := Says t (rows.map fun r => r.map showInt)

theorem takeWhile_all {p : Char → Bool} {s : Str} (h : ∀ ch ∈ s, p ch = true) : s.takeWhile p = s := by
  have := List.takeWhile_append_of_pos (p := p) (l₁ := s) (l₂ := []) h
  simpa using this

theorem unlines_cons (l : Str) (ls : List Str) : Util.unlines (l :: ls) = l ++ '\n' :: Util.unlines ls := by simp [Util.unlines]

theorem unlines_append (a b : List Str) : Util.unlines (a ++ b) = Util.unlines a ++ Util.unlines b := by simp [Util.unlines]

theorem unlines_inj : ∀ {a b : List Str}, (∀ l ∈ a, NoNL l) → (∀ l ∈ b, NoNL l) → Util.unlines a = Util.unlines b → a = b
  | [], [], _, _, _ => rfl
  | [], l :: b, _, _, e => by rw [unlines_cons] at e; simp [Util.unlines] at e
  | l :: a, [], _, _, e => by rw [unlines_cons] at e; simp [Util.unlines] at e
  | l :: a, l' :: b, ha, hb, e => by
    rw [unlines_cons, unlines_cons] at e
    have h1 := takeWhile_append_stop (p := fun ch => ch != '\n') (s := l) (t := '\n' :: Util.unlines a) (by
      intro x hx; have := ha l (by simp); simp; rintro rfl; exact this hx) (by intro x hx; simp at hx; subst hx; rfl)
    have h2 := takeWhile_append_stop (p := fun ch => ch != '\n') (s := l') (t := '\n' :: Util.unlines b) (by
      intro x hx; have := hb l' (by simp); simp; rintro rfl; exact this hx) (by intro x hx; simp at hx; subst hx; rfl)
    have e1 : l = l' := by rw [← h1.1, e, h2.1]
    subst e1
    have e2 := List.append_cancel_left e
    injection e2 with _ e2
    rw [unlines_inj (fun x hx => ha x (by simp [hx])) (fun x hx => hb x (by simp [hx])) e2]

/-- A text says one thing only. -/
theorem Says.unique {t : Str} {a b : List (List Str)} (ha : Says t a) (hb : Says t b) : a = b := by
  obtain ⟨l, h1, h2, rfl⟩ := ha
  obtain ⟨l', h1', h2', rfl⟩ := hb
  rw [unlines_inj h1 h1' (h2.symm.trans h2')]

theorem Says.nil : Says [] [] := ⟨[], by simp, rfl, rfl⟩

theorem Says.append {s t : Str} {a b : List (List Str)} (ha : Says s a) (hb : Says t b) : Says (s ++ t) (a ++ b) := by
  obtain ⟨l, h1, rfl, rfl⟩ := ha
  obtain ⟨l', h1', rfl, rfl⟩ := hb
  refine ⟨l ++ l', ?_, (unlines_append _ _).symm, by simp [rowsOf]⟩
  intro x hx
  rcases List.mem_append.mp hx with h | h
  · exact h1 x h
  · exact h1' x h

theorem Says.line {l : Str} (h : NoNL l) {ws : List Str} (hw : lineWords l = ws) (hne : ws ≠ []) : Says (l ++ ['\n']) [ws] :=
  ⟨[l], by simpa using h, by simp [Util.unlines], by simp [rowsOf, hw, hne]⟩

theorem Says.silent {l : Str} (h : NoNL l) (hw : lineWords l = []) : Says (l ++ ['\n']) [] :=
  ⟨[l], by simpa using h, by simp [Util.unlines], by simp [rowsOf, hw]⟩

theorem Says.comment {u : Str} (h : NoNL u) : Says ('#' :: u ++ ['\n']) [] :=
  Says.silent (NoNL.cons (by decide) h) (by simp [lineWords, textWords, wordsFrom])

theorem Says.flatten {l : List Str} {rs : List (List (List Str))} (h : Rel.All2 Says l rs) : Says l.flatten rs.flatten := by
  induction h with
  | nil => exact Says.nil
  | cons h _ ih => exact h.append ih

theorem SaysInts.nil : SaysInts [] [] := Says.nil

theorem SaysInts.append {s t : Str} {a b : List (List Int)} (ha : SaysInts s a) (hb : SaysInts t b) : SaysInts (s ++ t) (a ++ b) := by
  unfold SaysInts; rw [List.map_append]; exact Says.append ha hb

theorem SaysInts.flatten {l : List Str} {rs : List (List (List Int))} (h : Rel.All2 SaysInts l rs) : SaysInts l.flatten rs.flatten := by
  induction h with
  | nil => exact Says.nil
  | cons h _ ih => exact h.append ih

theorem showInt_inj {a b : Int} (e : showInt a = showInt b) : a = b := by
  have h1 := scanInt_show a 0 [] (by simp)
  have h2 := scanInt_show b 0 [] (by simp)
  rw [e, h2] at h1
  injection h1 with h1
  exact h1.symm

theorem map_inj {α β : Type} {f : α → β} (hf : ∀ x y, f x = f y → x = y) : ∀ {a b : List α}, a.map f = b.map f → a = b
  | [], [], _ => rfl
  | [], _ :: _, e => by cases e
  | _ :: _, [], e => by cases e
  | x :: a, y :: b, e => by
    rw [List.map_cons, List.map_cons] at e
    injection e with e1 e2
    rw [hf x y e1, map_inj hf e2]

theorem SaysInts.unique {t : Str} {a b : List (List Int)} (ha : SaysInts t a) (hb : SaysInts t b) : a = b := by
  have h := Says.unique ha hb
  exact map_inj (fun x y e => map_inj (fun _ _ e => showInt_inj e) e) h

namespace Rel

/-! ## Integers separated by spaces -/

/-- A text of integers, each followed by at least one space. -/
inductive Ints : List Int → Str → Prop
  | nil : Ints [] []
  | cons {v : Int} {vs : List Int} {s : Str} (m n : Nat) : Ints vs s → Ints (v :: vs) (List.replicate m ' ' ++ (showInt v ++ ' ' :: (List.replicate n ' ' ++ s)))

theorem Ints.append {a b : List Int} {s t : Str} (ha : Ints a s) (hb : Ints b t) : Ints (a ++ b) (s ++ t) := by
  induction ha with
  | nil => exact hb
  | @cons v vs s m n _ ih => have := Ints.cons (v := v) m n ih; simpa using this

theorem Ints.flatten {l : List Str} {rs : List (List Int)} (h : All2 Ints rs l) : Ints rs.flatten l.flatten := by
  induction h with
  | nil => exact .nil
  | cons h _ ih => exact h.append ih

theorem showInt_noHash (v : Int) : ∀ ch ∈ showInt v, ch ≠ '#' := by
  intro ch h
  rcases Util.showInt_chars v ch h with rfl | h
  · decide
  · rintro rfl; revert h; decide

theorem Ints.chars {vs : List Int} {s : Str} (h : Ints vs s) : NoNL s ∧ ∀ ch ∈ s, ch ≠ '#' := by
  induction h with
  | nil => exact ⟨NoNL.nil, by simp⟩
  | @cons v vs s m n _ ih =>
    refine ⟨(noNL_replicate _).append ((noNL_showInt _).append (NoNL.cons (by decide) ((noNL_replicate _).append ih.1))), ?_⟩
    intro ch hch
    simp only [List.mem_append, List.mem_replicate, List.mem_cons] at hch
    rcases hch with ⟨_, rfl⟩ | hch | rfl | ⟨_, rfl⟩ | hch
    · decide
    · exact showInt_noHash v ch hch
    · decide
    · decide
    · exact ih.2 ch hch

theorem Ints.words {vs : List Int} {s : Str} (h : Ints vs s) (t : Str) : textWords (s ++ t) = vs.map showInt ++ textWords t := by
  induction h with
  | nil => rfl
  | @cons v vs s m n _ ih =>
    have e : List.replicate m ' ' ++ (showInt v ++ ' ' :: (List.replicate n ' ' ++ s)) ++ t =
        List.replicate m ' ' ++ (showInt v ++ (' ' :: List.replicate n ' ') ++ (s ++ t)) := by simp
    have hsp : ∀ k : Nat, ∀ ch ∈ List.replicate k ' ', isSpace ch = true := by
      intro k ch hch; rw [(List.mem_replicate.mp hch).2]; rfl
    rw [e, textWords_blanks (hsp m), List.append_assoc]
    unfold textWords
    rw [wordsFrom_word (showInt_nospace v), List.nil_append, wordsFrom_end (showInt_ne_nil v) (by simp; decide)]
    have : ' ' :: List.replicate n ' ' = List.replicate (n + 1) ' ' := rfl
    rw [this, textWords_blanks (hsp (n + 1)), ih]
    rfl

/-- The end of a line: nothing, or spaces and a comment. -/
def IsTail (t : Str) : Prop := t = [] ∨ ∃ n u, t = List.replicate n ' ' ++ '#' :: u ∧ NoNL u

theorem IsComment.tail {t : Str} (h : IsComment t) : IsTail t := by
  obtain ⟨u, rfl, hu⟩ := h
  exact .inr ⟨3, u, rfl, hu⟩

theorem Ints.lineWords {vs : List Int} {s t : Str} (h : Ints vs s) (ht : IsTail t) : lineWords (s ++ t) = vs.map showInt := by
  have key : ∀ n : Nat, textWords (s ++ List.replicate n ' ') = vs.map showInt := by
    intro n
    rw [h.words]
    have := textWords_blanks (b := List.replicate n ' ') (by intro ch hch; rw [(List.mem_replicate.mp hch).2]; rfl) []
    rw [List.append_nil] at this
    rw [this]; simp [textWords, wordsFrom]
  unfold Osl.lineWords
  have hp : ∀ ch ∈ s, (ch != '#') = true := fun ch hch => by simp [h.chars.2 ch hch]
  rw [List.takeWhile_append_of_pos hp]
  rcases ht with rfl | ⟨n, u, rfl, _⟩
  · simpa using key 0
  · rw [(takeWhile_append_stop (p := fun ch => ch != '#') (s := List.replicate n ' ') (t := '#' :: u) (by
      intro x hx; rw [(List.mem_replicate.mp hx).2]; rfl) (by intro x hx; simp at hx; subst hx; rfl)).1]
    exact key n

/-- A row of the table. -/
theorem Ints.says {vs : List Int} {s t : Str} (h : Ints vs s) (hne : vs ≠ []) (ht : IsTail t) : SaysInts (s ++ (t ++ ['\n'])) [vs] := by
  rw [← List.append_assoc]
  refine Says.line (h.chars.1.append ?_) (h.lineWords ht) (by simpa using hne)
  rcases ht with rfl | ⟨n, u, rfl, hu⟩
  · exact NoNL.nil
  · exact (noNL_replicate n).append (NoNL.cons (by decide) hu)

theorem sizeLine_says (a b : Int) : SaysInts (sizeLine a b) [[a, b]] := by
  have h : Osl.lineWords (showInt a ++ ' ' :: showInt b) = [showInt a, showInt b] := by
    unfold Osl.lineWords
    rw [List.takeWhile_append_of_pos (by intro ch hch; simp [showInt_noHash a ch hch])]
    have : (' ' :: showInt b).takeWhile (fun ch => ch != '#') = ' ' :: showInt b := by
      refine takeWhile_all ?_
      intro ch hch
      rcases List.mem_cons.mp hch with rfl | hch
      · rfl
      · simp [showInt_noHash b ch hch]
    rw [this]
    unfold textWords
    rw [wordsFrom_word (showInt_nospace a), List.nil_append, wordsFrom_end (showInt_ne_nil a) (by simp; decide)]
    have := textWords_blanks (b := [' ']) (by simp; decide) (showInt b)
    rw [List.singleton_append] at this
    rw [this]
    unfold textWords
    have := wordsFrom_word (cur := []) (showInt_nospace b) []
    rw [List.append_nil, List.nil_append] at this
    rw [this]
    simp [wordsFrom, showInt_ne_nil]
  have e : sizeLine a b = (showInt a ++ ' ' :: showInt b) ++ ['\n'] := by simp [sizeLine]
  rw [e]
  exact Says.line ((noNL_showInt a).append (NoNL.cons (by decide) (noNL_showInt b))) h (by simp)

end Rel

theorem showNat_says (n : Nat) : SaysInts (showNat n ++ ['\n']) [[(n : Int)]] := by
  have e : showNat n = showInt (n : Int) := by simp [showInt]
  have h : lineWords (showInt (n : Int)) = [showInt (n : Int)] := by
    unfold lineWords
    rw [takeWhile_all (by intro ch hch; simp [Rel.showInt_noHash _ ch hch])]
    unfold textWords
    have := wordsFrom_word (cur := []) (showInt_nospace (n : Int)) []
    rw [List.append_nil, List.nil_append] at this
    rw [this]
    simp [wordsFrom, showInt_ne_nil]
  rw [e]
  exact Says.line (noNL_showInt _) h (by simp)

end Osl
