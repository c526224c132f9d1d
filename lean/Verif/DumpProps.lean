import Verif.Dump
import Verif.LibraryProps
import Verif.CommentText
/-!
# What the display functions show

`Shows P f`: whatever text follows, the text written by `f` tells which object (among those satisfying `P`) is displayed and where
its text ends.  `Indented n t`: the text is made of lines beginning with `n` bars.
-/

set_option linter.unusedSectionVars false

namespace Osl
namespace Dump

/-! ## Specification -/

/-- The text of an object satisfying `P` determines the object and where its text ends. -/
def Shows {α : Type} (P : α → Prop) (f : α → Out Str) : Prop :=
  ∀ a b s t u v, P a → P b → f a = .ok s → f b = .ok t → s ++ u = t ++ v → a = b ∧ u = v

/-- Lines which begin with `n` bars. -/
def Indented (n : Nat) (t : Str) : Prop := ∃ ls : List Str, (∀ l ∈ ls, NoNL l) ∧ t = (ls.map fun l => bars n ++ l ++ ['\n']).flatten

/-- Two objects displayed by the same text are the same object. -/
theorem Shows.inj {α : Type} {P : α → Prop} {f : α → Out Str} (h : Shows P f) {a b : α} {s : Str} (ha : P a) (hb : P b)
    (ea : f a = .ok s) (eb : f b = .ok s) : a = b := (h a b s s [] [] ha hb ea eb rfl).1

theorem Shows.mono {α : Type} {P Q : α → Prop} {f : α → Out Str} (h : Shows Q f) (hq : ∀ a, P a → Q a) : Shows P f :=
  fun a b s t u v ha hb => h a b s t u v (hq a ha) (hq b hb)

/-! ## Lines -/

theorem bars_noNL (n : Nat) : NoNL (bars n) := by
  induction n with
  | zero => exact NoNL.nil
  | succ n ih => exact NoNL.cons (by decide) (NoNL.cons (by decide) ih)

theorem bars_add (m n : Nat) : bars (m + n) = bars m ++ bars n := by
  induction m with
  | zero => rw [Nat.zero_add]; rfl
  | succ m ih =>
    rw [Nat.add_right_comm]
    show '|' :: '\t' :: bars (m + n) = _
    rw [ih]; rfl

theorem blank_eq (n : Nat) : blank n = line n [] := by simp [blank, line]

/-- A line is a line of a lower level. -/
theorem line_lower (m n : Nat) (s : Str) : line (m + n) s = line m (bars n ++ s) := by
  simp [line, bars_add]

theorem split_line : ∀ {s t u v : Str}, NoNL s → NoNL t → s ++ '\n' :: u = t ++ '\n' :: v → s = t ∧ u = v := by
  intro s
  induction s with
  | nil =>
    intro t u v _ ht e
    cases t with
    | nil => simp at e; exact ⟨rfl, e⟩
    | cons a t =>
      simp at e
      exact absurd (List.mem_cons.mpr (Or.inl e.1)) ht
  | cons a s ih =>
    intro t u v hs ht e
    cases t with
    | nil =>
      simp at e
      exact absurd (List.mem_cons.mpr (Or.inl e.1.symm)) hs
    | cons b t =>
      simp only [List.cons_append, List.cons.injEq] at e
      obtain ⟨e1, e2⟩ := e
      obtain ⟨h1, h2⟩ := ih (fun h => hs (List.mem_cons_of_mem _ h)) (fun h => ht (List.mem_cons_of_mem _ h)) e2
      exact ⟨by rw [e1, h1], h2⟩

theorem line_inj {n : Nat} {s t u v : Str} (hs : NoNL s) (ht : NoNL t) (e : line n s ++ u = line n t ++ v) : s = t ∧ u = v := by
  simp only [line, List.append_assoc] at e
  exact split_line hs ht (by simpa using List.append_cancel_left e)

/-- Lines with different texts are different. -/
theorem line_ne {n : Nat} {s t u v : Str} (hs : NoNL s) (ht : NoNL t) (h : s ≠ t) : line n s ++ u ≠ line n t ++ v :=
  fun e => h (line_inj hs ht e).1

theorem same_line {n : Nat} {s u v : Str} (e : line n s ++ u = line n s ++ v) : u = v := List.append_cancel_left e

/-! ## Numbers -/

theorem showInt_follow {a b : Int} {c d : Char} {x y : Str} (hc : isDigit c = false) (hd : isDigit d = false)
    (e : showInt a ++ c :: x = showInt b ++ d :: y) : a = b ∧ c :: x = d :: y := by
  have h1 := scanInt_show a 0 (c :: x) (by intro k hk; injection hk with hk; rw [← hk]; exact hc)
  have h2 := scanInt_show b 0 (d :: y) (by intro k hk; injection hk with hk; rw [← hk]; exact hd)
  simp only [List.replicate, List.nil_append] at h1 h2
  rw [e, h2] at h1
  injection h1 with e1 e2
  exact ⟨e1.symm, e2.symm⟩

theorem padInt_follow {w : Nat} {a b : Int} {c d : Char} {x y : Str} (hc : isDigit c = false) (hd : isDigit d = false)
    (e : padLeft w (showInt a) ++ c :: x = padLeft w (showInt b) ++ d :: y) : a = b ∧ c :: x = d :: y := by
  have h1 := scanInt_show a (w - (showInt a).length) (c :: x) (by intro k hk; injection hk with hk; rw [← hk]; exact hc)
  have h2 := scanInt_show b (w - (showInt b).length) (d :: y) (by intro k hk; injection hk with hk; rw [← hk]; exact hd)
  simp only [padLeft, List.append_assoc] at e
  rw [e, h2] at h1
  injection h1 with e1 e2
  exact ⟨e1.symm, e2.symm⟩

theorem showInt_inj {a b : Int} (e : showInt a = showInt b) : a = b :=
  (showInt_follow (c := 'x') (d := 'x') (x := []) (y := []) (by decide) (by decide) (by rw [e])).1

theorem showNat_inj {a b : Nat} (e : showNat a = showNat b) : a = b := Strings.showNat_injective e

theorem noNL_padInt (w : Nat) (v : Int) : NoNL (padLeft w (showInt v)) := (noNL_replicate _).append (noNL_showInt v)

/-- No end of line in a literal. -/
theorem noNL_lit {s : String} (h : ('\n' ∈ s.toList) = False) : NoNL s.toList := by unfold NoNL; rw [h]; exact id

/-- Texts without ends of lines. -/
macro "nonl" : tactic => `(tactic| repeat (first
  | with_reducible assumption
  | with_reducible exact noNL_showInt _
  | with_reducible exact noNL_showNat _
  | with_reducible exact noNL_padInt _ _
  | with_reducible exact bars_noNL _
  | with_reducible apply NoNL.append
  | (unfold NoNL; decide)))

/-! ## Loops -/

theorem cat_ok {α : Type} {f : α → Out Str} : ∀ {l : List α}, (∃ t, cat f l = .ok t) ↔ ∀ a ∈ l, ∃ t, f a = .ok t := by
  intro l
  induction l with
  | nil => exact ⟨fun _ a h => (by cases h), fun _ => ⟨[], rfl⟩⟩
  | cons a l ih =>
    constructor
    · rintro ⟨t, h⟩ b hb
      simp only [cat, Out.bind_eq_ok] at h
      obtain ⟨s, h1, t', h2, _⟩ := h
      rcases List.mem_cons.mp hb with e | e
      · exact ⟨s, e ▸ h1⟩
      · exact ih.mp ⟨t', h2⟩ b e
    · intro h
      obtain ⟨s, hs⟩ := h a (List.mem_cons_self ..)
      obtain ⟨t, ht⟩ := ih.mpr fun b hb => h b (List.mem_cons_of_mem _ hb)
      exact ⟨s ++ t, by simp only [cat, hs, ht, Out.ok_bind, Out.pure_eq]⟩

theorem nodes_ok {α : Type} {head : Nat → α → Str} {body : α → Out Str} {sep : Str} : ∀ {l : List α} {k : Nat},
    (∃ t, nodes head body sep k l = .ok t) ↔ ∀ a ∈ l, ∃ t, body a = .ok t := by
  intro l
  induction l with
  | nil => exact ⟨fun _ a h => (by cases h), fun _ => ⟨[], rfl⟩⟩
  | cons a l ih =>
    intro k
    constructor
    · rintro ⟨t, h⟩ b hb
      simp only [nodes, Out.bind_eq_ok] at h
      obtain ⟨s, h1, t', h2, _⟩ := h
      rcases List.mem_cons.mp hb with e | e
      · exact ⟨s, e ▸ h1⟩
      · exact ih.mp ⟨t', h2⟩ b e
    · intro h
      obtain ⟨s, hs⟩ := h a (List.mem_cons_self ..)
      obtain ⟨t, ht⟩ := (ih (k := k + 1)).mpr fun b hb => h b (List.mem_cons_of_mem _ hb)
      exact ⟨_, by simp only [nodes, hs, ht, Out.ok_bind, Out.pure_eq]; rfl⟩

/-- A loop over as many elements. -/
theorem cat_shows {α : Type} {P : α → Prop} {f : α → Out Str} (h : Shows P f) : ∀ {l m : List α} {s t u v : Str}, l.length = m.length →
    (∀ a ∈ l, P a) → (∀ a ∈ m, P a) → cat f l = .ok s → cat f m = .ok t → s ++ u = t ++ v → l = m ∧ u = v := by
  intro l
  induction l with
  | nil =>
    intro m s t u v hl _ _ e1 e2 e
    cases m with
    | nil => cases e1; cases e2; exact ⟨rfl, e⟩
    | cons _ _ => cases hl
  | cons a l ih =>
    intro m s t u v hl hP hQ e1 e2 e
    cases m with
    | nil => cases hl
    | cons b m =>
      simp only [cat, Out.bind_eq_ok, Out.pure_eq] at e1 e2
      obtain ⟨s1, h1, s2, h2, e1⟩ := e1
      obtain ⟨t1, g1, t2, g2, e2⟩ := e2
      injection e1 with e1; injection e2 with e2
      subst e1; subst e2
      simp only [List.append_assoc] at e
      obtain ⟨k1, k2⟩ := h a b s1 t1 _ _ (hP _ (List.mem_cons_self ..)) (hQ _ (List.mem_cons_self ..)) h1 g1 e
      obtain ⟨k3, k4⟩ := ih (by simpa using hl) (fun x hx => hP _ (List.mem_cons_of_mem _ hx)) (fun x hx => hQ _ (List.mem_cons_of_mem _ hx)) h2 g2 k2
      exact ⟨by rw [k1, k3], k4⟩

/-- The text of a linked structure. -/
def linked {α : Type} (null : Str) (first : α → Str) (head : Nat → α → Str) (body : α → Out Str) (sep fin : Str) (l : List α) : Out Str := do
  let t ← nodes head body sep 1 l
  return (match l with | a :: _ => first a | [] => null) ++ t ++ fin

theorem nodes_shows {α : Type} {P : α → Prop} {head : Nat → α → Str} {body : α → Out Str} {sep fin : Str}
    (hsep : ∀ x y : Str, sep ++ x ≠ fin ++ y)
    (hb : ∀ k, Shows P fun a => body a >>= fun t => .ok (head k a ++ t)) : ∀ {l m : List α} {k : Nat} {s t u v : Str}, k ≠ 1 → k ≠ 0 →
    (∀ a ∈ l, P a) → (∀ a ∈ m, P a) → nodes head body sep k l = .ok s → nodes head body sep k m = .ok t →
    (if l.isEmpty then [] else sep) ++ (s ++ (fin ++ u)) = (if m.isEmpty then [] else sep) ++ (t ++ (fin ++ v)) → l = m ∧ u = v := by
  intro l
  induction l with
  | nil =>
    intro m k s t u v _ _ _ _ e1 e2 e
    cases m with
    | nil =>
      cases e1; cases e2
      exact ⟨rfl, List.append_cancel_left (as := fin) (by simpa using e)⟩
    | cons _ _ =>
      cases e1
      exact absurd e.symm (by simpa using hsep _ _)
  | cons a l ih =>
    intro m k s t u v hk h0 hP hQ e1 e2 e
    cases m with
    | nil =>
      cases e2
      exact absurd e (by simpa using hsep _ _)
    | cons b m =>
      simp only [nodes, Out.bind_eq_ok, Out.pure_eq, if_neg hk] at e1 e2
      obtain ⟨s1, h1, s2, h2, e1⟩ := e1
      obtain ⟨t1, g1, t2, g2, e2⟩ := e2
      injection e1 with e1; injection e2 with e2
      subst e1; subst e2
      have e := List.append_cancel_left (as := sep) e
      obtain ⟨k1, k2⟩ := hb k a b (head k a ++ s1) (head k b ++ t1) ((if l.isEmpty then [] else sep) ++ (s2 ++ (fin ++ u)))
        ((if m.isEmpty then [] else sep) ++ (t2 ++ (fin ++ v))) (hP _ (List.mem_cons_self ..)) (hQ _ (List.mem_cons_self ..))
        (by simp only [h1, Out.ok_bind]) (by simp only [g1, Out.ok_bind]) (by simpa [List.append_assoc] using e)
      obtain ⟨k3, k4⟩ := ih (by omega) (by omega) (fun x hx => hP _ (List.mem_cons_of_mem _ hx)) (fun x hx => hQ _ (List.mem_cons_of_mem _ hx)) h2 g2 k2
      exact ⟨by rw [k1, k3], k4⟩

theorem linked_shows {α : Type} {P : α → Prop} {null : Str} {first : α → Str} {head : Nat → α → Str} {body : α → Out Str} {sep fin : Str}
    (hsep : ∀ x y : Str, sep ++ x ≠ fin ++ y) (hnull : ∀ a x y, P a → first a ++ x ≠ null ++ y)
    (hf : Shows P fun a => body a >>= fun t => .ok (first a ++ t))
    (hb : ∀ k, Shows P fun a => body a >>= fun t => .ok (head k a ++ t)) :
    Shows (fun l : List α => ∀ a ∈ l, P a) (linked null first head body sep fin) := by
  intro l m s t u v hP hQ e1 e2 e
  simp only [linked, Out.bind_eq_ok, Out.pure_eq] at e1 e2
  obtain ⟨s1, h1, e1⟩ := e1
  obtain ⟨t1, g1, e2⟩ := e2
  injection e1 with e1; injection e2 with e2
  subst e1; subst e2
  cases l with
  | nil =>
    cases m with
    | nil =>
      cases h1; cases g1
      exact ⟨rfl, List.append_cancel_left e⟩
    | cons b m => exact absurd e.symm (by simpa [List.append_assoc] using hnull b _ _ (hQ _ (List.mem_cons_self ..)))
  | cons a l =>
    cases m with
    | nil => exact absurd e (by simpa [List.append_assoc] using hnull a _ _ (hP _ (List.mem_cons_self ..)))
    | cons b m =>
      simp only [nodes, Out.bind_eq_ok, Out.pure_eq, if_true] at h1 g1
      obtain ⟨s2, h1, s3, h2, e1⟩ := h1
      obtain ⟨t2, g1, t3, g2, e2⟩ := g1
      injection e1 with e1; injection e2 with e2
      subst e1; subst e2
      obtain ⟨k1, k2⟩ := hf a b (first a ++ s2) (first b ++ t2) ((if l.isEmpty then [] else sep) ++ (s3 ++ (fin ++ u)))
        ((if m.isEmpty then [] else sep) ++ (t3 ++ (fin ++ v))) (hP _ (List.mem_cons_self ..)) (hQ _ (List.mem_cons_self ..))
        (by simp only [h1, Out.ok_bind]) (by simp only [g1, Out.ok_bind]) (by simpa [List.append_assoc] using e)
      obtain ⟨k3, k4⟩ := nodes_shows hsep hb (by omega) (by omega) (fun x hx => hP _ (List.mem_cons_of_mem _ hx)) (fun x hx => hQ _ (List.mem_cons_of_mem _ hx)) h2 g2 k2
      exact ⟨by rw [k1, k3], k4⟩

theorem linked_ok {α : Type} {null : Str} {first : α → Str} {head : Nat → α → Str} {body : α → Out Str} {sep fin : Str} {l : List α} :
    (∃ t, linked null first head body sep fin l = .ok t) ↔ ∀ a ∈ l, ∃ t, body a = .ok t := by
  refine Iff.trans ?_ (nodes_ok (head := head) (sep := sep) (k := 1))
  constructor
  · rintro ⟨t, h⟩
    simp only [linked, Out.bind_eq_ok] at h
    exact ⟨_, h.choose_spec.1⟩
  · rintro ⟨t, h⟩
    exact ⟨_, by simp only [linked, h, Out.ok_bind, Out.pure_eq]; rfl⟩

/-- A text which is the same for all the objects, before the others. -/
theorem Shows.same {α : Type} {P : α → Prop} {f : α → Out Str} (h : Shows P f) (pre : Str) : Shows P fun a => f a >>= fun t => .ok (pre ++ t) := by
  intro a b s t u v ha hb e1 e2 e
  simp only [Out.bind_eq_ok] at e1 e2
  obtain ⟨s1, h1, e1⟩ := e1
  obtain ⟨t1, g1, e2⟩ := e2
  injection e1 with e1; injection e2 with e2
  subst e1; subst e2
  rw [List.append_assoc, List.append_assoc] at e
  exact h a b s1 t1 u v ha hb h1 g1 (List.append_cancel_left e)

end Dump
end Osl
