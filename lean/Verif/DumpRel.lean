import Verif.DumpProps
/-!
# What `osl_strings_dump`, `osl_vector_dump`, `osl_relation_dump` and `osl_relation_list_dump` show
-/

set_option linter.unusedSectionVars false

namespace Osl
namespace Dump

/-- Cutting at the first character `c`. -/
theorem split_char {c : Char} : ∀ {s t u v : Str}, c ∉ s → c ∉ t → s ++ c :: u = t ++ c :: v → s = t ∧ u = v := by
  intro s
  induction s with
  | nil =>
    intro t u v _ ht e
    cases t with
    | nil => simp at e; exact ⟨rfl, e⟩
    | cons a t =>
      simp at e
      exact absurd (List.mem_cons.mpr (Or.inl e.1)) ht
  | cons a s ih =>
    intro t u v hs ht e
    cases t with
    | nil =>
      simp at e
      exact absurd (List.mem_cons.mpr (Or.inl e.1.symm)) hs
    | cons b t =>
      simp only [List.cons_append, List.cons.injEq] at e
      obtain ⟨e1, e2⟩ := e
      obtain ⟨h1, h2⟩ := ih (fun h => hs (List.mem_cons_of_mem _ h)) (fun h => ht (List.mem_cons_of_mem _ h)) e2
      exact ⟨by rw [e1, h1], h2⟩

/-- Words after spaces, then the end of the line. -/
theorem spaced_inj : ∀ {l m : List Str}, (∀ w ∈ l, ' ' ∉ w) → (∀ w ∈ m, ' ' ∉ w) →
    (l.map fun w => ' ' :: w).flatten = (m.map fun w => ' ' :: w).flatten → l = m := by
  intro l
  induction l with
  | nil =>
    intro m _ _ e
    cases m with
    | nil => rfl
    | cons _ _ => simp at e
  | cons w l ih =>
    intro m hl hm e
    cases m with
    | nil => simp at e
    | cons x m =>
      simp only [List.map_cons, List.flatten_cons, List.cons_append, List.cons.injEq, true_and] at e
      have e' : w ++ ' ' :: ((l.map fun w => ' ' :: w).flatten ++ [' ']).tail = x ++ ' ' :: ((m.map fun w => ' ' :: w).flatten ++ [' ']).tail := by
        have k : ∀ l : List Str, ' ' :: ((l.map fun w => ' ' :: w).flatten ++ [' ']).tail = (l.map fun w => ' ' :: w).flatten ++ [' '] := by
          intro l; cases l <;> simp
        rw [k, k, ← List.append_assoc, ← List.append_assoc, e]
      obtain ⟨h1, h2⟩ := split_char (hl _ (List.mem_cons_self ..)) (hm _ (List.mem_cons_self ..)) e'
      rw [h1] at e
      exact (by rw [h1, ih (fun a ha => hl _ (List.mem_cons_of_mem _ ha)) (fun a ha => hm _ (List.mem_cons_of_mem _ ha)) (List.append_cancel_left e)])

/-- A string array whose strings are words: an allocated array, no space and no end of line in its strings. -/
def WordsOnly (s : Strings) : Prop := s.string ≠ none ∧ ∀ w ∈ s.words, ' ' ∉ w ∧ NoNL w

theorem spaced_noNL {l : List Str} (h : ∀ w ∈ l, NoNL w) : NoNL (l.map fun w => ' ' :: w).flatten := by
  induction l with
  | nil => exact NoNL.nil
  | cons w l ih =>
    simp only [List.map_cons, List.flatten_cons]
    exact (NoNL.cons (by decide) (h w (List.mem_cons_self ..))).append (ih fun x hx => h x (List.mem_cons_of_mem _ hx))

theorem strings_eq (s : Option Strings) (n : Nat) : strings s n =
    line n (match s with | some s => "+-- osl_strings_t:".toList ++ (s.words.map fun w => ' ' :: w).flatten | none => "+-- NULL strings".toList) ++
      blank (n + 1) := by
  cases s with
  | none => simp [strings, line]
  | some s => simp only [strings, line, List.append_assoc]

theorem words_ext {s t : Strings} (hs : s.string ≠ none) (ht : t.string ≠ none) (h : s.words = t.words) : s = t := by
  cases s with | mk s => cases t with | mk t =>
    cases s with
    | none => exact absurd rfl hs
    | some s => cases t with
      | none => exact absurd rfl ht
      | some t => simp only [Strings.words, Option.getD_some] at h; rw [h]

/-- C69: the text of `osl_strings_dump` tells the strings. -/
theorem strings_shows (n : Nat) : Shows (fun s : Option Strings => ∀ x, s = some x → WordsOnly x) (fun s => .ok (strings s n)) := by
  intro a b s t u v ha hb e1 e2 e
  injection e1 with e1; injection e2 with e2
  subst e1; subst e2
  simp only [strings_eq, List.append_assoc] at e
  cases a with
  | none =>
    cases b with
    | none => exact ⟨rfl, List.append_cancel_left (same_line e)⟩
    | some b =>
      have := (line_inj (by nonl) (by have := spaced_noNL fun w hw => ((hb b rfl).2 w hw).2; nonl) e).1
      exact absurd this (by simp)
  | some a =>
    have ha := ha a rfl
    have na := spaced_noNL fun w hw => (ha.2 w hw).2
    cases b with
    | none =>
      have := (line_inj (by nonl) (by nonl) e).1
      exact absurd this (by simp)
    | some b =>
      have hb := hb b rfl
      have nb := spaced_noNL fun w hw => (hb.2 w hw).2
      obtain ⟨e1, e2⟩ := line_inj (by nonl) (by nonl) e
      have e1 := List.append_cancel_left e1
      have := spaced_inj (fun w hw => (ha.2 w hw).1) (fun w hw => (hb.2 w hw).1) e1
      exact ⟨by rw [words_ext ha.1 hb.1 this], List.append_cancel_left e2⟩

/-- Finding: an array which was not allocated (as `osl_strings_generate` leaves for zero strings) is displayed as an empty one. -/
theorem strings_null_as_empty (n : Nat) : strings (some { string := none }) n = strings (some { string := some [] }) n := rfl

/-! ## Integers and rows -/

theorem int_text {c : Cfg} {p v : Int} {t : Str} (h : int c p v = .ok t) : t = padLeft 4 (showInt v) := by
  simp only [int, Out.bind_eq_ok] at h
  obtain ⟨s, h1, h2⟩ := h
  unfold OInt.sprint at h1
  unfold Ext.buf at h2
  split at h1
  · injection h1 with h1
    split at h2
    · injection h2 with h2; rw [← h2, ← h1]
    · cases h2
  · cases h1

theorem int_ok_iff {c : Cfg} {p v : Int} : (∃ t, int c p v = .ok t) ↔ kind c p ≠ none ∧ (showInt v).length < MAX_STRING := by
  have hm : MAX_STRING = 2048 := rfl
  have hl : (padLeft 4 (showInt v)).length < MAX_STRING ↔ (showInt v).length < MAX_STRING := by
    simp only [padLeft, List.length_append, List.length_replicate]; omega
  constructor
  · rintro ⟨t, h⟩
    have ht := int_text h
    simp only [int, Out.bind_eq_ok] at h
    obtain ⟨s, h1, h2⟩ := h
    unfold OInt.sprint at h1
    unfold Ext.buf at h2
    split at h1
    · rename_i k hk
      injection h1 with h1
      subst h1
      split at h2
      · rename_i hlt
        exact ⟨by rw [hk]; simp, hl.mp hlt⟩
      · cases h2
    · cases h1
  · rintro ⟨h1, h2⟩
    cases hk : kind c p with
    | none => exact absurd hk h1
    | some k =>
      exact ⟨padLeft 4 (showInt v), by simp only [int, OInt.sprint, hk, Out.ok_bind, Ext.buf]; rw [if_pos (hl.mpr h2)]⟩

/-- An entry of a row. -/
def entry (c : Cfg) (p : Int) (v : Int) : Out Str := int c p v >>= fun t => .ok (t ++ [' '])

theorem entry_text {c : Cfg} {p v : Int} {t : Str} (h : entry c p v = .ok t) : t = padLeft 4 (showInt v) ++ [' '] := by
  simp only [entry, Out.bind_eq_ok] at h
  obtain ⟨s, h1, h2⟩ := h
  injection h2 with h2
  rw [← h2, int_text h1]

theorem entry_shows (c : Cfg) (p q : Int) {a b : Int} {s t u v : Str} (h1 : entry c p a = .ok s) (h2 : entry c q b = .ok t)
    (e : s ++ u = t ++ v) : a = b ∧ u = v := by
  rw [entry_text h1, entry_text h2] at e
  simp only [List.append_assoc, List.cons_append, List.nil_append] at e
  obtain ⟨k1, k2⟩ := padInt_follow (by decide) (by decide) e
  injection k2 with _ k2
  exact ⟨k1, k2⟩

theorem entries_noNL {c : Cfg} {p : Int} : ∀ {l : List Int} {t : Str}, cat (entry c p) l = .ok t → NoNL t := by
  intro l
  induction l with
  | nil => intro t h; cases h; exact NoNL.nil
  | cons a l ih =>
    intro t h
    simp only [cat, Out.bind_eq_ok, Out.pure_eq] at h
    obtain ⟨s, h1, r, h2, h3⟩ := h
    injection h3 with h3
    rw [← h3, entry_text h1]
    exact ((noNL_padInt 4 a).append (by unfold NoNL; decide)).append (ih h2)

/-- A row. -/
def rowText (c : Cfg) (p : Int) (n : Nat) (row : List Int) : Out Str :=
  cat (entry c p) row >>= fun e => .ok (line n ("[ ".toList ++ e ++ "]".toList))

theorem rowText_shows (c : Cfg) (p : Int) (n : Nat) (C : Nat) : Shows (fun row : List Int => row.length = C) (rowText c p n) := by
  intro a b s t u v ha hb h1 h2 e
  simp only [rowText, Out.bind_eq_ok] at h1 h2
  obtain ⟨s1, h1, e1⟩ := h1
  obtain ⟨t1, h2, e2⟩ := h2
  injection e1 with e1; injection e2 with e2
  subst e1; subst e2
  have n1 := entries_noNL h1
  have n2 := entries_noNL h2
  obtain ⟨k1, k2⟩ := line_inj (by nonl) (by nonl) e
  rw [List.append_assoc, List.append_assoc] at k1
  have k1 := List.append_cancel_left k1
  have := cat_shows (P := fun _ => True) (fun a b s t u v _ _ g1 g2 g => entry_shows c p p g1 g2 g) (by rw [ha, hb])
    (fun _ _ => trivial) (fun _ _ => trivial) h1 h2 k1
  exact ⟨this.1, k2⟩

/-! ## Vectors -/

theorem precision_noNL (c : Cfg) (p : Int) : NoNL (precision c p) := by
  unfold precision
  split
  · nonl
  · split
    · nonl
    · split <;> nonl

theorem precision_inj {c : Cfg} {p q : Int} (e : precision c p = precision c q) : p = q := by
  unfold precision at e
  split at e <;> rename_i h1
  · split at e <;> rename_i g1
    · rw [h1, g1]
    · split at e
      · exact absurd e (by decide)
      · split at e
        · exact absurd e (by decide)
        · exact absurd (congrArg List.head? e) (by simp)
  · split at e <;> rename_i h2
    · split at e <;> rename_i g1
      · exact absurd e (by decide)
      · split at e <;> rename_i g2
        · rw [h2, g2]
        · split at e
          · exact absurd e (by decide)
          · exact absurd (congrArg List.head? e) (by simp)
    · split at e <;> rename_i h3
      · split at e <;> rename_i g1
        · exact absurd e (by decide)
        · split at e <;> rename_i g2
          · exact absurd e (by decide)
          · split at e <;> rename_i g3
            · rw [h3.1, g3.1]
            · exact absurd (congrArg List.head? e) (by simp)
      · split at e <;> rename_i g1
        · exact absurd (congrArg List.head? e) (by simp)
        · split at e <;> rename_i g2
          · exact absurd (congrArg List.head? e) (by simp)
          · split at e <;> rename_i g3
            · exact absurd (congrArg List.head? e) (by simp)
            · exact showInt_inj (List.append_cancel_left e)

/-- C69: the text of `osl_vector_dump` tells the precision and the entries. -/
theorem vector_shows (c : Cfg) (n : Nat) : Shows (fun _ : Option Vec => True) (fun v => vector c v n) := by
  intro a b s t u v _ _ h1 h2 e
  cases a with
  | none =>
    injection h1 with h1
    subst h1
    cases b with
    | none =>
      injection h2 with h2
      subst h2
      exact ⟨rfl, List.append_cancel_left e⟩
    | some b =>
      simp only [vector, Out.bind_eq_ok, Out.pure_eq] at h2
      obtain ⟨t1, h2, e2⟩ := h2
      injection e2 with e2
      subst e2
      simp only [List.append_assoc] at e
      have := precision_noNL c b.precision
      exact absurd (line_inj (by nonl) (by nonl) e).1 (by simp)
  | some a =>
    simp only [vector, Out.bind_eq_ok, Out.pure_eq] at h1
    obtain ⟨s1, h1, e1⟩ := h1
    injection e1 with e1
    subst e1
    have na := precision_noNL c a.precision
    cases b with
    | none =>
      injection h2 with h2
      subst h2
      simp only [List.append_assoc] at e
      exact absurd (line_inj (by nonl) (by nonl) e).1 (by simp)
    | some b =>
      simp only [vector, Out.bind_eq_ok, Out.pure_eq] at h2
      obtain ⟨t1, h2, e2⟩ := h2
      injection e2 with e2
      subst e2
      have nb := precision_noNL c b.precision
      have n1 := entries_noNL (c := c) (p := a.precision) h1
      have n2 := entries_noNL (c := c) (p := b.precision) h2
      simp only [List.append_assoc] at e
      obtain ⟨k1, e⟩ := line_inj (by nonl) (by nonl) e
      obtain ⟨k2, e⟩ := line_inj (by nonl) (by nonl) e
      obtain ⟨k3, e⟩ := line_inj (by nonl) (by nonl) e
      have k1 := precision_inj (List.append_cancel_right (List.append_cancel_left k1))
      have k2 := showInt_inj k2
      have k2 : a.v.length = b.v.length := by simp only [Vec.size] at k2; omega
      have k3 := List.append_cancel_left k3
      have h1 : cat (entry c a.precision) a.v = .ok s1 := h1
      have h2 : cat (entry c b.precision) b.v = .ok t1 := h2
      rw [← k1] at h2
      have := cat_shows (P := fun _ => True) (fun a' b' s t u v _ _ g1 g2 g => entry_shows c a.precision a.precision g1 g2 g) k2
        (fun _ _ => trivial) (fun _ _ => trivial) h1 h2 k3
      refine ⟨?_, List.append_cancel_left e⟩
      cases a; cases b
      simp only at k1 this
      rw [k1, this.1]

/-- C69: `osl_vector_dump` succeeds exactly when the precision of a vector with entries is known and its entries have less than
OSL_MAX_STRING characters. -/
theorem vector_ok_iff (c : Cfg) (v : Vec) (n : Nat) :
    (∃ t, vector c (some v) n = .ok t) ↔ ∀ x ∈ v.v, kind c v.precision ≠ none ∧ (showInt x).length < MAX_STRING := by
  have h1 : (∃ t, vector c (some v) n = .ok t) ↔ ∃ t, cat (entry c v.precision) v.v = .ok t := by
    constructor
    · rintro ⟨t, h⟩
      simp only [vector, Out.bind_eq_ok] at h
      exact ⟨_, h.choose_spec.1⟩
    · rintro ⟨t, h⟩
      have h : cat (fun x => int c v.precision x >>= fun t => .ok (t ++ [' '])) v.v = .ok t := h
      exact ⟨_, by simp only [vector, h, Out.ok_bind, Out.pure_eq]; rfl⟩
  rw [h1, cat_ok]
  refine forall_congr' fun x => forall_congr' fun _ => ?_
  rw [← int_ok_iff]
  constructor
  · rintro ⟨t, h⟩
    simp only [entry, Out.bind_eq_ok] at h
    exact ⟨_, h.choose_spec.1⟩
  · rintro ⟨t, h⟩
    exact ⟨_, by simp only [entry, h, Out.ok_bind]; rfl⟩

/-! ## Relations -/

theorem cat_congr {α : Type} {f g : α → Out Str} : ∀ {l : List α}, (∀ a ∈ l, f a = g a) → cat f l = cat g l := by
  intro l
  induction l with
  | nil => intro _; rfl
  | cons a l ih =>
    intro h
    simp only [cat]
    rw [h a (List.mem_cons_self ..), ih fun b hb => h b (List.mem_cons_of_mem _ hb)]

theorem cat_map {α β : Type} {f : β → Out Str} {g : α → β} : ∀ {l : List α}, cat f (l.map g) = cat (fun a => f (g a)) l := by
  intro l
  induction l with
  | nil => rfl
  | cons a l ih => simp only [List.map_cons, cat, ih]

theorem cat_range {α : Type} {g : α → Out Str} : ∀ {l : List α} {f : Nat → Out Str}, (∀ i (h : i < l.length), f i = g l[i]) →
    cat f (List.range l.length) = cat g l := by
  intro l
  induction l with
  | nil => intro f _; rfl
  | cons a l ih =>
    intro f h
    rw [List.length_cons, List.range_succ_eq_map]
    simp only [cat, cat_map]
    rw [h 0 (by simp), ih (f := fun i => f (i.succ)) fun i hi => h (i + 1) (by simpa using hi)]
    rfl

/-- The rows of a well-formed part. -/
theorem rows_text {c : Cfg} {r : Part} (h : r.WF c) (n : Nat) :
    cat (relRow c n r) (List.range r.nb_rows.toNat) = cat (rowText c r.precision (n + 1)) r.m := by
  obtain ⟨hR, hC⟩ := h.rect
  have e : r.nb_rows.toNat = r.m.length := by omega
  rw [e]
  refine cat_range fun i hi => ?_
  have hc := hC r.m[i] (List.getElem_mem hi)
  have e2 : r.nb_columns.toNat = r.m[i].length := by omega
  have k : cat (fun (j : Nat) => (do
      let v ← get2 r.m i j
      let t ← int c r.precision v
      return t ++ [' '] : Out Str)) (List.range r.nb_columns.toNat) = cat (entry c r.precision) r.m[i] := by
    rw [e2]
    refine cat_range fun j hj => ?_
    rw [Rel.get2_nat hi hj]
    rfl
  unfold relRow rowText
  rw [k]
  rfl

/-- A part the text can tell: well formed, with a type which has a name. -/
def PartShown (c : Cfg) (p : Part) : Prop := p.WF c ∧ Rel.KnownType p.type

theorem sprint_type_chars (t : Int) : ',' ∉ Rel.sprint_type t ∧ NoNL (Rel.sprint_type t) := by
  unfold Rel.sprint_type NoNL
  split
  · decide
  · split
    · decide
    · split
      · decide
      · split
        · decide
        · split
          · decide
          · split
            · decide
            · split <;> decide

theorem sprint_type_inj {t u : Int} (ht : Rel.KnownType t) (hu : Rel.KnownType u) (e : Rel.sprint_type t = Rel.sprint_type u) : t = u := by
  have h1 := Rel.typeOfWord_sprint ht
  have h2 := Rel.typeOfWord_sprint hu
  rw [e, h2] at h1
  injection h1 with h1
  exact h1.symm

theorem relType_noNL (c : Cfg) (r : Part) : NoNL (relType c r) := by
  have h1 := (sprint_type_chars r.type).2
  have h2 := precision_noNL c r.precision
  unfold relType
  nonl

theorem relType_inj {c : Cfg} {r s : Part} (hr : Rel.KnownType r.type) (hs : Rel.KnownType s.type) (e : relType c r = relType c s) :
    r.type = s.type ∧ r.precision = s.precision := by
  simp only [relType, List.append_assoc] at e
  have e := List.append_cancel_left e
  have e : Rel.sprint_type r.type ++ ',' :: (' ' :: (precision c r.precision ++ [')'])) = Rel.sprint_type s.type ++ ',' :: (' ' :: (precision c s.precision ++ [')'])) := e
  obtain ⟨h1, h2⟩ := split_char (sprint_type_chars _).1 (sprint_type_chars _).1 e
  injection h2 with _ h2
  exact ⟨sprint_type_inj hr hs h1, precision_inj (List.append_cancel_right h2)⟩

theorem relDims_noNL (r : Part) : NoNL (relDims r) := by
  unfold relDims
  nonl

theorem relDims_inj {r s : Part} (e : relDims r = relDims s) : r.nb_rows = s.nb_rows ∧ r.nb_columns = s.nb_columns ∧
    r.nb_output_dims = s.nb_output_dims ∧ r.nb_input_dims = s.nb_input_dims ∧ r.nb_local_dims = s.nb_local_dims ∧
    r.nb_parameters = s.nb_parameters := by
  simp only [relDims, List.append_assoc, List.cons_append, List.nil_append] at e
  obtain ⟨h1, e⟩ := showInt_follow (by decide) (by decide) e
  injection e with _ e
  obtain ⟨h2, e⟩ := showInt_follow (by decide) (by decide) e
  injection e with _ e
  obtain ⟨h3, e⟩ := showInt_follow (by decide) (by decide) e
  injection e with _ e
  obtain ⟨h4, e⟩ := showInt_follow (by decide) (by decide) e
  injection e with _ e
  obtain ⟨h5, e⟩ := showInt_follow (by decide) (by decide) e
  injection e with _ e
  exact ⟨h1, h2, h3, h4, h5, showInt_inj e⟩

theorem part_shows (c : Cfg) (n : Nat) (pre : Str) (hp : NoNL pre) :
    Shows (PartShown c) fun a => relBody c n a >>= fun t => .ok (line n (pre ++ relType c a) ++ t) := by
  intro a b s t u v ha hb h1 h2 e
  simp only [relBody, Out.bind_eq_ok, Out.pure_eq] at h1 h2
  obtain ⟨s0, ⟨s1, h1, e0⟩, e1⟩ := h1
  obtain ⟨t0, ⟨t1, h2, f0⟩, f1⟩ := h2
  injection e0 with e0; injection e1 with e1; injection f0 with f0; injection f1 with f1
  subst e0; subst e1; subst f0; subst f1
  simp only [List.append_assoc] at e
  have n1 := relType_noNL c a
  have n2 := relType_noNL c b
  obtain ⟨k1, e⟩ := line_inj (by nonl) (by nonl) e
  obtain ⟨k2, e⟩ := line_inj (relDims_noNL a) (relDims_noNL b) e
  obtain ⟨t1', t2'⟩ := relType_inj ha.2 hb.2 (List.append_cancel_left k1)
  obtain ⟨d1, d2, d3, d4, d5, d6⟩ := relDims_inj k2
  rw [rows_text ha.1] at h1
  rw [rows_text hb.1, ← t2'] at h2
  have hra := ha.1.rect
  have hrb := hb.1.rect
  have l1 : a.m.length = b.m.length := by have := hra.1; have := hrb.1; omega
  have := cat_shows (rowText_shows c a.precision (n + 1) a.nb_columns.toNat) l1
    (fun r hr => by have := hra.2 r hr; omega) (fun r hr => by have := hrb.2 r hr; omega) h1 h2 e
  refine ⟨?_, this.2⟩
  cases a; cases b
  simp only at t1' t2' d1 d2 d3 d4 d5 d6 this
  rw [t1', t2', d1, d2, d3, d4, d5, d6, this.1]

theorem relation_eq (c : Cfg) (r : Rel) (n : Nat) : relation c r n =
    linked (line n "+-- NULL relation".toList) (fun p => line n ("+-- osl_relation_t ".toList ++ relType c p))
      (fun _ p => line n ("|   osl_relation_t ".toList ++ relType c p)) (relBody c n) (line (n + 1) ['|'] ++ line (n + 1) ['V'])
      (blank (n + 1)) r := by
  cases r <;> rfl

/-- C69: the text of `osl_relation_dump` tells the relation: two relations with the same text are the same, and the text tells
where it ends. -/
theorem relation_shows (c : Cfg) (n : Nat) : Shows (fun r : Rel => ∀ p ∈ r, PartShown c p) (fun r => relation c r n) := by
  have h := linked_shows (P := PartShown c) (null := line n "+-- NULL relation".toList)
    (first := fun p => line n ("+-- osl_relation_t ".toList ++ relType c p))
    (head := fun _ p => line n ("|   osl_relation_t ".toList ++ relType c p)) (body := relBody c n)
    (sep := line (n + 1) ['|'] ++ line (n + 1) ['V']) (fin := blank (n + 1))
    (fun x y => by
      rw [blank_eq, List.append_assoc]
      exact line_ne (by nonl) (by nonl) (by decide))
    (fun a x y _ => by
      have := relType_noNL c a
      exact line_ne (by nonl) (by nonl) (by simp))
    (part_shows c n _ (by nonl)) (fun _ => part_shows c n _ (by nonl))
  intro a b s t u v ha hb h1 h2
  dsimp only at h1 h2
  rw [relation_eq] at h1 h2
  exact h a b s t u v ha hb h1 h2

/-- C69: `osl_relation_dump` displays every well-formed relation whose entries have less than OSL_MAX_STRING characters, and no other
well-formed relation. -/
theorem relation_ok_iff {c : Cfg} {r : Rel} (h : r.WF c) (n : Nat) :
    (∃ t, relation c r n = .ok t) ↔ ∀ p ∈ r, ∀ row ∈ p.m, ∀ v ∈ row, (showInt v).length < MAX_STRING := by
  rw [relation_eq, linked_ok]
  refine forall_congr' fun p => forall_congr' fun hp => ?_
  have hw := h p hp
  have e : (∃ t, relBody c n p = .ok t) ↔ ∃ t, cat (rowText c p.precision (n + 1)) p.m = .ok t := by
    unfold relBody
    rw [rows_text hw]
    constructor
    · rintro ⟨t, h⟩
      simp only [Out.bind_eq_ok] at h
      exact ⟨_, h.choose_spec.1⟩
    · rintro ⟨t, h⟩
      exact ⟨_, by simp only [h, Out.ok_bind, Out.pure_eq]; rfl⟩
  rw [e, cat_ok]
  refine forall_congr' fun row => forall_congr' fun _ => ?_
  have e : (∃ t, rowText c p.precision (n + 1) row = .ok t) ↔ ∃ t, cat (entry c p.precision) row = .ok t := by
    constructor
    · rintro ⟨t, h⟩
      simp only [rowText, Out.bind_eq_ok] at h
      exact ⟨_, h.choose_spec.1⟩
    · rintro ⟨t, h⟩
      exact ⟨_, by simp only [rowText, h, Out.ok_bind]; rfl⟩
  rw [e, cat_ok]
  refine forall_congr' fun v => forall_congr' fun _ => ?_
  have := int_ok_iff (c := c) (p := p.precision) (v := v)
  constructor
  · rintro ⟨t, h⟩
    simp only [entry, Out.bind_eq_ok] at h
    exact (this.mp ⟨_, h.choose_spec.1⟩).2
  · intro h
    obtain ⟨t, ht⟩ := this.mpr ⟨hw.prec, h⟩
    exact ⟨_, by simp only [entry, ht, Out.ok_bind]; rfl⟩

/-! ## Lists of relations -/

theorem relation_list_eq (c : Cfg) (l : RList) (n : Nat) : relation_list c l n =
    linked (line n "+-- NULL relation list".toList) (fun _ => line n "+-- osl_relation_list_t".toList)
      (fun _ _ => line n "|   osl_relation_list_t".toList)
      (fun e => relation c e (n + 1) >>= fun t => .ok (blank (n + 2) ++ t)) (line (n + 1) ['V']) (blank (n + 1)) l := by
  cases l <;> rfl

/-- C69: the text of `osl_relation_list_dump` tells the relations. -/
theorem relation_list_shows (c : Cfg) (n : Nat) :
    Shows (fun l : RList => ∀ r ∈ l, ∀ p ∈ r, PartShown c p) (fun l => relation_list c l n) := by
  have hb := (relation_shows c (n + 1)).same (blank (n + 2))
  have h := linked_shows (null := line n "+-- NULL relation list".toList) (fin := blank (n + 1)) (sep := line (n + 1) ['V'])
    (fun x y => by
      rw [blank_eq]
      exact line_ne (by nonl) (by nonl) (by decide))
    (fun a x y _ => line_ne (by nonl) (by nonl) (by decide))
    (hb.same (line n "+-- osl_relation_list_t".toList)) (fun _ => hb.same (line n "|   osl_relation_list_t".toList))
  intro a b s t u v ha hb h1 h2
  dsimp only at h1 h2
  rw [relation_list_eq] at h1 h2
  exact h a b s t u v ha hb h1 h2

end Dump
end Osl
