import Verif.DumpScop
/-!
# What the display functions of the extensions show
-/

set_option linter.unusedSectionVars false

namespace Osl
namespace Dump

open Ext

/-- The display of an optional structure: a first line of its own for NULL. -/
theorem option_shows {X : Type} {P : X → Prop} {f : Option X → Out Str} {n : Nat} {null first : Str} {g : X → Out Str}
    (hn : f none = .ok (line n null ++ blank (n + 1))) (hs : ∀ x, f (some x) = g x >>= fun t => .ok (line n first ++ t ++ blank (n + 1)))
    (h1 : NoNL null) (h2 : NoNL first) (h3 : first ≠ null) (hg : Shows P g) :
    Shows (fun o : Option X => ∀ x, o = some x → P x) f := by
  intro a b s t u v ha hb e1 e2 e
  cases a with
  | none =>
    rw [hn] at e1
    injection e1 with e1
    subst e1
    cases b with
    | none =>
      rw [hn] at e2
      injection e2 with e2
      subst e2
      exact ⟨rfl, List.append_cancel_left e⟩
    | some b =>
      rw [hs, Out.bind_eq_ok] at e2
      obtain ⟨t1, _, e2⟩ := e2
      injection e2 with e2
      subst e2
      simp only [List.append_assoc] at e
      exact absurd (line_inj h1 h2 e).1 h3.symm
  | some a =>
    rw [hs, Out.bind_eq_ok] at e1
    obtain ⟨s1, g1, e1⟩ := e1
    injection e1 with e1
    subst e1
    cases b with
    | none =>
      rw [hn] at e2
      injection e2 with e2
      subst e2
      simp only [List.append_assoc] at e
      exact absurd (line_inj h2 h1 e).1 h3
    | some b =>
      rw [hs, Out.bind_eq_ok] at e2
      obtain ⟨t1, g2, e2⟩ := e2
      injection e2 with e2
      subst e2
      simp only [List.append_assoc] at e
      obtain ⟨k1, k2⟩ := hg a b s1 t1 _ _ (ha a rfl) (hb b rfl) g1 g2 (List.append_cancel_left e)
      exact ⟨by rw [k1], List.append_cancel_left k2⟩

theorem ok_shows {α : Type} {P : α → Prop} {f : α → Str} (h : ∀ a b u v, P a → P b → f a ++ u = f b ++ v → a = b ∧ u = v) :
    Shows P fun a => (.ok (f a) : Out Str) := by
  intro a b s t u v ha hb e1 e2
  injection e1 with e1; injection e2 with e2
  subst e1; subst e2
  exact h a b u v ha hb

theorem str_ok {s : Option Str} {t : Str} (h : str s = .ok t) : s = some t := by
  cases s with
  | none => cases h
  | some x => injection h with h; rw [h]

theorem oneLine_noNL (s : Str) : NoNL (oneLine s) := by
  intro h
  obtain ⟨c, _, e⟩ := List.mem_map.mp h
  split at e <;> simp_all

theorem oneLine_id {s : Str} (h : NoNL s) : oneLine s = s := by
  unfold oneLine
  conv => rhs; rw [← List.map_id s]
  refine List.map_congr_left fun c hc => ?_
  rw [if_neg (h.ne c hc)]; rfl

/-! ## Texts -/

/-- C70: `osl_comment_dump` tells a comment without end of line; in general the comment up to its ends of lines, displayed as spaces. -/
theorem comment_shows (n : Nat) : Shows (fun o : Option Comment => ∀ x, o = some x → ∀ s, x.comment = some s → NoNL s) (fun o => comment o n) := by
  refine option_shows (n := n) (null := "+-- NULL comment".toList) (first := "+-- osl_comment_t".toList)
    (g := fun x => str x.comment >>= fun s => .ok (line (n + 1) ("comment: ".toList ++ oneLine s))) rfl (fun x => ?_) (by nonl) (by nonl) (by decide) ?_
  · cases h : x.comment <;> simp only [comment, h, str] <;> rfl
  · intro a b s t u v ha hb e1 e2 e
    simp only [Out.bind_eq_ok] at e1 e2
    obtain ⟨s1, h1, e1⟩ := e1
    obtain ⟨t1, h2, e2⟩ := e2
    injection e1 with e1; injection e2 with e2
    subst e1; subst e2
    rw [oneLine_id (ha _ (str_ok h1)), oneLine_id (hb _ (str_ok h2))] at e
    have n1 := ha _ (str_ok h1)
    have n2 := hb _ (str_ok h2)
    obtain ⟨k1, k2⟩ := line_inj (by nonl) (by nonl) e
    refine ⟨?_, k2⟩
    have h1 := str_ok h1
    have h2 := str_ok h2
    cases a; cases b
    simp only at h1 h2
    rw [h1, h2, List.append_cancel_left k1]

/-- C70: `osl_clay_dump` tells a script without end of line. -/
theorem clay_shows (n : Nat) : Shows (fun o : Option Clay => ∀ x, o = some x → ∀ s, x.script = some s → NoNL s) (fun o => clay o n) := by
  refine option_shows (n := n) (null := "+-- NULL clay".toList) (first := "+-- osl_clay_t".toList)
    (g := fun x => str x.script >>= fun s => .ok (line (n + 1) ("script: ".toList ++ oneLine s))) rfl (fun x => ?_) (by nonl) (by nonl) (by decide) ?_
  · cases h : x.script <;> simp only [clay, h, str] <;> rfl
  · intro a b s t u v ha hb e1 e2 e
    simp only [Out.bind_eq_ok] at e1 e2
    obtain ⟨s1, h1, e1⟩ := e1
    obtain ⟨t1, h2, e2⟩ := e2
    injection e1 with e1; injection e2 with e2
    subst e1; subst e2
    rw [oneLine_id (ha _ (str_ok h1)), oneLine_id (hb _ (str_ok h2))] at e
    have n1 := ha _ (str_ok h1)
    have n2 := hb _ (str_ok h2)
    obtain ⟨k1, k2⟩ := line_inj (by nonl) (by nonl) e
    refine ⟨?_, k2⟩
    have h1 := str_ok h1
    have h2 := str_ok h2
    cases a; cases b
    simp only at h1 h2
    rw [h1, h2, List.append_cancel_left k1]

/-- C70: `osl_textual_dump` tells a text of at most 40 characters without end of line. -/
theorem textual_shows (n : Nat) : Shows (fun o : Option Textual => ∀ x, o = some x → ∀ s, x.textual = some s → NoNL s ∧ s.length ≤ 40)
    (fun o => textual o n) := by
  intro a b s t u v ha hb e1 e2 e
  have some_text : ∀ {x : Textual} {s : Str}, (∀ s, x.textual = some s → NoNL s ∧ s.length ≤ 40) → textual (some x) n = .ok s →
      ∃ w, x.textual = some w ∧ NoNL w ∧ s = line n ("+-- osl_textual_t: ".toList ++ w) ++ blank (n + 1) := by
    intro x s hx h
    simp only [textual, Out.bind_eq_ok, Out.pure_eq] at h
    obtain ⟨w, h1, h2⟩ := h
    injection h2 with h2
    obtain ⟨k1, k2⟩ := hx w (str_ok h1)
    rw [oneLine_id k1, if_neg (by omega)] at h2
    exact ⟨w, str_ok h1, k1, h2.symm⟩
  cases a with
  | none =>
    injection e1 with e1
    subst e1
    cases b with
    | none => injection e2 with e2; subst e2; exact ⟨rfl, List.append_cancel_left e⟩
    | some b =>
      obtain ⟨w, h1, h2, h3⟩ := some_text (hb b rfl) e2
      rw [h3, List.append_assoc, List.append_assoc] at e
      exact absurd (line_inj (by nonl) (by nonl) e).1 (by simp)
  | some a =>
    obtain ⟨w, h1, h2, h3⟩ := some_text (ha a rfl) e1
    rw [h3, List.append_assoc] at e
    cases b with
    | none =>
      injection e2 with e2
      subst e2
      rw [List.append_assoc] at e
      exact absurd (line_inj (by nonl) (by nonl) e).1 (by simp)
    | some b =>
      obtain ⟨x, g1, g2, g3⟩ := some_text (hb b rfl) e2
      rw [g3, List.append_assoc] at e
      obtain ⟨k1, k2⟩ := line_inj (by nonl) (by nonl) e
      refine ⟨?_, List.append_cancel_left k2⟩
      cases a; cases b
      simp only at h1 g1
      rw [h1, g1, List.append_cancel_left k1]

/-- C70: `osl_null_dump`. -/
theorem null_shows (n : Nat) : Shows (fun _ : Option Null => True) (fun o => .ok (null o n)) := by
  refine ok_shows fun a b u v _ _ e => ?_
  cases a <;> cases b
  · exact ⟨rfl, List.append_cancel_left e⟩
  · simp only [null, List.append_assoc] at e
    exact absurd (line_inj (by nonl) (by nonl) e).1 (by decide)
  · simp only [null, List.append_assoc] at e
    exact absurd (line_inj (by nonl) (by nonl) e).1 (by decide)
  · exact ⟨rfl, List.append_cancel_left e⟩

/-! ## Lists of integers -/

theorem intList_noNL (l : List Int) : NoNL (intList l) := by
  unfold intList
  induction l with
  | nil => exact NoNL.nil
  | cons a l ih =>
    simp only [List.map_cons, List.flatten_cons]
    exact ((noNL_showInt a).append (by unfold NoNL; decide)).append ih

theorem intList_inj : ∀ {l m : List Int}, intList l = intList m → l = m := by
  intro l
  unfold intList
  induction l with
  | nil =>
    intro m e
    cases m with
    | nil => rfl
    | cons a m =>
      exfalso
      have := congrArg List.length e
      simp at this
  | cons a l ih =>
    intro m e
    cases m with
    | nil =>
      exfalso
      have := congrArg List.length e
      simp at this
    | cons b m =>
      simp only [List.map_cons, List.flatten_cons, List.append_assoc] at e
      obtain ⟨k1, k2⟩ := showInt_follow (c := ',') (d := ',') (x := ' ' :: (l.map fun i => showInt i ++ ", ".toList).flatten)
        (y := ' ' :: (m.map fun i => showInt i ++ ", ".toList).flatten) (by decide) (by decide) e
      injection k2 with _ k2
      injection k2 with _ k2
      rw [k1, ih k2]

/-- C70: `osl_scatinfos_dump` tells the three arrays. -/
theorem scatinfos_shows (n : Nat) : Shows (fun _ : Option Scatinfos => True) (fun o => .ok (scatinfos o n)) := by
  refine (option_shows (P := fun _ => True) (n := n) (null := "+-- NULL scatinfos".toList) (first := "+-- osl_scatinfos_t".toList)
    (g := fun x => .ok (line (n + 1) ("+--nb_scatdims: ".toList ++ showNat x.parallel.length) ++
      blank (n + 2) ++ line (n + 1) ("+--parallel--: ".toList ++ intList x.parallel) ++
      blank (n + 2) ++ line (n + 1) ("+--permutable: ".toList ++ intList x.permutable) ++
      blank (n + 2) ++ line (n + 1) ("+--type------: ".toList ++ intList x.type))) rfl (fun x => ?_) (by nonl) (by nonl) (by decide) ?_).mono
      (fun _ _ _ _ => trivial)
  · simp only [scatinfos, Out.ok_bind, List.append_assoc]
  · refine ok_shows fun a b u v _ _ e => ?_
    simp only [List.append_assoc] at e
    have a1 := intList_noNL a.parallel
    have a2 := intList_noNL a.permutable
    have a3 := intList_noNL a.type
    have b1 := intList_noNL b.parallel
    have b2 := intList_noNL b.permutable
    have b3 := intList_noNL b.type
    obtain ⟨_, e⟩ := line_inj (by nonl) (by nonl) e
    obtain ⟨k1, e⟩ := line_inj (by nonl) (by nonl) (List.append_cancel_left e)
    obtain ⟨k2, e⟩ := line_inj (by nonl) (by nonl) (List.append_cancel_left e)
    obtain ⟨k3, e⟩ := line_inj (by nonl) (by nonl) (List.append_cancel_left e)
    have k1 := intList_inj (List.append_cancel_left k1)
    have k2 := intList_inj (List.append_cancel_left k2)
    have k3 := intList_inj (List.append_cancel_left k3)
    refine ⟨?_, e⟩
    cases a; cases b
    simp only at k1 k2 k3
    rw [k1, k2, k3]

/-- C70: `osl_scatnames_dump` tells the names. -/
theorem scatnames_shows (n : Nat) : Shows (fun o : Option Scatnames => ∀ x, o = some x → ∀ y, x.names = some y → WordsOnly y)
    (fun o => .ok (scatnames o n)) := by
  refine option_shows (n := n) (null := "+-- NULL scatnames".toList) (first := "+-- osl_scatnames_t".toList)
    (g := fun x => .ok (blank (n + 2) ++ strings x.names (n + 1))) rfl (fun x => ?_) (by nonl) (by nonl) (by decide) ?_
  · simp only [scatnames, Out.ok_bind, List.append_assoc]
  · refine ok_shows fun a b u v ha hb e => ?_
    simp only [List.append_assoc] at e
    obtain ⟨k1, e⟩ := strings_shows (n + 1) _ _ _ _ _ _ ha hb rfl rfl (List.append_cancel_left e)
    refine ⟨?_, e⟩
    cases a; cases b
    simp only at k1
    rw [k1]

/-- Lines written in a loop over as many elements. -/
theorem lines_inj {α : Type} {P : α → Prop} {f : α → Str} (h : ∀ a b u v, P a → P b → f a ++ u = f b ++ v → a = b ∧ u = v) :
    ∀ {l m : List α} {u v : Str}, l.length = m.length → (∀ a ∈ l, P a) → (∀ a ∈ m, P a) →
    (l.map f).flatten ++ u = (m.map f).flatten ++ v → l = m ∧ u = v := by
  intro l
  induction l with
  | nil =>
    intro m u v hl _ _ e
    cases m with
    | nil => exact ⟨rfl, e⟩
    | cons _ _ => cases hl
  | cons a l ih =>
    intro m u v hl hP hQ e
    cases m with
    | nil => cases hl
    | cons b m =>
      simp only [List.map_cons, List.flatten_cons, List.append_assoc] at e
      obtain ⟨k1, e⟩ := h a b _ _ (hP _ (List.mem_cons_self ..)) (hQ _ (List.mem_cons_self ..)) e
      obtain ⟨k2, e⟩ := ih (by simpa using hl) (fun x hx => hP _ (List.mem_cons_of_mem _ hx)) (fun x hx => hQ _ (List.mem_cons_of_mem _ hx)) e
      exact ⟨by rw [k1, k2], e⟩

/-- C70: `osl_arrays_dump` tells the pairs (names without ends of lines). -/
theorem arrays_shows (n : Nat) : Shows (fun o : Option Arrays => ∀ x, o = some x → ∀ p ∈ x.pairs, NoNL p.2) (fun o => .ok (arrays o n)) := by
  refine option_shows (n := n) (null := "+-- NULL arrays".toList) (first := "+-- osl_arrays_t".toList)
    (g := fun x => .ok (line (n + 1) ("nb_names: ".toList ++ showNat x.pairs.length) ++
      (x.pairs.map fun p => line (n + 1) ("id: ".toList ++ padLeft 2 (showInt p.1) ++ ", name: ".toList ++ p.2)).flatten))
      rfl (fun x => ?_) (by nonl) (by nonl) (by decide) ?_
  · simp only [arrays, Out.ok_bind, List.append_assoc]
  · refine ok_shows fun a b u v ha hb e => ?_
    simp only [List.append_assoc] at e
    obtain ⟨k1, e⟩ := line_inj (by nonl) (by nonl) e
    have k1 := showNat_inj (List.append_cancel_left k1)
    obtain ⟨k2, e⟩ := lines_inj (P := fun p : Int × Str => NoNL p.2) (fun p q u v hp hq e => by
      obtain ⟨k, e⟩ := line_inj (by nonl) (by nonl) e
      obtain ⟨k1, k2⟩ := padInt_follow (c := ',') (d := ',') (x := " name: ".toList ++ p.2) (y := " name: ".toList ++ q.2) (by decide) (by decide)
        (List.append_cancel_left k)
      injection k2 with _ k2
      exact ⟨Prod.ext k1 (List.append_cancel_left k2), e⟩) k1 ha hb e
    refine ⟨?_, e⟩
    cases a; cases b
    simp only at k2
    rw [k2]

/-- C70: `osl_extbody_dump` tells the accesses and the body. -/
theorem extbody_shows (n : Nat) : Shows (fun o : Option Extbody => ∀ x, o = some x → ∀ y, x.body = some y → BodyShown y)
    (fun o => .ok (extbody o n)) := by
  refine option_shows (n := n) (null := "+-- NULL extbody".toList) (first := "+-- osl_extbody_t".toList)
    (g := fun x => .ok (line (n + 1) ("nb_access: ".toList ++ showNat x.access.length) ++
      ((x.access.map fun p => line (n + 1) ("start: ".toList ++ showInt p.1 ++ ", length: ".toList ++ showInt p.2)).flatten ++
      body x.body n))) rfl (fun x => ?_) (by nonl) (by nonl) (by decide) ?_
  · simp only [extbody, Out.ok_bind, List.append_assoc]
  · refine ok_shows fun a b u v ha hb e => ?_
    simp only [List.append_assoc] at e
    obtain ⟨k1, e⟩ := line_inj (by nonl) (by nonl) e
    have k1 := showNat_inj (List.append_cancel_left k1)
    obtain ⟨k2, e⟩ := lines_inj (P := fun p : Int × Int => True) (fun p q u v hp hq e => by
      obtain ⟨k, e⟩ := line_inj (by nonl) (by nonl) e
      obtain ⟨k1, k2⟩ := showInt_follow (c := ',') (d := ',') (x := " length: ".toList ++ showInt p.2) (y := " length: ".toList ++ showInt q.2) (by decide)
        (by decide) (List.append_cancel_left k)
      injection k2 with _ k2
      exact ⟨Prod.ext k1 (showInt_inj (List.append_cancel_left k2)), e⟩) k1 (fun _ _ => trivial) (fun _ _ => trivial) e
    obtain ⟨k3, e⟩ := body_shows n _ _ _ _ _ _ ha hb rfl rfl e
    refine ⟨?_, e⟩
    cases a; cases b
    simp only at k2 k3
    rw [k2, k3]

theorem coordName_inj : ∀ {a b : Option Str}, coordName a = coordName b → a = b := by
  intro a b h
  cases a with
  | none =>
    cases b with
    | none => rfl
    | some y =>
      have : some 'N' = some 'F' := congrArg List.head? h
      exact absurd this (by decide)
  | some x =>
    cases b with
    | none =>
      have : some 'F' = some 'N' := congrArg List.head? h
      exact absurd this (by decide)
    | some y => rw [List.append_cancel_left (as := "File name__: ".toList) h]

/-- C70: `osl_coordinates_dump` tells the coordinates. -/
theorem coordinates_shows (n : Nat) : Shows (fun o : Option Coordinates => ∀ x, o = some x → ∀ s, x.name = some s → NoNL s)
    (fun o => .ok (coordinates o n)) := by
  refine option_shows (n := n) (null := "+-- NULL coordinates".toList) (first := "+-- osl_coordinates_t".toList)
    (g := fun x => .ok (line (n + 1) (coordName x.name) ++
      line (n + 1) ("Coordinates: [".toList ++ showInt x.line_start ++ ",".toList ++ showInt x.column_start ++ " -> ".toList ++
        showInt x.line_end ++ ",".toList ++ showInt x.column_end ++ "]".toList) ++
      line (n + 1) ("Indentation: ".toList ++ showInt x.indent))) rfl (fun x => ?_) (by nonl) (by nonl) (by decide) ?_
  · simp only [coordinates, Out.ok_bind, List.append_assoc]
  · refine ok_shows fun a b u v ha hb e => ?_
    simp only [List.append_assoc] at e
    have nm : ∀ x : Coordinates, (∀ s, x.name = some s → NoNL s) →
        NoNL (coordName x.name) := by
      intro x hx
      cases h : x.name with
      | none => exact noNL_lit (by simp)
      | some s => exact NoNL.append (noNL_lit (by simp)) (hx s h)
    obtain ⟨k1, e⟩ := line_inj (nm a ha) (nm b hb) e
    obtain ⟨k2, e⟩ := line_inj (by nonl) (by nonl) e
    obtain ⟨k3, e⟩ := line_inj (by nonl) (by nonl) e
    have k1 : a.name = b.name := coordName_inj k1
    obtain ⟨d1, k2⟩ := showInt_follow (c := ',') (d := ',') (by decide) (by decide) (List.append_cancel_left k2)
    injection k2 with _ k2
    obtain ⟨d2, k2⟩ := showInt_follow (c := ' ') (d := ' ') (by decide) (by decide) k2
    have k2 := List.append_cancel_left (as := " -> ".toList) k2
    obtain ⟨d3, k2⟩ := showInt_follow (c := ',') (d := ',') (by decide) (by decide) k2
    injection k2 with _ k2
    have d4 := showInt_inj (List.append_cancel_right k2)
    have k3 := showInt_inj (List.append_cancel_left k3)
    refine ⟨?_, e⟩
    cases a; cases b
    simp only at k1 d1 d2 d3 d4 k3
    rw [k1, d1, d2, d3, d4, k3]

/-! ## Linked extensions -/

/-- An unrolling the text can tell. -/
def UnrollShown (x : Unroll) : Prop := ∀ s, x.iter = some s → NoNL s

theorem ofBool_inj {a b : Bool} (h : Unroll.ofBool a = Unroll.ofBool b) : a = b := by
  cases a <;> cases b <;> first | rfl | (exact absurd h (by decide))

theorem unrollBody_shows (n : Nat) : Shows UnrollShown (unrollBody n) := by
  intro a b s t u v ha hb e1 e2 e
  simp only [unrollBody, Out.bind_eq_ok, Out.pure_eq] at e1 e2
  obtain ⟨s1, h1, e1⟩ := e1
  obtain ⟨t1, h2, e2⟩ := e2
  injection e1 with e1; injection e2 with e2
  subst e1; subst e2
  have h1 := str_ok h1
  have h2 := str_ok h2
  have n1 := ha _ h1
  have n2 := hb _ h2
  simp only [List.append_assoc] at e
  obtain ⟨k1, e⟩ := line_inj (by nonl) (by nonl) (List.append_cancel_left e)
  obtain ⟨k2, e⟩ := line_inj (by nonl) (by nonl) e
  obtain ⟨k3, e⟩ := line_inj (by nonl) (by nonl) e
  have k2 := ofBool_inj (showInt_inj (List.append_cancel_left k2))
  have k3 := showNat_inj (List.append_cancel_left k3)
  refine ⟨?_, e⟩
  cases a; cases b
  simp only at h1 h2 k2 k3
  rw [h1, h2, List.append_cancel_left k1, k2, k3]

theorem unroll_eq (l : List Unroll) (n : Nat) : unroll l n =
    linked (line n "+-- NULL pluto_unroll".toList) (fun _ => line n "+-- osl_pluto_unroll_t".toList)
      (fun k _ => line n ("|   osl_pluto_unroll_t (node ".toList ++ showNat k ++ ")".toList)) (unrollBody n) (line (n + 1) ['V']) (blank (n + 1)) l := by
  cases l <;> rfl

/-- C70: `osl_pluto_unroll_dump` tells the unrollings. -/
theorem unroll_shows (n : Nat) : Shows (fun l : List Unroll => ∀ x ∈ l, UnrollShown x) (fun l => unroll l n) := by
  have hb := unrollBody_shows n
  have h := linked_shows (null := line n "+-- NULL pluto_unroll".toList) (fin := blank (n + 1)) (sep := line (n + 1) ['V'])
    (v_sep (n + 1)) (fun a x y _ => line_ne (by nonl) (by nonl) (by decide))
    (hb.same (line n "+-- osl_pluto_unroll_t".toList)) (fun k => hb.same (line n ("|   osl_pluto_unroll_t (node ".toList ++ showNat k ++ ")".toList)))
  intro a b s t u v ha hb h1 h2
  dsimp only at h1 h2
  rw [unroll_eq] at h1 h2
  exact h a b s t u v ha hb h1 h2

/-- A loop the text can tell. -/
def LoopShown (x : Loop) : Prop := (∀ s, x.iter = some s → NoNL s) ∧ (∀ s, x.private_vars = some s → NoNL s) ∧ ∀ s, x.user = some s → NoNL s

theorem padList_noNL (l : List Int) : NoNL (l.map fun i => padLeft 2 (showInt i) ++ ", ".toList).flatten := by
  induction l with
  | nil => exact NoNL.nil
  | cons a l ih =>
    simp only [List.map_cons, List.flatten_cons]
    exact ((noNL_padInt 2 a).append (by unfold NoNL; decide)).append ih

theorem loopBody_shows (n : Nat) : Shows LoopShown (loopBody n) := by
  intro a b s t u v ha hb e1 e2 e
  simp only [loopBody, Out.bind_eq_ok, Out.pure_eq] at e1 e2
  obtain ⟨s1, h1, s2, h3, s3, h5, e1⟩ := e1
  obtain ⟨t1, h2, t2, h4, t3, h6, e2⟩ := e2
  injection e1 with e1; injection e2 with e2
  subst e1; subst e2
  have h1 := str_ok h1
  have h2 := str_ok h2
  have h3 := str_ok h3
  have h4 := str_ok h4
  have h5 := str_ok h5
  have h6 := str_ok h6
  have n1 := ha.1 _ h1
  have n2 := hb.1 _ h2
  have n3 := ha.2.1 _ h3
  have n4 := hb.2.1 _ h4
  have n5 := ha.2.2 _ h5
  have n6 := hb.2.2 _ h6
  have na := padList_noNL a.stmt_ids
  have nb := padList_noNL b.stmt_ids
  simp only [List.append_assoc] at e
  obtain ⟨k1, e⟩ := line_inj (by nonl) (by nonl) (List.append_cancel_left e)
  obtain ⟨k2, e⟩ := line_inj (by nonl) (by nonl) e
  obtain ⟨k3, e⟩ := line_inj (by nonl) (by nonl) e
  obtain ⟨k4, e⟩ := line_inj (by nonl) (by nonl) e
  obtain ⟨k5, e⟩ := line_inj (by nonl) (by nonl) e
  obtain ⟨k6, e⟩ := line_inj (by nonl) (by nonl) e
  have k2 := showNat_inj (List.append_cancel_left k2)
  have k5 := showInt_inj (List.append_cancel_left k5)
  have k3 := List.append_cancel_left k3
  have k3 := (lines_inj (P := fun _ : Int => True) (f := fun i => padLeft 2 (showInt i) ++ ", ".toList) (u := []) (v := []) (fun p q u v _ _ e => by
      rw [List.append_assoc, List.append_assoc] at e
      obtain ⟨k1, k2⟩ := padInt_follow (c := ',') (d := ',') (x := ' ' :: u) (y := ' ' :: v) (by decide) (by decide) e
      injection k2 with _ k2
      injection k2 with _ k2
      exact ⟨k1, k2⟩) k2 (fun _ _ => trivial) (fun _ _ => trivial) (by rw [k3])).1
  refine ⟨?_, e⟩
  cases a; cases b
  simp only at h1 h2 h3 h4 h5 h6 k3 k5
  rw [h1, h2, h3, h4, h5, h6, k3, k5, List.append_cancel_left k1, List.append_cancel_left k4, List.append_cancel_left k6]

theorem loop_eq (l : List Loop) (n : Nat) : loop l n =
    linked (line n "+-- NULL loop".toList) (fun _ => line n "+-- osl_loop_t".toList)
      (fun k _ => line n ("|   osl_loop_t (node ".toList ++ showNat k ++ ")".toList)) (loopBody n) (line (n + 1) ['V']) (blank (n + 1)) l := by
  cases l <;> rfl

/-- C70: `osl_loop_dump` tells the loops. -/
theorem loop_shows (n : Nat) : Shows (fun l : List Loop => ∀ x ∈ l, LoopShown x) (fun l => loop l n) := by
  have hb := loopBody_shows n
  have h := linked_shows (null := line n "+-- NULL loop".toList) (fin := blank (n + 1)) (sep := line (n + 1) ['V'])
    (v_sep (n + 1)) (fun a x y _ => line_ne (by nonl) (by nonl) (by decide))
    (hb.same (line n "+-- osl_loop_t".toList)) (fun k => hb.same (line n ("|   osl_loop_t (node ".toList ++ showNat k ++ ")".toList)))
  intro a b s t u v ha hb h1 h2
  dsimp only at h1 h2
  rw [loop_eq] at h1 h2
  exact h a b s t u v ha hb h1 h2

end Dump
end Osl
