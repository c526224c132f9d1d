import Verif.DumpLib
/-!
# The level of a display

The text written at level `n` is the text written at level 0 with `n` bars before each line.
-/

set_option linter.unusedSectionVars false

namespace Osl
namespace Dump

open Ext

/-! ## Specification -/

/-- Lines with `n` bars before each. -/
def prefixed (n : Nat) (ls : List Str) : Str := (ls.map fun l => bars n ++ l ++ ['\n']).flatten

/-- The level is only the number of bars before each line: the display is undefined at all levels, or there are lines such that
the display at any level `n` is these lines with `n` bars before each. -/
def Levelled (f : Nat → Out Str) : Prop :=
  (∀ n t, f n ≠ .ok t) ∨ ∃ ls : List Str, (∀ l ∈ ls, NoNL l) ∧ ∀ n, f n = .ok (prefixed n ls)

/-- The display at a level from the display at level 0: bars at the beginning and after each end of line which is not the last
character. -/
theorem Levelled.shift {f : Nat → Out Str} (h : Levelled f) {t : Str} (h0 : f 0 = .ok t) : ∃ ls : List Str, (∀ l ∈ ls, NoNL l) ∧
    t = (ls.map fun l => l ++ ['\n']).flatten ∧ ∀ n, f n = .ok (ls.map fun l => bars n ++ l ++ ['\n']).flatten := by
  rcases h with h | ⟨ls, h1, h2⟩
  · exact absurd h0 (h 0 t)
  · refine ⟨ls, h1, ?_, h2⟩
    have := h2 0
    rw [h0] at this
    injection this

theorem Levelled.indented {f : Nat → Out Str} (h : Levelled f) {n : Nat} {t : Str} (h0 : f n = .ok t) : Indented n t := by
  rcases h with h | ⟨ls, h1, h2⟩
  · exact absurd h0 (h n t)
  · rw [h2 n] at h0
    injection h0 with h0
    exact ⟨ls, h1, h0.symm⟩

/-! ## Texts -/

/-- The same for a function which is always defined. -/
def LS (g : Nat → Str) : Prop := ∃ ls : List Str, (∀ l ∈ ls, NoNL l) ∧ ∀ n, g n = prefixed n ls

theorem LS.nil : LS fun _ => [] := ⟨[], by simp, fun _ => rfl⟩

theorem LS.append {f g : Nat → Str} (hf : LS f) (hg : LS g) : LS fun n => f n ++ g n := by
  obtain ⟨l1, h1, e1⟩ := hf
  obtain ⟨l2, h2, e2⟩ := hg
  refine ⟨l1 ++ l2, fun l hl => ?_, fun n => ?_⟩
  · rcases List.mem_append.mp hl with h | h
    · exact h1 l h
    · exact h2 l h
  · show f n ++ g n = _
    rw [e1, e2]
    simp [prefixed]

theorem LS.line {s : Str} (h : NoNL s) : LS fun n => line n s :=
  ⟨[s], fun l hl => List.mem_singleton.mp hl ▸ h, fun n => by simp [prefixed, Dump.line]⟩

theorem LS.line_add {k : Nat} {s : Str} (h : NoNL s) : LS fun n => Dump.line (n + k) s := by
  refine ⟨[bars k ++ s], fun l hl => List.mem_singleton.mp hl ▸ (bars_noNL k).append h, fun n => ?_⟩
  show Dump.line (n + k) s = _
  rw [line_lower]
  simp [prefixed, Dump.line]

theorem LS.blank_add {k : Nat} : LS fun n => blank (n + k) := by
  simp only [blank_eq]
  exact LS.line_add NoNL.nil

theorem LS.add {g : Nat → Str} (h : LS g) (k : Nat) : LS fun n => g (n + k) := by
  obtain ⟨ls, h1, e⟩ := h
  refine ⟨ls.map fun l => bars k ++ l, fun l hl => ?_, fun n => ?_⟩
  · obtain ⟨x, hx, rfl⟩ := List.mem_map.mp hl
    exact (bars_noNL k).append (h1 x hx)
  · show g (n + k) = _
    rw [e]
    simp [prefixed, bars_add, Function.comp_def]

theorem LS.ite {p : Prop} [Decidable p] {f g : Nat → Str} (hf : LS f) (hg : LS g) : LS fun n => if p then f n else g n := by
  by_cases h : p
  · simp only [if_pos h]; exact hf
  · simp only [if_neg h]; exact hg

theorem LS.flatten {α : Type} {f : Nat → α → Str} : ∀ {l : List α}, (∀ a ∈ l, LS fun n => f n a) → LS fun n => (l.map (f n)).flatten := by
  intro l
  induction l with
  | nil => intro _; exact LS.nil
  | cons a l ih =>
    intro h
    exact (h a (List.mem_cons_self ..)).append (ih fun b hb => h b (List.mem_cons_of_mem _ hb))

/-- Texts made of lines. -/
macro "lvl" : tactic => `(tactic| repeat (first
  | with_reducible assumption
  | with_reducible exact LS.nil
  | with_reducible exact LS.blank_add
  | with_reducible apply LS.append
  | with_reducible apply LS.line
  | with_reducible apply LS.line_add
  | with_reducible exact noNL_showInt _
  | with_reducible exact noNL_showNat _
  | with_reducible exact noNL_padInt _ _
  | with_reducible apply NoNL.append
  | (unfold NoNL; decide)))

theorem Levelled.of {f : Nat → Out Str} {g : Nat → Str} (hg : LS g) (h : ∀ n, f n = .ok (g n)) : Levelled f := by
  obtain ⟨ls, h1, e⟩ := hg
  exact .inr ⟨ls, h1, fun n => by rw [h, e]⟩

theorem LS.ok {g : Nat → Str} (hg : LS g) : Levelled fun n => .ok (g n) := Levelled.of hg fun _ => rfl

/-- Defined at all levels or none. -/
theorem Levelled.cases {f : Nat → Out Str} (h : Levelled f) : (∀ n t, f n ≠ .ok t) ∨ ∃ g, LS g ∧ ∀ n, f n = .ok (g n) := by
  rcases h with h | ⟨ls, h1, h2⟩
  · exact .inl h
  · exact .inr ⟨fun n => prefixed n ls, ⟨ls, h1, fun _ => rfl⟩, h2⟩

theorem Levelled.ub : Levelled fun _ => .ub := .inl fun _ _ h => (by cases h)

theorem Levelled.add {f : Nat → Out Str} (h : Levelled f) (k : Nat) : Levelled fun n => f (n + k) := by
  rcases h.cases with h | ⟨g, hg, e⟩
  · exact .inl fun n t => h (n + k) t
  · exact Levelled.of (hg.add k) fun n => e (n + k)

/-- A display, then what depends on its text. -/
theorem Levelled.bind {f : Nat → Out Str} {k : Nat → Str → Out Str} (h : Levelled f)
    (hk : ∀ g, LS g → (∀ n, f n = .ok (g n)) → Levelled fun n => k n (g n)) : Levelled fun n => f n >>= k n := by
  rcases h.cases with h | ⟨g, hg, e⟩
  · refine .inl fun n t ht => ?_
    rw [Out.bind_eq_ok] at ht
    obtain ⟨s, hs, _⟩ := ht
    exact h n s hs
  · have := hk g hg e
    simp only [e, Out.ok_bind]
    exact this

/-- A text which does not depend on the level, then what depends on it. -/
theorem Levelled.const {x : Out Str} {k : Nat → Str → Out Str} (hk : ∀ s, x = .ok s → Levelled fun n => k n s) :
    Levelled fun n => x >>= k n := by
  cases hx : x with
  | ok s => exact hk s hx
  | _ => exact .inl fun n t h => (by cases h)

theorem Levelled.cat {α : Type} {f : Nat → α → Out Str} : ∀ {l : List α}, (∀ a ∈ l, Levelled fun n => f n a) →
    Levelled fun n => cat (f n) l := by
  intro l
  induction l with
  | nil => intro _; exact LS.nil.ok
  | cons a l ih =>
    intro h
    simp only [Dump.cat]
    refine (h a (List.mem_cons_self ..)).bind fun g hg _ => ?_
    refine (ih fun b hb => h b (List.mem_cons_of_mem _ hb)).bind fun g' hg' _ => ?_
    exact (hg.append hg').ok

theorem Levelled.nodes {α : Type} {head : Nat → Nat → α → Str} {body : Nat → α → Out Str} {sep : Nat → Str} (hs : LS sep) :
    ∀ {l : List α} {k : Nat}, (∀ a ∈ l, ∀ k, LS fun n => head n k a) → (∀ a ∈ l, Levelled fun n => body n a) →
    Levelled fun n => nodes (head n) (body n) (sep n) k l := by
  intro l
  induction l with
  | nil => intro k _ _; exact LS.nil.ok
  | cons a l ih =>
    intro k hh hb
    simp only [Dump.nodes]
    refine (hb a (List.mem_cons_self ..)).bind fun g hg _ => ?_
    refine (ih (fun b h => hh b (List.mem_cons_of_mem _ h)) fun b h => hb b (List.mem_cons_of_mem _ h)).bind fun g' hg' _ => ?_
    exact ((((LS.ite LS.nil (hh a (List.mem_cons_self ..) k)).append hg).append (LS.ite LS.nil hs)).append hg').ok

theorem Levelled.linked {α : Type} {null : Nat → Str} {first : Nat → α → Str} {head : Nat → Nat → α → Str} {body : Nat → α → Out Str}
    {sep fin : Nat → Str} {l : List α} (h0 : LS null) (h1 : ∀ a ∈ l, LS fun n => first n a) (h2 : ∀ a ∈ l, ∀ k, LS fun n => head n k a)
    (h3 : ∀ a ∈ l, Levelled fun n => body n a) (h4 : LS sep) (h5 : LS fin) :
    Levelled fun n => linked (null n) (first n) (head n) (body n) (sep n) (fin n) l := by
  simp only [Dump.linked]
  refine (Levelled.nodes h4 h2 h3).bind fun g hg _ => ?_
  cases l with
  | nil => exact ((h0.append hg).append h5).ok
  | cons a l => exact (((h1 a (List.mem_cons_self ..)).append hg).append h5).ok

/-! ## Strings, vectors and relations -/

/-- No end of line in the strings. -/
def StringsLine (s : Option Strings) : Prop := ∀ x, s = some x → ∀ w ∈ x.words, NoNL w

theorem LS.strings {s : Option Strings} (h : StringsLine s) : LS fun n => strings s n := by
  simp only [strings_eq]
  cases s with
  | none => lvl
  | some x => have := spaced_noNL (h x rfl); lvl

/-- C71: `osl_strings_idump`. -/
theorem strings_level {s : Option Strings} (h : StringsLine s) : Levelled fun n => .ok (strings s n) := (LS.strings h).ok

/-- C71: `osl_vector_idump`. -/
theorem vector_level (c : Cfg) (v : Option Vec) : Levelled fun n => vector c v n := by
  cases v with
  | none => exact LS.ok (g := fun n => line n "+-- NULL vector".toList ++ blank (n + 1)) (by lvl)
  | some v =>
    simp only [vector]
    refine Levelled.const fun s hs => ?_
    have h1 := precision_noNL c v.precision
    have h2 : NoNL s := entries_noNL (c := c) (p := v.precision) hs
    exact LS.ok (by lvl)

theorem cat_noNL {α : Type} {f : α → Out Str} : ∀ {l : List α} {t : Str}, (∀ a ∈ l, ∀ s, f a = .ok s → NoNL s) → cat f l = .ok t → NoNL t := by
  intro l
  induction l with
  | nil => intro t _ h; cases h; exact NoNL.nil
  | cons a l ih =>
    intro t hf h
    simp only [cat, Out.bind_eq_ok, Out.pure_eq] at h
    obtain ⟨s, h1, s', h2, h3⟩ := h
    injection h3 with h3
    subst h3
    exact (hf a (List.mem_cons_self ..) s h1).append (ih (fun b hb => hf b (List.mem_cons_of_mem _ hb)) h2)

theorem relRow_level (c : Cfg) (p : Part) (i : Nat) : Levelled fun n => relRow c n p i := by
  simp only [relRow]
  refine Levelled.const fun s hs => ?_
  have h : NoNL s := by
    refine cat_noNL (fun j _ t ht => ?_) hs
    simp only [Out.bind_eq_ok, Out.pure_eq] at ht
    obtain ⟨v, _, t1, h1, h2⟩ := ht
    injection h2 with h2
    subst h2
    rw [int_text h1]
    nonl
  exact LS.ok (by lvl)

theorem relBody_level (c : Cfg) (p : Part) : Levelled fun n => relBody c n p := by
  simp only [relBody]
  refine (Levelled.cat (f := fun n i => relRow c n p i) fun i _ => relRow_level c p i).bind fun g hg _ => ?_
  have := relDims_noNL p
  exact LS.ok (by lvl)

/-- C71: `osl_relation_idump`. -/
theorem relation_level (c : Cfg) (r : Rel) : Levelled fun n => relation c r n := by
  simp only [relation_eq]
  have ht := relType_noNL c
  exact Levelled.linked (by lvl) (fun p _ => by have := ht p; lvl) (fun p _ _ => by have := ht p; lvl) (fun p _ => relBody_level c p) (by lvl) (by lvl)

/-- C71: `osl_relation_list_idump`. -/
theorem relation_list_level (c : Cfg) (l : RList) : Levelled fun n => relation_list c l n := by
  simp only [relation_list_eq]
  refine Levelled.linked (by lvl) (fun _ _ => by lvl) (fun _ _ _ => by lvl) (fun r _ => ?_) (by lvl) (by lvl)
  exact ((relation_level c r).add 1).bind fun g hg _ => LS.ok (by lvl)

/-! ## Interfaces, extensions, statements, scops -/

/-- No end of line in the URI. -/
def UriLine (i : Iface) : Prop := ∀ u, i.URI = some u → NoNL u

theorem uriText_noNL {i : Iface} (h : UriLine i) : NoNL (uriText i.URI) := by
  cases hu : i.URI with
  | none => exact noNL_lit (by simp)
  | some u => exact h u hu

/-- C71: `osl_interface_idump`. -/
theorem interface_level {l : Ifaces} (h : ∀ i ∈ l, UriLine i) : Levelled fun n => interface l n := by
  have hn : Levelled fun n => nodes (fun _ i => line n ("|   osl_interface_t: URI = ".toList ++ uriText i.URI)) (fun _ => .ok [])
      (blank (n + 2) ++ line (n + 1) ['V']) 1 l := by
    refine Levelled.nodes (head := fun n _ (i : Iface) => line n ("|   osl_interface_t: URI = ".toList ++ uriText i.URI))
      (body := fun _ (_ : Iface) => .ok []) (sep := fun n => blank (n + 2) ++ line (n + 1) ['V']) (by lvl) (fun i hi _ => ?_) (fun _ _ => LS.nil.ok)
    have := uriText_noNL (h i hi)
    lvl
  cases l with
  | nil => exact LS.ok (g := fun n => line n "+-- NULL interface".toList ++ [] ++ blank (n + 1)) (by lvl)
  | cons i m =>
    simp only [interface]
    cases hu : i.URI with
    | none => exact .inl fun n t h => (by cases h)
    | some u =>
      have := h i (List.mem_cons_self ..) u hu
      simp only [str, Out.ok_bind]
      exact hn.bind fun g hg _ => LS.ok (by lvl)

section
variable {D : Type}

/-- The data for which the display functions of the interfaces respect the level. -/
def FLevel (F : Fn D) (Q : Option D → Prop) : Prop := ∀ k d, Q d → Levelled fun n => F k d n

/-- Lines of an extension. -/
def GenericLine (Q : Option D → Prop) (g : Generic D) : Prop := (∀ i, g.interface = some i → UriLine i) ∧ Q g.data

theorem genericBody_level {F : Fn D} {Q : Option D → Prop} (hF : FLevel F Q) {g : Generic D} (hg : GenericLine Q g) :
    Levelled fun n => genericBody F n g := by
  simp only [genericBody]
  cases hi : g.interface with
  | none =>
    refine ((interface_level (l := []) fun i hi => (by cases hi)).add 1).bind fun t ht _ => ?_
    exact LS.ok (g := fun n => blank (n + 2) ++ t n ++ []) (by lvl)
  | some i =>
    refine ((interface_level (l := [i]) fun j hj => List.mem_singleton.mp hj ▸ hg.1 i hi).add 1).bind fun t ht _ => ?_
    refine ((hF i.fns.idump g.data hg.2).add 1).bind fun t' ht' _ => ?_
    exact LS.ok (by lvl)

/-- C71: `osl_generic_idump`. -/
theorem generic_level {F : Fn D} {Q : Option D → Prop} (hF : FLevel F Q) {l : GList D} (h : ∀ g ∈ l, GenericLine Q g) :
    Levelled fun n => generic F l n := by
  simp only [generic_eq]
  exact Levelled.linked (by lvl) (fun _ _ => by lvl) (fun _ _ _ => by lvl) (fun g hg => genericBody_level hF (h g hg)) (by lvl) (by lvl)

/-- C71: `osl_statement_idump`. -/
theorem statement_level (c : Cfg) {F : Fn D} {Q : Option D → Prop} (hF : FLevel F Q) {l : Stmts D}
    (h : ∀ s ∈ l, ∀ g ∈ s.extension, GenericLine Q g) : Levelled fun n => statement c F l n := by
  simp only [statement_eq]
  refine Levelled.linked (by lvl) (fun _ _ => by lvl) (fun _ _ _ => by lvl) (fun s hs => ?_) (by lvl) (by lvl)
  simp only [stmtBody]
  refine ((relation_level c s.domain).add 1).bind fun _ _ _ => ?_
  refine ((relation_level c s.scattering).add 1).bind fun _ _ _ => ?_
  refine ((relation_list_level c s.access).add 1).bind fun _ _ _ => ?_
  refine ((generic_level hF (h s hs)).add 1).bind fun _ _ _ => ?_
  exact LS.ok (by lvl)

/-- Lines of a scop. -/
structure ScopLine (Q : Option D → Prop) (s : Scop D) : Prop where
  language : ∀ l, s.language = some l → NoNL l
  parameters : ∀ g ∈ s.parameters, GenericLine Q g
  statement : ∀ x ∈ s.statement, ∀ g ∈ x.extension, GenericLine Q g
  registry : ∀ i ∈ s.registry, UriLine i
  extension : ∀ g ∈ s.extension, GenericLine Q g

/-- C71: `osl_scop_idump`. -/
theorem scop_level (c : Cfg) {F : Fn D} {Q : Option D → Prop} (hF : FLevel F Q) {l : Scops D} (h : ∀ s ∈ l, ScopLine Q s) :
    Levelled fun n => scop c F l n := by
  simp only [scop_eq]
  refine Levelled.linked (by lvl) (fun _ _ => by lvl) (fun _ _ _ => by lvl) (fun s hs => ?_) (by lvl) (by lvl)
  simp only [scopBody]
  refine Levelled.const fun l hl => ?_
  have hl := (h s hs).language l (str_ok hl)
  refine ((relation_level c s.context).add 1).bind fun _ _ _ => ?_
  refine ((generic_level hF (h s hs).parameters).add 1).bind fun _ _ _ => ?_
  refine ((statement_level c hF (h s hs).statement).add 1).bind fun _ _ _ => ?_
  refine ((interface_level (h s hs).registry).add 1).bind fun _ _ _ => ?_
  refine ((generic_level hF (h s hs).extension).add 1).bind fun _ _ _ => ?_
  exact LS.ok (by lvl)

end
end Dump
end Osl
