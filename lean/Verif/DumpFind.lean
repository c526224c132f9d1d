import Verif.DumpLevelExt
import Verif.LibraryExample
import Verif.ExtIrregularProps
/-!
# When the display of a scop is defined, findings, examples
-/

set_option linter.unusedSectionVars false

namespace Osl
namespace Dump

open Ext

/-- The interfaces of the default registry have different URIs. -/
theorem registry_default : Registry defaultRegistry := by
  have hu : ∀ i ∈ defaultRegistry, ∃ u, i.URI = some u ∧ '\n' ∉ u := by
    have h : ∀ i ∈ defaultRegistry, (match i.URI with | some u => decide ('\n' ∉ u) | none => false) = true := by decide
    intro i hi
    have := h i hi
    cases hu : i.URI with
    | none => rw [hu] at this; cases this
    | some u => rw [hu] at this; exact ⟨u, rfl, of_decide_eq_true this⟩
  exact ⟨hu, by decide⟩

/-! ## When the display is defined -/

section
variable {S : Type}

/-- The data which can be displayed, `sym` being the display of the symbols: a text where the function needs one; for the
dependences as the reader builds them, none. -/
def DataOk (c : Cfg) (sym : Option S → Nat → Out Str) (level : Nat) : Data S → Prop
  | .relation x => ∃ t, relation c (NE.elems (some x)) level = .ok t
  | .textual x => x.textual ≠ none
  | .comment x => x.comment ≠ none
  | .clay x => x.script ≠ none
  | .dependence _ => False
  | .symbols x => ∃ t, sym (some x) level = .ok t
  | .loop x => ∀ y ∈ NE.elems (some x), y.iter ≠ none ∧ y.private_vars ≠ none ∧ y.user ≠ none
  | .unroll x => ∀ y ∈ NE.elems (some x), y.iter ≠ none
  | _ => True

theorem str_ok_iff {s : Option Str} : (∃ t, str s = .ok t) ↔ s ≠ none := by
  cases s with
  | none => exact ⟨fun h => (by obtain ⟨t, h⟩ := h; cases h), fun h => absurd rfl h⟩
  | some s => exact ⟨fun _ h => (by cases h), fun _ => ⟨s, rfl⟩⟩

theorem bind_ok_iff {x : Out Str} {k : Str → Str} : (∃ t, (x >>= fun s => (.ok (k s) : Out Str)) = .ok t) ↔ ∃ t, x = .ok t := by
  constructor
  · rintro ⟨t, h⟩
    rw [Out.bind_eq_ok] at h
    obtain ⟨s, hs, _⟩ := h
    exact ⟨s, hs⟩
  · rintro ⟨s, hs⟩
    exact ⟨k s, by rw [hs]; rfl⟩

/-- C70: `osl_loop_dump` is defined exactly when the three texts of every loop are there. -/
theorem loop_ok_iff (l : List Loop) (n : Nat) : (∃ t, loop l n = .ok t) ↔ ∀ y ∈ l, y.iter ≠ none ∧ y.private_vars ≠ none ∧ y.user ≠ none := by
  rw [loop_eq, linked_ok]
  refine forall_congr' fun y => forall_congr' fun _ => ?_
  constructor
  · rintro ⟨t, h⟩
    simp only [loopBody, Out.bind_eq_ok] at h
    obtain ⟨s1, h1, s2, h2, s3, h3, _⟩ := h
    exact ⟨str_ok_iff.mp ⟨_, h1⟩, str_ok_iff.mp ⟨_, h2⟩, str_ok_iff.mp ⟨_, h3⟩⟩
  · rintro ⟨h1, h2, h3⟩
    obtain ⟨s1, h1⟩ := str_ok_iff.mpr h1
    obtain ⟨s2, h2⟩ := str_ok_iff.mpr h2
    obtain ⟨s3, h3⟩ := str_ok_iff.mpr h3
    exact ⟨_, by simp only [loopBody, h1, h2, h3, Out.ok_bind, Out.pure_eq]; rfl⟩

/-- C70: `osl_pluto_unroll_dump` is defined exactly when every iterator is there. -/
theorem unroll_ok_iff (l : List Unroll) (n : Nat) : (∃ t, unroll l n = .ok t) ↔ ∀ y ∈ l, y.iter ≠ none := by
  rw [unroll_eq, linked_ok]
  refine forall_congr' fun y => forall_congr' fun _ => ?_
  exact bind_ok_iff.trans str_ok_iff

/-- C70: when the display functions of the default registry are defined on their data. -/
theorem fns_ok_iff (c : Cfg) (sym : Option S → Nat → Out Str) (d : Data S) (level : Nat) :
    (∃ t, fns c sym d.index (some d) level = .ok t) ↔ DataOk c sym level d := by
  cases d with
  | strings x => exact ⟨fun _ => trivial, fun _ => ⟨_, rfl⟩⟩
  | body x => exact ⟨fun _ => trivial, fun _ => ⟨_, rfl⟩⟩
  | relation x => exact Iff.rfl
  | textual x => exact bind_ok_iff.trans str_ok_iff
  | comment x => exact bind_ok_iff.trans str_ok_iff
  | null x => exact ⟨fun _ => trivial, fun _ => ⟨_, rfl⟩⟩
  | scatinfos x => exact ⟨fun _ => trivial, fun _ => ⟨_, rfl⟩⟩
  | scatnames x => exact ⟨fun _ => trivial, fun _ => ⟨_, rfl⟩⟩
  | arrays x => exact ⟨fun _ => trivial, fun _ => ⟨_, rfl⟩⟩
  | coordinates x => exact ⟨fun _ => trivial, fun _ => ⟨_, rfl⟩⟩
  | clay x => exact bind_ok_iff.trans str_ok_iff
  | dependence x =>
    refine ⟨fun h => ?_, fun h => h.elim⟩
    obtain ⟨⟨s, hs, _⟩, _⟩ := (dependence_ok_iff c _ _ level).mp h _ (List.mem_cons_self ..)
    cases hs
  | symbols x => exact Iff.rfl
  | extbody x => exact ⟨fun _ => trivial, fun _ => ⟨_, rfl⟩⟩
  | loop x => exact loop_ok_iff _ level
  | unroll x => exact unroll_ok_iff _ level
  | region x =>
    refine ⟨fun _ => trivial, fun _ => ?_⟩
    have : ∃ t, nodes (fun k _ => line level ("|   osl_region_t (node ".toList ++ showNat k ++ ")".toList))
      (fun x => .ok (regionBody level x)) [] 1 (NE.elems (some x)) = .ok t := nodes_ok.mpr fun _ _ => ⟨_, rfl⟩
    exact bind_ok_iff.mpr this
  | annotation x => exact ⟨fun _ => trivial, fun _ => ⟨_, rfl⟩⟩

/-- C70: on NULL, all the display functions of the default registry but that of the annotations, and maybe that of the symbols, are
defined. -/
theorem fns_null_ok_iff (c : Cfg) (sym : Option S → Nat → Out Str) (k level : Nat) (hk : k < 18) (h12 : k ≠ 12) :
    (∃ t, fns c sym k none level = .ok t) ↔ k ≠ 17 := by
  match k with
  | 0 | 1 | 2 | 3 | 4 | 5 | 6 | 7 | 8 | 9 | 10 | 11 | 13 | 14 | 15 | 16 => exact ⟨fun _ => by decide, fun _ => ⟨_, rfl⟩⟩
  | 12 => exact absurd rfl h12
  | 17 => exact ⟨fun h => (by obtain ⟨t, h⟩ := h; cases h), fun h => absurd rfl h⟩
  | k + 18 => omega

end

/-- The display of a predicate is defined exactly when its texts are there. -/
theorem irrPred_ok_iff (what : Str) (x : Irregular) (i : Int) : (∃ t, irrPred what x i = .ok t) ↔
    ∃ p, Irregular.atI x.preds i = .ok p ∧ p.body ≠ none ∧ ∀ s ∈ p.iters, s ≠ none := by
  constructor
  · rintro ⟨t, h⟩
    simp only [irrPred, Out.bind_eq_ok] at h
    obtain ⟨p, hp, its, h1, b, h2, _⟩ := h
    refine ⟨p, hp, str_ok_iff.mp ⟨b, h2⟩, fun s hs => ?_⟩
    obtain ⟨t, ht⟩ := cat_ok.mp ⟨its, h1⟩ s hs
    exact str_ok_iff.mp (bind_ok_iff.mp ⟨t, ht⟩)
  · rintro ⟨p, hp, hb, hi⟩
    obtain ⟨b, hb⟩ := str_ok_iff.mpr hb
    obtain ⟨its, hi⟩ := (cat_ok (f := fun s => str s >>= fun s => .ok (s ++ [' ']))).mpr fun s hs => bind_ok_iff.mpr (str_ok_iff.mpr (hi s hs))
    have hi : irrIters p.iters = .ok its := hi
    exact ⟨_, by simp only [irrPred, hp, hi, hb, Out.ok_bind, Out.pure_eq]; rfl⟩

/-- C70: `osl_irregular_dump` is defined exactly when the bodies and the iterators of the predicates are there. -/
theorem irregular_ok_iff {x : Irregular} (h : x.WF) (n : Nat) :
    (∃ t, irregular (some x) n = .ok t) ↔ ∀ p ∈ x.preds, p.body ≠ none ∧ ∀ s ∈ p.iters, s ≠ none := by
  have h1 := h.control
  have h2 := h.exit
  have h3 := h.preds
  have hat : ∀ i : Nat, i < x.preds.length → ∃ p, x.preds[i]? = some p ∧ Irregular.atI x.preds i = .ok p := by
    intro i hi
    refine ⟨x.preds[i], List.getElem?_eq_getElem hi, ?_⟩
    unfold Irregular.atI
    rw [if_neg (by omega), Int.toNat_natCast, List.getElem?_eq_getElem hi]
  constructor
  · rintro ⟨t, ht⟩ p hp
    simp only [irregular, Out.bind_eq_ok] at ht
    obtain ⟨c, hc, e, he, _⟩ := ht
    obtain ⟨i, hi, rfl⟩ := List.getElem_of_mem hp
    obtain ⟨q, hq, ha⟩ := hat i hi
    rw [List.getElem?_eq_getElem hi] at hq
    injection hq with hq
    by_cases hlt : i < x.nbControl.toNat
    · obtain ⟨q', hq', hb, hs⟩ := (irrPred_ok_iff _ x i).mp (cat_ok.mp ⟨c, hc⟩ i (List.mem_range.mpr hlt))
      rw [ha] at hq'
      injection hq' with hq'
      rw [hq, hq']
      exact ⟨hb, hs⟩
    · have hm : i - x.nbControl.toNat ∈ List.range x.nbExit.toNat := List.mem_range.mpr (by omega)
      obtain ⟨q', hq', hb, hs⟩ := (irrPred_ok_iff _ x _).mp (cat_ok.mp ⟨e, he⟩ _ hm)
      have hidx : x.nbControl + ((i - x.nbControl.toNat : Nat) : Int) = i := by omega
      rw [hidx, ha] at hq'
      injection hq' with hq'
      rw [hq, hq']
      exact ⟨hb, hs⟩
  · intro hp
    have hall : ∀ i : Nat, i < x.preds.length → ∀ what, ∃ t, irrPred what x i = .ok t := by
      intro i hi what
      obtain ⟨q, hq, ha⟩ := hat i hi
      have := hp q (List.mem_of_getElem? hq)
      exact (irrPred_ok_iff what x i).mpr ⟨q, ha, this⟩
    obtain ⟨c, hc⟩ := (cat_ok (f := fun i : Nat => irrPred "control".toList x i) (l := List.range x.nbControl.toNat)).mpr fun i hi =>
      hall i (by have := List.mem_range.mp hi; omega) _
    obtain ⟨e, he⟩ := (cat_ok (f := fun i : Nat => irrPred "exit".toList x (x.nbControl + i)) (l := List.range x.nbExit.toNat)).mpr fun i hi => by
      have := List.mem_range.mp hi
      have h := hall (x.nbControl.toNat + i) (by omega) "exit".toList
      have hidx : ((x.nbControl.toNat + i : Nat) : Int) = x.nbControl + i := by omega
      rw [hidx] at h
      exact h
    exact ⟨_, by simp only [irregular, hc, he, Out.ok_bind, Out.pure_eq]; rfl⟩

/-! ## Findings -/

/-- Dependences as the data of an extension. -/
def depData (x : NE Dep) : (n : Nat) → DataAt n
  | 0 => (Data.dependence x : Data Empty)
  | n + 1 => (Data.dependence x : Data (NE (Symbol (DataAt n))))

/-- Finding (C70): `osl_scop_dump` is undefined for a scop with dependences as the reader builds them: the display of a dependence
reads the statements it points to, and the reader leaves NULL pointers. -/
theorem scop_dependence_undefined (c : Cfg) (n level : Nat) (x : NE Dep) {s : Scop (DataAt n)} {l : Scops (DataAt n)} (hs : s ∈ l)
    (hx : ∃ g ∈ s.extension, g.interface = defaultRegistry[11]? ∧ g.data = some (depData x n)) :
    ¬ ∃ t, scop c (fnsAt c n) l level = .ok t := by
  intro h
  obtain ⟨_, _, _, _, _, he⟩ := (scop_ok_iff c _ l level).mp h s hs
  obtain ⟨g, hg, hi, hd⟩ := hx
  obtain ⟨_, ht⟩ := (generic_ok_iff _ _ _).mp he g hg (Ifaces.mk 11 "dependence") hi
  rw [hd] at ht
  cases n with
  | zero => exact (fns_ok_iff c _ (Data.dependence x) _).mp ht
  | succ n => exact (fns_ok_iff c _ (Data.dependence x) _).mp ht

/-- Finding (C70): the display of an annotation does not tell its prefix from its suffix. -/
theorem annotation_ambiguous (ls ms : Lines) (hk : ms = []) (n : Nat) :
    annotation (some ⟨ls, ms⟩) n = annotation (some ⟨ms, ls⟩) n := by
  subst hk
  simp only [annotation, textLines, List.append_nil]

/-- Finding (C70): the display of a region does not tell its four texts apart. -/
theorem region_ambiguous (loc : Int) (ls : Lines) (n : Nat) :
    region [{ location := loc, pre := ls, suf := [], prelude := [], postlude := [] }] n =
      region [{ location := loc, pre := [], suf := [], prelude := [], postlude := ls }] n := by
  simp only [region, nodes, regionBody, textLines, List.append_nil]

/-- Finding (C70): the middle of a text of more than 40 characters is not displayed. -/
theorem textual_elided {a b m m' : Str} (ha : a.length = 20) (hb : b.length = 20) (hm : m ≠ []) (h : m.length = m'.length) (n : Nat) :
    textual (some ⟨some (a ++ m ++ b)⟩) n = textual (some ⟨some (a ++ m' ++ b)⟩) n := by
  have hl : ∀ x : Str, (oneLine x).length = x.length := fun x => List.length_map ..
  have key : ∀ k : Str, k ≠ [] → textual (some ⟨some (a ++ k ++ b)⟩) n =
      .ok (line n ("+-- osl_textual_t: ".toList ++ (oneLine a ++ "   ...   ".toList ++ oneLine b)) ++ blank (n + 1)) := by
    intro k hk
    have hk : 0 < k.length := List.length_pos_iff.mpr hk
    have e : oneLine (a ++ k ++ b) = oneLine a ++ oneLine k ++ oneLine b := by simp [oneLine]
    have ea : (oneLine a).length = 20 := by rw [hl, ha]
    have eb : (oneLine b).length = 20 := by rw [hl, hb]
    have t1 : (oneLine a ++ oneLine k ++ oneLine b).take 20 = oneLine a := by
      rw [List.append_assoc, List.take_left' ea]
    have t2 : (oneLine a ++ oneLine k ++ oneLine b).drop ((oneLine a ++ oneLine k ++ oneLine b).length - 20) = oneLine b := by
      refine List.drop_left' ?_
      simp only [List.length_append, ea, eb]
      omega
    have t3 : (oneLine a ++ oneLine k ++ oneLine b).length > 40 := by
      simp only [List.length_append, ea, eb, hl]
      omega
    simp only [textual, str, Out.ok_bind, Out.pure_eq, e, t1, t2, if_pos t3]
  rw [key m hm, key m' (fun e => hm (List.length_eq_zero_iff.mp (by rw [h, e]; rfl)))]

/-- Finding (C70): a comment, or a script, is displayed as if its ends of lines were spaces. -/
theorem comment_ambiguous (a b : Str) (n : Nat) : comment (some ⟨some (a ++ '\n' :: b)⟩) n = comment (some ⟨some (a ++ ' ' :: b)⟩) n := by
  have : oneLine (a ++ '\n' :: b) = oneLine (a ++ ' ' :: b) := by simp [oneLine]
  simp only [comment, str, Out.ok_bind, this]

/-! ## Examples -/

theorem two {α : Type} {a b x : α} (h : x ∈ [a, b]) : x = a ∨ x = b := by simpa using h
theorem three {α : Type} {a b c x : α} (h : x ∈ [a, b, c]) : x = a ∨ x = b ∨ x = c := by simpa using h

theorem exPart_shown {p : Part} (h : p.Valid Cfg.std) (ht : Rel.KnownType p.type) : PartShown Cfg.std p := ⟨h.wf, ht⟩

/-- An extension of the default registry. -/
theorem ext_shown {S : Type} {Q : Nat → Option (Data S) → Prop} (d : Data S) (h : Q (defaultRegistry[d.index]'(by have := d.index_lt; exact this)).fns.idump (some d)) :
    GenericShown defaultRegistry Q (Data.ext d) := by
  have hl : d.index < defaultRegistry.length := d.index_lt
  exact ⟨defaultRegistry[d.index], by simp only [Data.ext]; exact List.getElem?_eq_getElem hl, List.getElem_mem hl, h⟩

theorem exSymbols_shown : SymShown defaultRegistry (ShownAt Cfg.std defaultRegistry 0) Data.exSymbols.head := by
  have h : ∀ l : List String, (∀ w ∈ l, ' ' ∉ w.toList ∧ '\n' ∉ w.toList) → ∀ g ∈ Data.exPart0 l,
      GenericShown defaultRegistry (ShownAt Cfg.std defaultRegistry 0) g := by
    intro l hl g hg
    have := List.mem_singleton.mp hg
    subst this
    refine ext_shown (S := Empty) _ ?_
    intro x hx
    injection hx with hx
    subst hx
    refine ⟨by simp [Data.exNames], fun w hw => ?_⟩
    simp only [Data.exNames, Strings.words, Option.getD_some, List.mem_map] at hw
    obtain ⟨y, hy, rfl⟩ := hw
    exact hl y hy
  exact ⟨.inr (.inr (.inr (.inl rfl))), h _ (by decide), h _ (by decide), h _ (by decide), h _ (by decide)⟩

theorem exScop_context_shown : ∀ p ∈ Data.exScopL.context, PartShown Cfg.std p := by
  intro p hp
  have := List.mem_singleton.mp hp
  subst this
  exact exPart_shown ⟨rfl, by decide, by decide, by decide, by decide⟩ (by decide)

theorem exStmt_shown : StmtShown Cfg.std defaultRegistry (ShownAt Cfg.std defaultRegistry 1) Data.exStmtL := by
  refine ⟨?_, ?_, ?_, ?_⟩
  · intro p hp
    simp only [Data.exStmtL, List.mem_cons, List.not_mem_nil, or_false] at hp
    rcases hp with h | h <;> subst h
    · exact exPart_shown Rel.exDomain_valid (by decide)
    · exact exPart_shown Rel.exDomain2_valid (by decide)
  · intro p hp
    have := List.mem_singleton.mp hp
    subst this
    exact exPart_shown Stmts.exScatt_valid (by decide)
  · intro r hr p hp
    have := List.mem_singleton.mp hr
    subst this
    have := List.mem_singleton.mp hp
    subst this
    exact exPart_shown Rel.exAccess_valid (by decide)
  · intro g hg
    have hg : g = Data.ext (.comment ⟨some "a comment".toList⟩) ∨ g = Data.ext Data.exBody := two hg
    rcases hg with h | h <;> subst h
    · refine ext_shown (S := NE (Symbol (DataAt 0))) (.comment ⟨some "a comment".toList⟩) ?_
      intro x hx
      injection hx with hx
      subst hx
      intro s hs
      injection hs with hs
      subst hs
      unfold NoNL; decide
    · refine ext_shown (S := NE (Symbol (DataAt 0))) Data.exBody ?_
      intro x hx
      injection hx with hx
      subst hx
      refine ⟨fun y hy => ?_, fun y hy => ?_⟩
      · injection hy with hy
        subst hy
        exact ⟨by decide, by unfold NoNL; decide⟩
      · injection hy with hy
        subst hy
        exact ⟨_, rfl, by unfold NoNL; decide⟩

/-- The hypotheses of `scop_dump_default_inj` are met by a scop with relations, statements, names, arrays, coordinates and symbols. -/
theorem exScop_shown : ScopShown Cfg.std defaultRegistry (ShownAt Cfg.std defaultRegistry 1) Data.exScopL := by
  refine ⟨?_, exScop_context_shown, ?_, ?_, fun _ h => h, ?_⟩
  · intro l hl
    cases hl
    unfold NoNL; decide
  · intro g hg
    have := List.mem_singleton.mp hg
    subst this
    refine ext_shown (S := NE (Symbol (DataAt 0))) _ ?_
    intro x hx
    injection hx with hx
    subst hx
    exact ⟨by decide, by unfold NoNL; decide⟩
  · intro s hs
    rcases two hs with h | h <;> subst h <;> exact exStmt_shown
  · intro g hg
    have hg : g = Data.ext Data.exArrays ∨ g = Data.ext Data.exCoordinates ∨ g = Data.ext (.symbols Data.exSymbols) := three hg
    rcases hg with h | h | h <;> subst h
    · refine ext_shown (S := NE (Symbol (DataAt 0))) Data.exArrays ?_
      intro x hx
      injection hx with hx
      subst hx
      intro p hp
      rcases two hp with h | h <;> subst h <;> (unfold NoNL; decide)
    · refine ext_shown (S := NE (Symbol (DataAt 0))) Data.exCoordinates ?_
      intro x hx
      injection hx with hx
      subst hx
      intro s hs
      injection hs with hs
      subst hs
      unfold NoNL; decide
    · refine ext_shown (S := NE (Symbol (DataAt 0))) (.symbols Data.exSymbols) ?_
      intro x hx
      injection hx with hx
      subst hx
      intro s hs
      have := List.mem_singleton.mp hs
      subst this
      exact exSymbols_shown

set_option maxRecDepth 20000 in
theorem exScop_displayed : ∃ t, scop Cfg.std (fnsAt Cfg.std 1) [Data.exScopL] 0 = .ok t := by
  have h : (match scop Cfg.std (fnsAt Cfg.std 1) [Data.exScopL] 0 with | .ok _ => true | _ => false) = true := by decide +kernel
  cases hs : scop Cfg.std (fnsAt Cfg.std 1) [Data.exScopL] 0 with
  | ok t => exact ⟨t, rfl⟩
  | _ => rw [hs] at h; cases h

/-- The text of the example tells the example: whatever scops are displayed by it are the example. -/
example (t : Str) (h : scop Cfg.std (fnsAt Cfg.std 1) [Data.exScopL] 0 = .ok t) (l : Scops (DataAt 1))
    (hl : ∀ s ∈ l, ScopShown Cfg.std defaultRegistry (ShownAt Cfg.std defaultRegistry 1) s) (h2 : scop Cfg.std (fnsAt Cfg.std 1) l 0 = .ok t) :
    l = [Data.exScopL] :=
  scop_dump_default_inj Cfg.std registry_default 1 0 hl (fun s hs => List.mem_singleton.mp hs ▸ exScop_shown) h2 h

/-- What can be told is displayed line by line. -/
theorem StringsLine.of_words {s : Strings} (h : WordsOnly s) : StringsLine (some s) := by
  intro x hx
  injection hx with hx
  subst hx
  exact fun w hw => (h.2 w hw).2

theorem StringsLine.of_single {s : Strings} (h : Single s) : StringsLine (some s) := by
  intro x hx w hw
  injection hx with hx
  subst hx
  obtain ⟨y, hy, hn⟩ := h
  simp only [Strings.words, hy, Option.getD_some, List.mem_singleton] at hw
  exact hw ▸ hn

theorem BodyLine.of_shown {b : Body} (h : BodyShown b) : BodyLine (some b) := by
  intro x hx
  injection hx with hx
  subst hx
  constructor
  · cases hi : b.iterators with
    | none => intro y hy; cases hy
    | some y => exact StringsLine.of_words (h.1 y hi)
  · cases hi : b.expression with
    | none => intro y hy; cases hy
    | some y => exact StringsLine.of_single (h.2 y hi)

theorem DataLine.of_shown {S : Type} {c : Cfg} {P Q : S → Prop} (hpq : ∀ s, P s → Q s) {d : Data S} (h : DataShown c P d) : DataLine Q d := by
  cases d with
  | strings x => exact StringsLine.of_words h
  | body x => exact BodyLine.of_shown h
  | scatnames x =>
    intro y hy
    exact StringsLine.of_words (h y hy) y rfl
  | arrays x => exact h
  | coordinates x => exact h
  | symbols x => exact hpq x h
  | extbody x =>
    intro y hy
    exact BodyLine.of_shown (h y hy) y rfl
  | loop x => exact h
  | unroll x => exact h
  | region x => exact h
  | annotation x => exact h
  | _ => trivial

theorem GenericLine.of_shown {D : Type} {reg : Ifaces} (hr : Registry reg) {Q : Nat → Option D → Prop} {Q' : Option D → Prop} (hq : ∀ k d, Q k d → Q' d)
    {g : Generic D} (h : GenericShown reg Q g) : GenericLine Q' g := by
  obtain ⟨i, hi, hm, hd⟩ := h
  refine ⟨fun j hj u hu => ?_, hq _ _ hd⟩
  rw [hi] at hj
  injection hj with hj
  subst hj
  obtain ⟨u', hu', hn⟩ := hr.uri i hm
  rw [hu] at hu'
  injection hu' with hu'
  exact hu' ▸ hn

theorem linedAt_of_shown {c : Cfg} {reg : Ifaces} (hr : Registry reg) : ∀ n k d, ShownAt c reg n k d → LinedAt n d := by
  intro n
  induction n with
  | zero => intro k d h x hx; exact DataLine.of_shown (fun _ h => h) (h x hx)
  | succ n ih =>
    intro k d h x hx
    refine DataLine.of_shown (fun s hs y hy e he g hg => ?_) (h x hx)
    have hs := hs y hy
    simp only [List.mem_cons, List.not_mem_nil, or_false] at he
    rcases he with he | he | he | he <;> subst he
    · exact GenericLine.of_shown hr ih (hs.identifier g hg)
    · exact GenericLine.of_shown hr ih (hs.datatype g hg)
    · exact GenericLine.of_shown hr ih (hs.scope g hg)
    · exact GenericLine.of_shown hr ih (hs.extent g hg)

/-- C71: the scops the text can tell are displayed line by line. -/
theorem ScopLine.of_shown {c : Cfg} {reg : Ifaces} (hr : Registry reg) {n : Nat} {s : Scop (DataAt n)} (h : ScopShown c reg (ShownAt c reg n) s) :
    ScopLine (LinedAt n) s where
  language := h.language
  parameters := fun g hg => GenericLine.of_shown hr (linedAt_of_shown hr n) (h.parameters g hg)
  statement := fun x hx g hg => GenericLine.of_shown hr (linedAt_of_shown hr n) ((h.statement x hx).extension g hg)
  registry := fun i hi u hu => by
    obtain ⟨u', hu', hn⟩ := hr.uri i (h.registry i hi)
    rw [hu] at hu'
    injection hu' with hu'
    exact hu' ▸ hn
  extension := fun g hg => GenericLine.of_shown hr (linedAt_of_shown hr n) (h.extension g hg)

/-- Two controls and an exit: the hypotheses of `irregular_ok_iff` are met. -/
example : Irregular.WF { nbControl := 2, nbExit := 1, preds := [⟨[some ['i']], some ['a']⟩, ⟨[], some ['b']⟩, ⟨[some ['j']], some ['c']⟩], stmts := [[0, 2]] } :=
  ⟨by decide, by decide, by decide⟩

/-- The display of the example at any level. -/
example : ∃ ls : List Str, (∀ l ∈ ls, NoNL l) ∧
    ∀ n, scop Cfg.std (fnsAt Cfg.std 1) [Data.exScopL] n = .ok (ls.map fun l => bars n ++ l ++ ['\n']).flatten := by
  obtain ⟨t, ht⟩ := exScop_displayed
  obtain ⟨ls, h1, _, h2⟩ := scop_dump_level Cfg.std 1 (fun s hs => List.mem_singleton.mp hs ▸ ScopLine.of_shown registry_default exScop_shown) ht
  exact ⟨ls, h1, h2⟩

end Dump
end Osl
