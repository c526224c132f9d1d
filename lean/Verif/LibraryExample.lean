import Verif.LibraryProps
import Verif.ScopTextExample
/-!
# A scop with extensions of the default registry which meets the hypotheses of the text round trip (C48)
-/

namespace Osl
namespace Data

open Ext (Ops NE)
open Rel (exDomain exDomain2 exAccess)
open Stmts (exStmt exScatt)

variable {S : Type}

/-- A decision of the presence of a tag. -/
def hasTag (tag : Str) : Str → Bool
  | [] => tag.isPrefixOf []
  | c :: s => tag.isPrefixOf (c :: s) || hasTag tag s

theorem hasTag_sound {tag : Str} : ∀ {s : Str}, hasTag tag s = false → ¬ tag <:+: s
  | [], h, hi => by
    have : tag = [] := List.infix_nil.mp hi
    subst this
    exact absurd h (by decide)
  | c :: s, h, hi => by
    simp only [hasTag, Bool.or_eq_false_iff] at h
    rcases List.infix_cons_iff.mp hi with h1 | h1
    · exact absurd (List.isPrefixOf_iff_prefix.mpr h1) (by simp [h.1])
    · exact hasTag_sound h.2 h1

/-- A result which satisfies a test. -/
def okAnd {α : Type} (o : Out α) (p : α → Bool) : Bool := match o with | .ok t => p t | _ => false

theorem holds_of {α : Type} {o : Out α} {p : α → Bool} (h : okAnd o p = true) {t : α} (ht : o = .ok t) : p t = true := by
  subst ht; exact h

/-- A text without `<` has no end tag. -/
theorem noTag_of {c : Cfg} {e : Option Str} {sym : Ops S} {d : Data S} {t : Str} (h : (env c e sym).sprint d.index (some d) = .ok (some t))
    (ht : '<' ∉ t) : NoTag c e sym d := by
  intro u hu
  rw [h] at hu
  injection hu with hu
  injection hu with hu
  subst hu
  intro hi
  exact ht (hi.subset (by simp [Util.endTag]))

/-- The functions of symbols which hold plain data. -/
abbrev exSym : Ops (NE (Ext.Symbol (DataAt 0))) := Ext.Symbol.ops (envAt Cfg.std (some "64".toList) 0) defaultRegistry

/-- The data of the example. -/
abbrev exData := Data (NE (Ext.Symbol (DataAt 0)))

def exNames (l : List String) : Strings := { string := some (l.map String.toList) }

def exBody : Data S := .body (oneBody ["i".toList, "j".toList] "A[i] = B[j] + 1;".toList)
def exArrays : Data S := .arrays ⟨[(1, "A".toList), (5, "B".toList)]⟩
def exCoordinates : Data S := .coordinates { name := some "dir/test file.c".toList, line_start := 1, column_start := 0, line_end := 12, column_end := -1, indent := 2 }

def exPart0 (l : List String) : GList (DataAt 0) := [Data.ext (S := Empty) (.strings (exNames l))]

def exSymbols : NE (Ext.Symbol (DataAt 0)) :=
  ⟨{ type := 3, generated := 0, nb_dims := 2, identifier := exPart0 ["A"], datatype := exPart0 ["double"], scope := exPart0 ["global"], extent := exPart0 ["N", "M"] }, []⟩

theorem exBody_textable : Body.Textable (oneBody ["i".toList, "j".toList] "A[i] = B[j] + 1;".toList) ["i".toList, "j".toList] "A[i] = B[j] + 1;".toList where
  iters := ⟨_, rfl, rfl⟩
  expr := ⟨_, rfl, rfl⟩
  words := by
    intro w hw
    simp only [List.mem_cons, List.not_mem_nil, or_false] at hw
    rcases hw with rfl | rfl <;> exact ⟨by decide, by decide, by decide⟩
  nb := by decide
  line := by decide +kernel
  starts := by intro c hc; simp at hc; subst hc; decide
  nonempty := by decide
  short := by decide

theorem words_of {l : List Str} (h : (l.all fun w => decide (w ≠ [] ∧ w.length < MAX_STRING) && w.all fun c => !isSpace c && decide (c ≠ '#')) = true) :
    ∀ w ∈ l, Strings.Word w := by
  intro w hw
  simp only [List.all_eq_true, Bool.and_eq_true, decide_eq_true_eq, Bool.not_eq_true'] at h
  obtain ⟨⟨h1, h2⟩, h3⟩ := h w hw
  exact ⟨h1, h2, h3⟩

theorem exPart0_present (l : List String) (h1 : l ≠ []) (h2 : ∀ w ∈ l.map String.toList, Strings.Word w)
    (h3 : ∃ t, (env (S := Empty) Cfg.std (some "64".toList) noSymbols).sprint 0 (some (.strings (exNames l))) = .ok (some t) ∧ '<' ∉ t) :
    GList.Present (envAt Cfg.std (some "64".toList) 0).exact defaultRegistry (exPart0 l) := by
  obtain ⟨t, h3, h4⟩ := h3
  exact ⟨_, rfl, ext_textable (S := Empty) (PS := fun _ => False) (fun _ h => absurd h id) ⟨_, rfl, by simpa using h1, h2⟩ (noTag_of h3 h4)⟩

/-- The text of symbols is short, and does not contain its end tag. -/
theorem exSymbols_text : (match (env Cfg.std (some "64".toList) exSym).sprint 12 (some (.symbols exSymbols)) with
    | .ok (some t) => decide (t.length < MAX_STRING) && !hasTag (Util.endTag "symbols".toList) t | _ => false) = true := by
  decide +kernel

theorem exSymbols_plain : PlainSymbols Cfg.std (some "64".toList) 0 exSymbols where
  nb := by decide
  symbol := by
    intro s hs
    simp only [NE.elems, exSymbols, List.mem_cons, List.not_mem_nil, or_false] at hs
    subst hs
    exact {
      type := by decide
      generated := by decide
      nb_dims := by decide
      identifier := exPart0_present _ (by decide) (words_of (by decide)) ⟨"A\n".toList, by decide, by decide⟩
      datatype := exPart0_present _ (by decide) (words_of (by decide)) ⟨"double\n".toList, by decide, by decide⟩
      scope := exPart0_present _ (by decide) (words_of (by decide)) ⟨"global\n".toList, by decide, by decide⟩
      extent := exPart0_present _ (by decide) (words_of (by decide)) ⟨"N M\n".toList, by decide, by decide⟩ }
  short := by
    intro t ht
    have h := exSymbols_text
    have e : (env Cfg.std (some "64".toList) exSym).sprint 12 (some (.symbols exSymbols)) = .ok (some t) := ht
    rw [e] at h
    simp only [Bool.and_eq_true, decide_eq_true_eq] at h
    exact h.1

theorem exSymbols_noTag : NoTag Cfg.std (some "64".toList) exSym (.symbols exSymbols) := by
  intro t ht
  have h := exSymbols_text
  have e : (env Cfg.std (some "64".toList) exSym).sprint 12 (some (.symbols exSymbols)) = .ok (some t) := ht
  rw [e] at h
  simp only [Bool.and_eq_true, Bool.not_eq_true'] at h
  exact hasTag_sound h.2

/-- A statement with a comment and a body. -/
def exStmtL : Stmt exData :=
  { domain := [exDomain, exDomain2], scattering := [exScatt], access := [[exAccess]], extension := [ext (.comment ⟨some "a comment".toList⟩), ext exBody] }

/-- A scop with named parameters, arrays, coordinates and symbols. -/
def exScopL : Scop exData :=
  { version := 1, language := some "C".toList, context := Scops.exScop.context,
    parameters := [ext (.strings (exNames ["N", "M"]))], statement := [exStmtL, exStmtL], registry := defaultRegistry,
    extension := [ext exArrays, ext exCoordinates, ext (.symbols exSymbols)] }

theorem exStmtL_plain : PlainStmt Cfg.std (some "64".toList) exSym (PlainSymbols Cfg.std (some "64".toList) 0) 64 exStmtL where
  domain := .inr ⟨Scops.exDomain_text, by decide⟩
  scattering := .inr ⟨Scops.one_text ⟨Stmts.exScatt_valid, rfl, by unfold Rel.Part.Small; decide⟩ (by decide), by decide⟩
  access := by
    intro r hr
    simp [exStmtL] at hr; subst hr
    exact ⟨Scops.one_text ⟨Rel.exAccess_valid, rfl, by unfold Rel.Part.Small; decide⟩ (by decide), by decide⟩
  accesses := by decide
  unique := ⟨by simp only [exStmtL, List.map_cons, List.map_nil, ext_uri]; decide, by intro g hg; simp only [exStmtL, List.mem_cons, List.not_mem_nil, or_false] at hg; rcases hg with rfl | rfl <;> simp [ext_uri]⟩
  extensions := by decide
  extension := by
    intro g hg
    simp only [exStmtL, List.mem_cons, List.not_mem_nil, or_false] at hg
    rcases hg with rfl | rfl
    · exact ⟨_, rfl, .inr ⟨_, rfl, by decide⟩, noTag_of (t := "a comment".toList) (by decide) (by decide)⟩
    · exact ⟨_, rfl, .inl ⟨_, _, rfl, exBody_textable⟩,
        noTag_of (t := "# Number of original iterators\n2\n# List of original iterators\ni j\n# Statement body expression\nA[i] = B[j] + 1;\n".toList) (by decide +kernel) (by decide)⟩

theorem exExtension_text : okAnd (GList.sprint (lib Cfg.std (some "64".toList) exSym).toEnv exScopL.extension)
    (fun t => !hasTag (Util.endTag URI_SCOP) t) = true := by decide +kernel

theorem exScopL_plain : PlainScop Cfg.std (some "64".toList) exSym (PlainSymbols Cfg.std (some "64".toList) 0) 64 exScopL where
  version := rfl
  language := ⟨"C".toList, rfl, by unfold Strings.Word; decide⟩
  context := Scops.exScop_text.context
  parameters := .inr ⟨_, rfl, by decide, words_of (by decide), noTag_of (t := "N M\n".toList) (by decide) (by decide)⟩
  nbStatements := by decide
  statement := by intro st hst; simp [exScopL] at hst; subst hst; exact exStmtL_plain
  registry := rfl
  unique := ⟨by simp only [exScopL, List.map_cons, List.map_nil, ext_uri]; decide, by intro g hg; simp only [exScopL, List.mem_cons, List.not_mem_nil, or_false] at hg; rcases hg with rfl | rfl | rfl <;> simp [ext_uri]⟩
  extension := by
    intro g hg
    simp only [exScopL, List.mem_cons, List.not_mem_nil, or_false] at hg
    rcases hg with rfl | rfl | rfl
    · refine ⟨_, rfl, { ids := by decide, names := ?_, nb := by decide },
        noTag_of (t := "# Number of arrays\n2\n# Mapping array-identifiers/array-names\n1 A\n5 B\n".toList) (by decide +kernel) (by decide)⟩
      intro p hp
      simp only [List.mem_cons, List.not_mem_nil, or_false] at hp
      rcases hp with rfl | rfl <;> exact ⟨⟨by decide, by decide, by decide⟩, by decide⟩
    · exact ⟨_, rfl, ⟨"dir/test file.c".toList, rfl, ⟨by decide, by decide, by intro c hc; simp at hc; subst hc; decide, by decide⟩, by decide, by decide⟩,
        noTag_of (t := "# File name\ndir/test file.c\n# Starting line and column\n1 0\n# Ending line and column\n12 -1\n# Indentation\n2\n".toList) (by decide +kernel) (by decide)⟩
    · exact ⟨_, rfl, exSymbols_plain, exSymbols_noTag⟩
  noEnd := by
    intro t ht
    have h := holds_of exExtension_text ht
    simp only [Bool.not_eq_true'] at h
    exact hasTag_sound h

/-- The text of two scops is written, with short lines. -/
theorem exScopL_printed : okAnd (Scops.print Cfg.std (lib Cfg.std (some "64".toList) exSym) "0.9.1".toList [exScopL, exScopL]) (Rel.shortFrom 0) = true := by
  decide +kernel

theorem ok_of {α : Type} {o : Out α} {p : α → Bool} (h : okAnd o p = true) : ∃ t, o = .ok t := by
  cases o with
  | ok t => exact ⟨t, rfl⟩
  | err => exact absurd h (by simp [okAnd])
  | ub => exact absurd h (by simp [okAnd])

/-- All the hypotheses of the round trip are met by this list of two scops. -/
example : ∃ t, Scops.print Cfg.std (libAt Cfg.std (some "64".toList) 1) "0.9.1".toList [exScopL, exScopL] = .ok t ∧ Rel.ShortLines t ∧
    Scops.pread Cfg.std (libAt Cfg.std (some "64".toList) 1) defaultRegistry 64 t = .ok [exScopL, exScopL] := by
  obtain ⟨t, ht⟩ := ok_of exScopL_printed
  have h := Rel.shortLines_of (holds_of exScopL_printed ht)
  refine ⟨t, ht, h, scop_default_text_symbols (by decide) (fun x hx => ?_) ht h⟩
  have hx : x = exScopL := by
    rcases List.mem_cons.mp hx with h | h
    · exact h
    · exact List.mem_singleton.mp h
  rw [hx]
  exact exScopL_plain

theorem exPart0_clonable (l : List String) : GList.Unique (exPart0 l) ∧ GList.CloneOk (envAt Cfg.std (some "64".toList) 0) (exPart0 l) := by
  have hu : ∀ d : Data Empty, GList.Unique [ext d] := fun d => ⟨List.pairwise_singleton .., by intro g hg; obtain rfl := List.mem_singleton.mp hg; simp [ext_uri]⟩
  refine ⟨hu _, ?_⟩
  refine CopyableList.ok (S := Empty) (c := Cfg.std) (e := some "64".toList) (sym := noSymbols) (PS := fun _ => False) (fun _ h => absurd h id) ?_
  intro g hg
  exact ⟨_, List.mem_singleton.mp hg, trivial⟩

/-- The hypotheses of the copy are met. -/
example : ∃ y, Scops.clone Cfg.std (libAt Cfg.std (some "64".toList) 1).toLib [exScopL] = .ok y ∧ y.length = 1 ∧
    Scops.equal Cfg.std (libAt Cfg.std (some "64".toList) 1).toLib [exScopL] y = .ok true := by
  refine scop_default_clone (PS := CopyableSymbols Cfg.std (some "64".toList) 0) (fun _ h => h.equal) ?_ ?_ ?_ ?_ ?_
  all_goals intro a ha; obtain rfl := List.mem_singleton.mp ha
  · exact {
      context := Scops.exScop_valid.context
      parameters := ⟨by simp [exScopL], by intro g hg; obtain rfl := List.mem_singleton.mp hg; simp [ext_uri]⟩
      statement := by
        intro st hst
        have : st = exStmtL := by
          rcases List.mem_cons.mp hst with h | h
          · exact h
          · exact List.mem_singleton.mp h
        subst this
        exact {
          domain := Stmts.exStmt_valid.domain
          scattering := Stmts.exStmt_valid.scattering
          access := Stmts.exStmt_valid.access
          extension := exStmtL_plain.unique }
      registry := default_registry_eq.2
      extension := exScopL_plain.unique }
  · exact fun h => by cases h
  · intro g hg
    exact ⟨_, List.mem_singleton.mp hg, trivial⟩
  · intro st hst g hg
    have : st = exStmtL := by
      rcases List.mem_cons.mp hst with h | h
      · exact h
      · exact List.mem_singleton.mp h
    subst this
    simp only [exStmtL, List.mem_cons, List.not_mem_nil, or_false] at hg
    rcases hg with rfl | rfl
    · exact ⟨_, rfl, fun h => by cases h⟩
    · exact ⟨_, rfl, trivial⟩
  · intro g hg
    simp only [exScopL, List.mem_cons, List.not_mem_nil, or_false] at hg
    rcases hg with rfl | rfl | rfl
    · exact ⟨_, rfl, trivial⟩
    · exact ⟨_, rfl, fun h => by cases h⟩
    · refine ⟨_, rfl, ?_⟩
      intro s hs
      obtain rfl := List.mem_singleton.mp hs
      exact ⟨exPart0_clonable _, exPart0_clonable _, exPart0_clonable _, exPart0_clonable _⟩

end Data
end Osl
