import Verif.ReadLocal
import Verif.LibraryExample
/-!
# A file written by hand, read, printed and read again (C61)
-/

namespace Osl
namespace Data

open Scops

/-- A scop written by hand: comments, indentation, an unknown extension, no blank lines between the parts. -/
def handText : Str := ("nothing here is read\n<OpenScop>\n# my language\n  C\nCONTEXT\n0 3 0 0 0 1\n1\n<strings>\nN\n</strings>\n1\n" ++
  "2\nDOMAIN\n2 4 1 0 0 1\n# i >= 0\n1 1 0 0\n   1 -1 1 -1 # and i < N\nSCATTERING\n1 5 1 1 0 1\n0 -1 1 0 0\n" ++
  "1\n<body>\n1\ni\nA[i] = 0;\n</body>\n<mine>what is not known is left out</mine>\n<arrays>1 # one array\n1 A</arrays></OpenScop>").toList

/-- What is read. -/
def handScop : Scop (Data Empty) :=
  { version := 1, language := some "C".toList,
    context := [{ type := TYPE_CONTEXT, precision := 64, nb_rows := 0, nb_columns := 3, nb_output_dims := 0, nb_input_dims := 0, nb_local_dims := 0, nb_parameters := 1, m := [] }],
    parameters := [ext (.strings (exNames ["N"]))],
    statement := [{ domain := [{ type := TYPE_DOMAIN, precision := 64, nb_rows := 2, nb_columns := 4, nb_output_dims := 1, nb_input_dims := 0, nb_local_dims := 0, nb_parameters := 1, m := [[1, 1, 0, 0], [1, -1, 1, -1]] }], scattering := [{ type := TYPE_SCATTERING, precision := 64, nb_rows := 1, nb_columns := 5, nb_output_dims := 1, nb_input_dims := 1, nb_local_dims := 0, nb_parameters := 1, m := [[0, -1, 1, 0, 0]] }], access := [], extension := [ext (.body (oneBody ["i".toList] "A[i] = 0;".toList))] }],
    registry := defaultRegistry, extension := [ext (.arrays ⟨[(1, "A".toList)]⟩)] }

set_option maxRecDepth 20000 in
theorem handText_read : pread Cfg.std (lib Cfg.std (some "64".toList) noSymbols) defaultRegistry 64 handText = .ok [handScop] := by
  decide +kernel

theorem short_registry : ShortURIs defaultRegistry := by unfold ShortURIs; decide

theorem handScop_extension_text : okAnd (GList.sprint (lib Cfg.std (some "64".toList) noSymbols).toEnv handScop.extension) (fun t => !hasTag (Util.endTag URI_SCOP) t) = true := by
  decide +kernel

theorem notag_of {u t : Str} (h : '<' ∉ t) : ¬ Util.endTag u <:+: t := fun hi => h (hi.subset (by simp [Util.endTag]))

theorem handScop_stable : StableScop (lib Cfg.std (some "64".toList) noSymbols) handScop where
  parameters := by
    intro g hg
    simp only [handScop, List.mem_singleton] at hg
    subst hg
    refine ⟨by decide, fun i hi => ?_⟩
    cases hi
    exact ⟨"N\n".toList, .strings (exNames ["N"]), rfl, by decide +kernel, by decide +kernel, fun u _ => notag_of (by decide)⟩
  paramNames := by
    intro p hp
    have : p = some (exNames ["N"]) := by cases hp; rfl
    subst this
    intro a ha w hw
    cases ha
    have : w = ['N'] := by simpa [exNames, Strings.words] using hw
    subst this
    decide
  accesses := by decide
  statement := by
    intro st hst g hg
    simp only [handScop, List.mem_singleton] at hst
    subst hst
    simp only [List.mem_singleton] at hg
    subst hg
    intro i hi
    cases hi
    exact ⟨"# Number of original iterators\n1\n# List of original iterators\ni\n# Statement body expression\nA[i] = 0;\n".toList, .body (oneBody ["i".toList] "A[i] = 0;".toList), rfl,
      by decide +kernel, by decide +kernel, fun u _ => notag_of (by decide)⟩
  iterators := by
    intro st hst b hb
    simp only [handScop, List.mem_singleton] at hst
    subst hst
    have : b = oneBody ["i".toList] "A[i] = 0;".toList := by cases hb; rfl
    subst this
    intro a ha w hw
    cases ha
    have : w = ['i'] := by simpa [oneBody, Strings.words] using hw
    subst this
    decide
  extension := by
    intro g hg
    simp only [handScop, List.mem_singleton] at hg
    subst hg
    intro i hi
    cases hi
    exact ⟨"# Number of arrays\n1\n# Mapping array-identifiers/array-names\n1 A\n".toList, .arrays ⟨[(1, "A".toList)]⟩, rfl, by decide +kernel, by decide +kernel, fun u _ => notag_of (by decide)⟩
  noEnd := by
    intro t ht
    have h := holds_of handScop_extension_text ht
    simp only [Bool.not_eq_true'] at h
    exact hasTag_sound h
  arrays := by
    intro d a hd ha
    have : d = .arrays ⟨[(1, "A".toList)]⟩ := by cases hd; rfl
    subst this
    have : a = some ⟨some [['A']]⟩ := by
      have e : (lib Cfg.std (some "64".toList) noSymbols).arraysNames (.arrays ⟨[(1, "A".toList)]⟩) = .ok (some ⟨some [['A']]⟩) := by decide +kernel
      rw [e] at ha
      cases ha; rfl
    subst this
    intro x hx w hw
    cases hx
    have : w = ['A'] := by simpa [Strings.words] using hw
    subst this
    decide

theorem handScop_printed : okAnd (Scops.print Cfg.std (lib Cfg.std (some "64".toList) noSymbols) "0.9.1".toList [handScop]) (Rel.shortFrom 0) = true := by decide +kernel

/-- All the hypotheses of `scop_read_print_read` are met by this file, which is not the text the library prints. -/
example : ∃ t, Scops.print Cfg.std (lib Cfg.std (some "64".toList) noSymbols) "0.9.1".toList [handScop] = .ok t ∧ t.length ≠ handText.length ∧
    pread Cfg.std (lib Cfg.std (some "64".toList) noSymbols) defaultRegistry 64 t = .ok [handScop] := by
  obtain ⟨t, ht⟩ := ok_of handScop_printed
  refine ⟨t, ht, ?_, scop_read_print_read (by decide) default_registry_eq.2 short_registry (by decide) handText_read (fun s hs => ?_) (by decide) ht (Rel.shortLines_of (holds_of handScop_printed ht))⟩
  · have e : okAnd (Scops.print Cfg.std (lib Cfg.std (some "64".toList) noSymbols) "0.9.1".toList [handScop]) (fun t => decide (t.length ≠ handText.length)) = true := by decide +kernel
    simpa using holds_of e ht
  · rw [List.mem_singleton.mp hs]; exact handScop_stable

/-- A scop whose only extension is a comment. -/
def commentText : Str := "<OpenScop>\nC\nCONTEXT\n0 2 0 0 0 0\n0\n0\n<comment>\nhello\n</comment>\n</OpenScop>\n".toList

/-- Read, print, read. -/
def again (file : Str) : Out (List (List (Option (Data Empty))) × List (List (Option (Data Empty)))) := do
  let a ← pread Cfg.std (lib Cfg.std (some "64".toList) noSymbols) defaultRegistry 64 file
  let t ← Scops.print Cfg.std (lib Cfg.std (some "64".toList) noSymbols) "0.9.1".toList a
  let b ← pread Cfg.std (lib Cfg.std (some "64".toList) noSymbols) defaultRegistry 64 t
  return (a.map fun s => s.extension.map (·.data), b.map fun s => s.extension.map (·.data))

/-- Finding (C61): the stability of the texts of the extensions is necessary: the `comment` of a scop is read with the end of line of its tag, and grows by one
end of line each time the scop is read and printed. -/
theorem scop_read_print_read_comment_violates : again commentText =
    .ok ([[some (.comment ⟨some "\nhello\n".toList⟩)]], [[some (.comment ⟨some "\n\nhello\n".toList⟩)]]) := by
  decide +kernel

/-- The hypotheses of `scop_pread_append` are met: a file read twice in a row gives its scop twice. -/
example : pread Cfg.std (lib Cfg.std (some "64".toList) noSymbols) defaultRegistry 64 (handText ++ '\n' :: handText) = .ok [handScop, handScop] :=
  scop_pread_append handText_read handText_read

/-- The hypotheses of `relation_pread_local` are met, the relation being followed by any text. -/
example : ∃ pre r, pre ≠ [] ∧ r.length = 1 ∧ ∀ rest, Rel.pread Cfg.std 64 (pre ++ rest) = .ok (r, rest) := by
  have h : ∃ r, r.length = 1 ∧ Rel.pread Cfg.std 64 "DOMAIN\n1 3 1 0 0 0\n1 2 3\nmore".toList = .ok (r, "more".toList) :=
    ⟨[{ type := TYPE_DOMAIN, precision := 64, nb_rows := 1, nb_columns := 3, nb_output_dims := 1, nb_input_dims := 0, nb_local_dims := 0, nb_parameters := 0, m := [[1, 2, 3]] }], rfl, by decide⟩
  obtain ⟨r, hr, h⟩ := h
  obtain ⟨pre, e, g⟩ := Rel.relation_pread_local h (by decide)
  exact ⟨pre, r, by rintro rfl; revert e; decide, hr, g⟩

/-- Finding (C63): the end of line between the two files is necessary: two files without scops can make a file with one. -/
theorem scop_pread_append_violates : ∃ s1 s2 l, pread Cfg.std (lib Cfg.std (some "64".toList) noSymbols) defaultRegistry 64 s1 = .ok [] ∧
    pread Cfg.std (lib Cfg.std (some "64".toList) noSymbols) defaultRegistry 64 s2 = .ok [] ∧
    pread Cfg.std (lib Cfg.std (some "64".toList) noSymbols) defaultRegistry 64 (s1 ++ s2) = .ok l ∧ l.length = 1 :=
  ⟨"<Open".toList, "Scop>\nC\nCONTEXT\n0 2 0 0 0 0\n0\n0\n</OpenScop>\n".toList,
    [{ version := 1, language := some "C".toList, context := [{ type := TYPE_CONTEXT, precision := 64, nb_rows := 0, nb_columns := 2, nb_output_dims := 0, nb_input_dims := 0, nb_local_dims := 0, nb_parameters := 0, m := [] }],
       parameters := [], statement := [], registry := defaultRegistry, extension := [] }], by decide +kernel, by decide +kernel, by decide +kernel, rfl⟩

/-- Finding (C63): a relation whose last line has no end of line depends on what follows. -/
theorem relation_pread_local_violates : ∃ r r', Rel.pread Cfg.std 64 "DOMAIN\n1 3 1 0 0 0\n1 2 3".toList = .ok (r, []) ∧
    Rel.pread Cfg.std 64 ("DOMAIN\n1 3 1 0 0 0\n1 2 3".toList ++ "4\n".toList) = .ok (r', []) ∧ r ≠ r' :=
  ⟨[{ type := TYPE_DOMAIN, precision := 64, nb_rows := 1, nb_columns := 3, nb_output_dims := 1, nb_input_dims := 0, nb_local_dims := 0, nb_parameters := 0, m := [[1, 2, 3]] }],
    [{ type := TYPE_DOMAIN, precision := 64, nb_rows := 1, nb_columns := 3, nb_output_dims := 1, nb_input_dims := 0, nb_local_dims := 0, nb_parameters := 0, m := [[1, 2, 34]] }],
    by decide, by decide, by decide⟩

end Data
end Osl
