import Verif.ScoplibScop
/-!
# What the text written by `osl_scop_print_scoplib` says (C66)
-/

namespace Osl
namespace Scops

variable {D : Type}

open Rel (relTable)

/-- The row of the names of the parameters. -/
def paramRows (ps : List Str) : List (List Str) := if ps = [] then [] else [ps]

/-- The table of a scop: the keyword, the language, the context, whether the parameters have names, these names, the number of statements, the statements with
their bodies, and the options. -/
def scoplibTable (language : Str) (s : Scop D) (ps : List Str) (l : List (Stmt D × Option (List Str × Str))) (options : List (List Str)) : List (List Str) :=
  ["SCoP".toList] :: [language] :: (intRows (relTable false false s.context) ++ ([if hasURI s.parameters URI_STRINGS then "1".toList else "0".toList] ::
    (paramRows ps ++ ([showNat l.length] :: (Stmts.scoplibTables l ++ options)))))

/-- What the SCoPLib printer needs of a scop (specification). -/
structure ScoplibPrints (L : ScoplibLib D) (s : Scop D) (language : Str) (ps : List Str) (l : List (Stmt D × Option (List Str × Str))) (options : List (List Str)) : Prop where
  language : s.language = some language ∧ Strings.Word language
  context : ∀ p ∈ s.context, ∀ q ∈ s.context, p.type = q.type
  statements : s.statement = l.map Prod.fst
  each : ∀ x ∈ l, Stmts.ScoplibPrints x.1
  bodies : ∀ x ∈ l, Stmts.BodyIs L.toLib x.1 x.2
  params : (s.parameters = [] ∧ ps = []) ∨ ∃ p, paramNames L.toTextLib s.parameters = .ok (some p) ∧ p.words = ps ∧ ∀ w ∈ ps, Strings.Word w
  arrays : ∀ d a, GList.lookup s.extension URI_ARRAYS = some d → L.arraysNames d = .ok a → Rel.StringsNoNL a
  options : ∃ o, printOptionsScoplib L s.extension = .ok o ∧ Says o options

theorem ScoplibPrints.paramsNoNL {L : ScoplibLib D} {s : Scop D} {language : Str} {ps : List Str} {l : List (Stmt D × Option (List Str × Str))} {options : List (List Str)}
    (h : ScoplibPrints L s language ps l options) {n n' : Names} (hn : Rel.NamesNoNL n) (e : withParams L.toTextLib s n = .ok n') : Rel.NamesNoNL n' := by
  unfold withParams at e
  split at e
  · rename_i hu
    obtain ⟨p, h1, e⟩ := Out.bind_eq_ok.mp e
    injection e with e
    subst e
    obtain ⟨_, h2, h3, h4, h5⟩ := hn
    refine ⟨?_, h2, h3, h4, h5⟩
    rcases h.params with ⟨hp, _⟩ | ⟨q, hq, rfl, hw⟩
    · rw [hp] at hu; cases hu
    · rw [h1] at hq
      injection hq with hq
      subst hq
      intro a ha w hw'
      injection ha with ha
      subst ha
      exact (hw w hw').noNL
  · injection e with e; subst e; exact hn

theorem ScoplibPrints.arraysNoNL {L : ScoplibLib D} {s : Scop D} {language : Str} {ps : List Str} {l : List (Stmt D × Option (List Str × Str))} {options : List (List Str)}
    (h : ScoplibPrints L s language ps l options) {n n' : Names} (hn : Rel.NamesNoNL n) (e : withArrays L.toTextLib s n = .ok n') : Rel.NamesNoNL n' := by
  unfold withArrays at e
  split at e
  · injection e with e; subst e; exact hn
  · rename_i d hd
    obtain ⟨a, h1, e⟩ := Out.bind_eq_ok.mp e
    injection e with e
    subst e
    obtain ⟨h0, h2, h3, h4, h5⟩ := hn
    exact ⟨h0, h2, h3, h4, h.arrays d a hd h1⟩

theorem params_says {L : ScoplibLib D} {s : Scop D} {language : Str} {ps : List Str} {l : List (Stmt D × Option (List Str × Str))} {options : List (List Str)}
    (h : ScoplibPrints L s language ps l options) : ∃ t, printParamsScoplib L.toTextLib s = .ok t ∧ Says t (paramRows ps) := by
  unfold printParamsScoplib
  rcases h.params with ⟨hp, rfl⟩ | ⟨p, hp, rfl, hw⟩
  · rw [hp]; exact ⟨_, rfl, Says.nil⟩
  · cases hs : s.parameters with
    | nil => rw [hs] at hp; cases hp
    | cons g r =>
      rw [hs] at hp
      simp only [hp, Out.ok_bind]
      rw [Strings.sprint_eq (fun w hw' => (hw w hw').2.1)]
      refine ⟨_, rfl, ?_⟩
      have a := Says.comment (u := " Parameter names".toList) (by unfold NoNL; decide)
      unfold paramRows
      split
      · rename_i he
        rw [he]
        exact a.append Says.blank
      · rename_i he
        exact a.append (Says.line (noNL_line fun w hw' => (hw w hw').noNL) (lineWords_line hw) he)

/-- C66: the text of one scop. -/
theorem printOneScoplib_says {c : Cfg} (hv : c.Valid) (hnd : c.ndebug = false) {L : ScoplibLib D} {s : Scop D} (hp : Prints c L.toTextLib s) {language : Str} {ps : List Str}
    {l : List (Stmt D × Option (List Str × Str))} {options : List (List Str)} (h : ScoplibPrints L s language ps l options) {n : Names} (hnl : Rel.NamesNoNL n)
    (hn : ∀ r ∈ rels s, Rel.AllNamed c n r) : ∃ t, printOneScoplib c L n s = .ok t ∧ Says t (scoplibTable language s ps l options) := by
  obtain ⟨n1, e1, hn⟩ := withParams_named hp hn
  have hnl := h.paramsNoNL hnl e1
  obtain ⟨n2, e2, hn⟩ := withArrays_named hv hnd hp hn
  have hnl := h.arraysNoNL hnl e2
  obtain ⟨t1, e3, h3⟩ := Rel.relation_scoplib_says hv hnl hp.context.parts (hn s.context (by simp [rels])) (nth := false) (fake := false) (by
    intro p hpm
    refine ⟨?_, by simp⟩
    cases hc : s.context with
    | nil => rw [hc] at hpm; cases hpm
    | cons q r => simp only [Rel.isScoplibAccess]; rw [h.context q (by simp [hc]) p hpm])
  obtain ⟨t2, e4, h4⟩ := params_says h
  have hmem : ∀ x ∈ l, x.1 ∈ s.statement := fun x hx => by rw [h.statements]; exact List.mem_map_of_mem hx
  obtain ⟨t3, e5, h5⟩ := Stmts.pprint_scoplib_says hv hnl (L := L.toLib) (l := l) (fun x hx => hp.statement x.1 (hmem x hx)) h.each
    (fun x hx r hr => hn r (by simp only [rels, List.mem_cons, List.mem_flatMap]; exact .inr ⟨x.1, hmem x hx, hr⟩)) h.bodies
  obtain ⟨t4, e6, h6⟩ := h.options
  rw [← h.statements] at e5
  unfold printOneScoplib
  rw [e1]
  simp only [Out.ok_bind]
  rw [e2]
  simp only [Out.ok_bind]
  rw [e3, e4, e5, e6]
  refine ⟨_, rfl, ?_⟩
  have hlang : languageText s = language := by simp [languageText, h.language.1]
  have hnum : showInt (Stmts.number s.statement) = showNat l.length := by simp [Stmts.number, h.statements, showInt]
  rw [hlang, hnum]
  have nl : Says "\n".toList [] := Says.blank
  have a0 : Says "\nSCoP\n\n# =============================================== Global\n# Language\n".toList [["SCoP".toList]] := by
    have := nl.append ((Says.one (l := "SCoP".toList) ⟨by decide, by decide, by decide⟩).append (nl.append ((Says.comment (u := " =============================================== Global".toList) (by unfold NoNL; decide)).append
      (Says.comment (u := " Language".toList) (by unfold NoNL; decide)))))
    exact this
  have a1 : Says (language ++ "\n\n# Context\n".toList) [[language]] := by
    have := (Says.one h.language.2).append (nl.append (Says.comment (u := " Context".toList) (by unfold NoNL; decide)))
    rw [List.append_assoc] at this
    exact this
  have a2 : Says (provided (hasURI s.parameters URI_STRINGS) "Parameters are".toList) [[if hasURI s.parameters URI_STRINGS then "1".toList else "0".toList]] := by
    unfold provided
    cases hasURI s.parameters URI_STRINGS with
    | true => exact (Says.comment (u := " Parameters are provided".toList) (by unfold NoNL; decide)).append (Says.one (l := ['1']) ⟨by simp, by decide, by decide⟩)
    | false => exact (Says.comment (u := " Parameters are not provided".toList) (by unfold NoNL; decide)).append ((Says.one (l := ['0']) ⟨by simp, by decide, by decide⟩).append nl)
  have a3 : Says ("\n# Number of statements\n".toList ++ (showNat l.length ++ "\n\n".toList)) [[showNat l.length]] := by
    have h1 : Says (showNat l.length ++ ['\n']) [[showNat l.length]] := by
      have := showNat_says l.length
      unfold SaysInts at this
      have e : showInt (l.length : Int) = showNat l.length := by unfold showInt; rw [if_neg (by omega)]; simp
      simpa only [List.map_cons, List.map_nil, e] using this
    have := nl.append ((Says.comment (u := " Number of statements".toList) (by unfold NoNL; decide)).append (h1.append nl))
    rw [List.append_assoc (showNat l.length)] at this
    exact this
  have all := a0.append (a1.append (Says.append h3 (nl.append (a2.append (h4.append (a3.append (h5.append h6)))))))
  have e0 : scoplibTable language s ps l options = [["SCoP".toList]] ++ ([[language]] ++ (intRows (relTable false false s.context) ++
      ([[if hasURI s.parameters URI_STRINGS then "1".toList else "0".toList]] ++ (paramRows ps ++ ([[showNat l.length]] ++ (Stmts.scoplibTables l ++ options)))))) := by
    simp [scoplibTable]
  rw [e0]
  simp only [List.nil_append, List.append_assoc] at all ⊢
  exact all

/-- C66: a compatible scop is written, and the text says the keyword, the language, the context, the parameters, the statements and the options, and nothing else. -/
theorem scop_scoplib_says {c : Cfg} (hv : c.Valid) (hnd : c.ndebug = false) {L : ScoplibLib D} {release : Str} (hrel : NoNL release) {s : Scop D} (hp : Prints c L.toTextLib s)
    (hne : ∃ r ∈ rels s, r ≠ []) {language : Str} {ps : List Str} {l : List (Stmt D × Option (List Str × Str))} {options : List (List Str)}
    (h : ScoplibPrints L s language ps l options) (hc : check_compatible_scoplib c L.toLib [s] = .ok true) :
    ∃ t, print_scoplib c L release [s] = .ok t ∧ Says t (scoplibTable language s ps l options) := by
  obtain ⟨n, e, hn⟩ := scop_names_cover hv hnd (L := L.toTextLib) (x := [s]) (by simpa using hp) ⟨s, by simp, hne⟩
  obtain ⟨t, e1, h1⟩ := printOneScoplib_says hv hnd hp h (names_noNL e) (hn s (by simp))
  refine ⟨"# [File generated by the OpenScop Library ".toList ++ (release ++ ("]\n# [SCoPLib format]\n".toList ++ t)), ?_, ?_⟩
  · simp only [print_scoplib, hc, Out.ok_bind, if_true, e, printLoopScoplib, e1, Out.pure_eq, List.append_nil]
  · have a : Says ("# [File generated by the OpenScop Library ".toList ++ (release ++ "]\n".toList)) [] := by
      have := Says.comment (u := " [File generated by the OpenScop Library ".toList ++ (release ++ [']'])) (NoNL.append (by unfold NoNL; decide) (hrel.append (by unfold NoNL; decide)))
      have e : "# [File generated by the OpenScop Library ".toList ++ (release ++ "]\n".toList) =
        '#' :: (" [File generated by the OpenScop Library ".toList ++ (release ++ [']'])) ++ ['\n'] := by simp
      rw [e]; exact this
    have := a.append ((Says.comment (u := " [SCoPLib format]".toList) (by unfold NoNL; decide)).append h1)
    simp only [List.nil_append, List.append_assoc] at this ⊢
    exact this

/-- C66: an incompatible scop is an error: nothing but the header is written and the program exits. -/
theorem scop_scoplib_refused {c : Cfg} {L : ScoplibLib D} (release : Str) {x : Scops D} (hne : x ≠ []) (hc : check_compatible_scoplib c L.toLib x = .ok false ∨ check_compatible_scoplib c L.toLib x = .err) :
    print_scoplib c L release x = .err := by
  cases x with
  | nil => exact absurd rfl hne
  | cons s x =>
    rcases hc with hc | hc <;> simp only [print_scoplib, hc] <;> rfl

end Scops
end Osl
