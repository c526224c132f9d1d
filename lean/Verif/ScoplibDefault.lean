import Verif.ScoplibExample
/-!
# The SCoPLib text of a scop, with the default registry (C66)

The table is computed from the contents of the scop, without the functions of the library.
-/

namespace Osl
namespace Data

open Ext (Ops)

variable {S : Type}

/-- The rows of the first extension `arrays` (specification): a tag, the number of arrays, one row by array, a tag; none without extension `arrays`. -/
def arraysRows : GList (Data S) → List (List Str)
  | [] => []
  | g :: l =>
    match g.data with
    | some (.arrays a) => ["<arrays>".toList] :: [showNat a.pairs.length] :: (a.pairs.map (fun p => [showInt p.1, p.2]) ++ [["</arrays>".toList]])
    | _ => arraysRows l

/-- The iterators and the expression of the first extension `body` (specification). -/
def bodyRow : GList (Data S) → Option (List Str × Str)
  | [] => none
  | g :: l =>
    match g.data with
    | some (.body ⟨some i, some ⟨some [ex]⟩⟩) => some (i.words, ex)
    | _ => bodyRow l

/-- The names of the parameters (specification). -/
def paramWords : GList (Data S) → List Str
  | ⟨_, some (.strings x)⟩ :: _ => x.words
  | _ => []

/-- The SCoPLib table of a scop (specification): the keyword, the language, the context, 1 and the names of the parameters or 0, the number of statements, the
statements with their bodies, the arrays. -/
def scoplibRows (s : Scop (Data S)) : List (List Str) :=
  ["SCoP".toList] :: [s.language.getD []] :: (intRows (Rel.relTable false false s.context) ++
    ((if s.parameters = [] then [["0".toList]] else [["1".toList], paramWords s.parameters]) ++ ([showNat s.statement.length] ::
      ((s.statement.map fun st => Stmts.scoplibTable st (bodyRow st.extension)).flatten ++ arraysRows s.extension))))

theorem has_uri_ext (d : Data S) (u : Str) : GList.has_URI (ext d) u = decide (uriOf d = u) := by
  obtain ⟨v, h1, h2, _⟩ := registry_at d.index d.index_lt
  have := ext_uri d
  simp only [GList.uri, ext, h2] at this
  simp only [GList.has_URI, ext, h2]
  rw [show (some v : Option Str) = some (uriOf d) from this]
  simp

theorem wordInt {v : Int} (h : fits 32 v) : Strings.Word (showInt v) := by
  refine ⟨?_, ?_, ?_⟩
  · intro e
    have := Util.showInt_chars v
    cases v with
    | ofNat n => simp only [showInt] at e; exact showNat_ne_nil n e
    | negSucc n => simp [showInt] at e
  · have := Util.showInt_length h
    have : MAX_STRING = 2048 := rfl
    omega
  · intro ch hch
    have := Util.showInt_chars v ch hch
    refine ⟨?_, Rel.showInt_noHash v ch hch⟩
    rcases this with rfl | h
    · decide
    · exact isDigit_not_space h

theorem pairs_says : ∀ (l : List (Int × Str)), (∀ p ∈ l, fits 32 p.1) → (∀ p ∈ l, Strings.Word p.2) → Says (Ext.Arrays.body l) (l.map fun p => [showInt p.1, p.2])
  | [], _, _ => Says.nil
  | (i, n) :: l, h1, h2 => by
    have ih := pairs_says l (fun p hp => h1 p (by simp [hp])) (fun p hp => h2 p (by simp [hp]))
    have hw : ∀ w ∈ [showInt i, n], Strings.Word w := by
      intro w hw
      simp only [List.mem_cons, List.not_mem_nil, or_false] at hw
      rcases hw with rfl | rfl
      · exact wordInt (h1 (i, n) (by simp))
      · exact h2 (i, w) (by simp)
    have := (Says.line (noNL_line fun w hw' => (hw w hw').noNL) (lineWords_line hw) (by simp)).append ih
    simp only [Strings.line, List.append_assoc, List.cons_append, List.nil_append] at this
    exact this

theorem arrays_text_says {a : Ext.Arrays} (h : a.Textable) :
    Says (Ext.Arrays.text a.pairs) ([showNat a.pairs.length] :: a.pairs.map fun p => [showInt p.1, p.2]) := by
  have h1 := Says.comment (u := " Number of arrays".toList) (by unfold NoNL; decide)
  have h2 : Says (showInt a.pairs.length ++ ['\n']) [[showNat a.pairs.length]] := by
    refine Says.one (l := showInt a.pairs.length) (wordInt ?_)
    have := h.nb
    unfold fits cMin cMax; simp; omega
  have h3 : Says (if a.pairs.length ≠ 0 then "# Mapping array-identifiers/array-names\n".toList else []) [] := by
    split
    · exact Says.comment (u := " Mapping array-identifiers/array-names".toList) (by unfold NoNL; decide)
    · exact Says.nil
  have := h1.append (h2.append (h3.append (pairs_says a.pairs h.ids fun p hp => (h.names p hp).1)))
  have e : Ext.Arrays.text a.pairs = ('#' :: " Number of arrays".toList ++ ['\n']) ++ (showInt a.pairs.length ++ ['\n'] ++
      ((if a.pairs.length ≠ 0 then "# Mapping array-identifiers/array-names\n".toList else []) ++ Ext.Arrays.body a.pairs)) := by
    unfold Ext.Arrays.text
    rw [List.append_assoc (showInt _)]
    rfl
  rw [e]
  exact this

theorem options_says {c : Cfg} {e : Option Str} {sym : Ops S} {PS : S → Prop} : ∀ (l : GList (Data S)), (∀ g ∈ l, ∃ d, g = ext d ∧ Plain c e PS d) →
    ∃ o, GList.print_options_scoplib (scoplib c e sym) l = .ok o ∧ Says o (arraysRows l)
  | [], _ => ⟨[], rfl, Says.nil⟩
  | g :: l, h => by
    obtain ⟨d, rfl, hd⟩ := h g (by simp)
    obtain ⟨o, ho, hs⟩ := options_says (sym := sym) l fun x hx => h x (by simp [hx])
    by_cases hu : uriOf d = URI_ARRAYS
    · obtain ⟨a, rfl⟩ := arrays_of_uri hu
      have ha : a.Textable := hd
      have hl : GList.lookup (ext (.arrays a) :: l) URI_ARRAYS = some (.arrays a) := by
        simp only [GList.lookup, has_uri_ext, hu, decide_true, if_true]; rfl
      refine ⟨"<arrays>\n".toList ++ (Ext.Arrays.text a.pairs ++ "</arrays>\n".toList), ?_, ?_⟩
      · unfold GList.print_options_scoplib
        rw [hl]
        simp only [GList.arraysTextOf, scoplib, kArrays, Ext.Arrays.sprint_text ha, Out.ok_bind]
      · have := (Says.one (l := "<arrays>".toList) ⟨by decide, by decide, by decide⟩).append ((arrays_text_says ha).append
          (Says.one (l := "</arrays>".toList) ⟨by decide, by decide, by decide⟩))
        exact this
    · have hl : GList.lookup (ext d :: l) URI_ARRAYS = GList.lookup l URI_ARRAYS := by
        simp only [GList.lookup, has_uri_ext, hu, decide_false]; rfl
      refine ⟨o, ?_, ?_⟩
      · unfold GList.print_options_scoplib at ho ⊢
        rw [hl]; exact ho
      · have hr : arraysRows (ext d :: l) = arraysRows l := by
          cases d <;> first | rfl | exact absurd rfl hu
        rw [hr]; exact hs

theorem bodyRow_is {c : Cfg} {e : Option Str} {sym : Ops S} {PS : S → Prop} (s : Stmt (Data S)) : ∀ (l : GList (Data S)), (∀ g ∈ l, ∃ d, g = ext d ∧ PlainFile c e PS d) →
    Stmts.BodyIs (lib c e sym).toLib { s with extension := l } (bodyRow l)
  | [], _ => rfl
  | g :: l, h => by
    obtain ⟨d, rfl, hd⟩ := h g (by simp)
    have ih := bodyRow_is (sym := sym) s l fun x hx => h x (by simp [hx])
    by_cases hu : uriOf d = URI_BODY
    · obtain ⟨b, rfl⟩ := body_of_uri hu
      rcases hd with ⟨its, ex, e1, e2⟩ | ⟨x, e1, _⟩
      · subst e1
        have hl : GList.lookup (ext (.body (oneBody its ex)) :: l) URI_BODY = some (.body (oneBody its ex)) := by
          simp only [GList.lookup, has_uri_ext, hu, decide_true, if_true]; rfl
        refine ⟨oneBody its ex, ?_, e2⟩
        simp only [Stmts.lookupBody, hl]
        rfl
      · cases e1
    · have hl : GList.lookup (ext d :: l) URI_BODY = GList.lookup l URI_BODY := by
        simp only [GList.lookup, has_uri_ext, hu, decide_false]; rfl
      have hr : bodyRow (ext d :: l) = bodyRow l := by
        cases d <;> first | rfl | exact absurd rfl hu
      rw [hr]
      unfold Stmts.BodyIs Stmts.lookupBody at ih ⊢
      simp only [hl]
      exact ih

theorem tables_flatten : ∀ (l : List (Stmt (Data S))), Stmts.scoplibTables (l.map fun st => (st, bodyRow st.extension)) =
    (l.map fun st => Stmts.scoplibTable st (bodyRow st.extension)).flatten
  | [] => rfl
  | s :: l => by simp only [List.map_cons, Stmts.scoplibTables, List.flatten_cons, tables_flatten l]

/-- C66: with the default registry, a plain scop which fits in the buffers and which the check accepts is written, and the text says its contents and nothing
else. -/
theorem scoplib_default_rows {c : Cfg} (hv : c.Valid) (hnd : c.ndebug = false) {e : Option Str} {sym : Ops S} {PS : S → Prop} (hS : ∀ s, PS s → sym.Back s) {prec : Int}
    {release : Str} (hrel : NoNL release) {s : Scop (Data S)} (hp : PlainScop c e sym PS prec s) (hs : PrintScop c e sym s)
    (hctx : ∀ p ∈ s.context, ∀ q ∈ s.context, p.type = q.type) (hst : ∀ st ∈ s.statement, Stmts.ScoplibPrints st)
    (hc : Scops.check_compatible_scoplib c (lib c e sym).toLib [s] = .ok true) :
    ∃ t, Scops.print_scoplib c (scoplib c e sym) release [s] = .ok t ∧ Says t (scoplibRows s) := by
  obtain ⟨w, hw1, hw2⟩ := hp.language
  have h : Scops.ScoplibPrints (scoplib c e sym) s w (paramWords s.parameters) (s.statement.map fun st => (st, bodyRow st.extension)) (arraysRows s.extension) := by
    refine ⟨⟨hw1, hw2⟩, hctx, ?_, ?_, ?_, ?_, ?_, ?_⟩
    · simp [Function.comp_def]
    · intro x hx
      obtain ⟨st, h1, rfl⟩ := List.mem_map.mp hx
      exact hst st h1
    · intro x hx
      obtain ⟨st, h1, rfl⟩ := List.mem_map.mp hx
      exact bodyRow_is (sym := sym) st st.extension fun g hg => by obtain ⟨d, k1, k2, _⟩ := (hp.statement st h1).extension g hg; exact ⟨d, k1, k2⟩
    · rcases hp.parameters with h1 | ⟨ws, h1, h2, h3, h4⟩
      · exact .inl ⟨h1, by rw [h1]; rfl⟩
      · exact .inr ⟨{ string := some ws }, by rw [h1]; rfl, by rw [h1]; rfl, by rw [h1]; exact h3⟩
    · exact (hp.text hS).arrays
    · obtain ⟨o, ho, hs⟩ := options_says (sym := sym) s.extension fun g hg => by obtain ⟨d, k1, k2, _⟩ := hp.extension g hg; exact ⟨d, k1, k2⟩
      unfold Scops.printOptionsScoplib
      cases hx : s.extension with
      | nil => exact ⟨_, rfl, by rw [hx] at hs; exact Says.nil⟩
      | cons g l =>
        rw [hx] at ho hs
        refine ⟨_, by simp only [ho, Out.ok_bind]; rfl, ?_⟩
        exact (Says.comment (u := " =============================================== Options".toList) (by unfold NoNL; decide)).append hs
  obtain ⟨t, h1, h2⟩ := scoplib_default_says hv hnd hS hrel hp hs h hc
  refine ⟨t, h1, ?_⟩
  have : Scops.scoplibTable w s (paramWords s.parameters) (s.statement.map fun st => (st, bodyRow st.extension)) (arraysRows s.extension) = scoplibRows s := by
    unfold Scops.scoplibTable scoplibRows
    rw [hw1]
    simp only [Option.getD_some, List.length_map]
    rw [tables_flatten]
    rcases hp.parameters with h1 | ⟨ws, h1, h2, h3, h4⟩
    · rw [h1]; rfl
    · have hu : Scops.hasURI s.parameters URI_STRINGS = true := by rw [h1]; rfl
      have hw : paramWords s.parameters = ws := by rw [h1]; rfl
      rw [hu, hw, if_neg (show s.parameters ≠ [] by rw [h1]; simp), Scops.paramRows, if_neg h2]
      rfl
  rw [← this]
  exact h2

/-- The hypotheses are met by the example. -/
example : ∃ t, Scops.print_scoplib Cfg.std (scoplib Cfg.std (some "64".toList) exSym) "0.9.1".toList [exScopM] = .ok t ∧ Says t (scoplibRows exScopM) :=
  scoplib_default_rows (by decide) rfl (fun _ => Ext.Symbol.Plain.back) (by unfold NoNL; decide) exScopM_plain exScopM_print (by decide)
    (by intro x hx; simp [exScopM] at hx; subst hx; exact exStmtM_scoplib) exScopM_compatible

end Data
end Osl
