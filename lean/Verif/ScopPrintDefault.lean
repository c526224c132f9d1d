import Verif.ScopPrintProps
import Verif.LibraryExample
/-!
# Printing scops with the default registry succeeds (C60)

The theorems of `ScopPrintProps` for the 18 extensions of the library, whose conditions become conditions on the contents, with an example and the
findings.
-/

namespace Osl

namespace GList

variable {D : Type}

theorem lookup_uri {l : GList D} {u : Str} {x : D} (h : lookup l u = some x) : ∃ g ∈ l, g.data = some x ∧ uri g = some u := by
  induction l with
  | nil => simp [lookup] at h
  | cons g l ih =>
    simp only [lookup] at h
    split at h
    · rename_i hu
      refine ⟨g, by simp, h, ?_⟩
      unfold has_URI at hu
      unfold uri
      cases hi : g.interface with
      | none => rw [hi] at hu; cases hu
      | some i => rw [hi] at hu; simpa using hu
    · obtain ⟨g', h1, h2⟩ := ih h
      exact ⟨g', by simp [h1], h2⟩

theorem sprint_of_pieces {E : Env D} {l : GList D} (h : ∀ g ∈ l, ∃ ps, pieces E g = .ok ps) : ∃ t, sprint E l = .ok t := by
  have : ∃ ps, piecesLoop E l = .ok ps := by
    induction l with
    | nil => exact ⟨_, rfl⟩
    | cons g l ih =>
      obtain ⟨a, e1⟩ := h g (by simp)
      obtain ⟨b, e2⟩ := ih fun x hx => h x (by simp [hx])
      simp only [piecesLoop]
      rw [e1, e2]
      exact ⟨_, rfl⟩
  obtain ⟨ps, e⟩ := this
  unfold sprint
  rw [e]
  simp only [Out.ok_bind, Util.emit_eq]
  exact ⟨_, rfl⟩

theorem pieces_textable {E : Env D} {g : Generic D} {i : Iface} {u t : Str} (h1 : g.interface = some i) (h2 : i.URI = some u) (h3 : u.length + 4 < MAX_STRING)
    (h4 : E.sprint i.fns.sprint g.data = .ok (some t)) : ∃ ps, pieces E g = .ok ps := by
  unfold pieces
  simp only [h1, h4, Out.ok_bind, h2, h3, if_true]
  exact ⟨_, rfl⟩

end GList

namespace Data

variable {S : Type}

open Ext (Ops NE)

theorem body_of_uri {d : Data S} (h : uriOf d = URI_BODY) : ∃ b, d = .body b := by
  have key : ∀ k < 18, ((Ifaces.defaultURIs[k]?).map String.toList).getD [] = URI_BODY → k = 1 := by decide
  have := key d.index d.index_lt h
  cases d <;> first | exact ⟨_, rfl⟩ | (simp [index] at this)

theorem arrays_of_uri {d : Data S} (h : uriOf d = URI_ARRAYS) : ∃ a, d = .arrays a := by
  have key : ∀ k < 18, ((Ifaces.defaultURIs[k]?).map String.toList).getD [] = URI_ARRAYS → k = 8 := by decide
  have := key d.index d.index_lt h
  cases d <;> first | exact ⟨_, rfl⟩ | (simp [index] at this)

theorem lookup_ext {l : GList (Data S)} (hl : ∀ g ∈ l, ∃ d, g = ext d) {u : Str} {x : Data S} (h : GList.lookup l u = some x) : ext x ∈ l ∧ uriOf x = u := by
  obtain ⟨g, hg, h1, h2⟩ := GList.lookup_uri h
  obtain ⟨d, rfl⟩ := hl g hg
  simp only [ext, Option.some.injEq] at h1
  subst h1
  rw [ext_uri] at h2
  injection h2 with h2
  exact ⟨hg, h2⟩

/-- What is needed of a scop which passes the integrity check and is plain (the conditions of the round trip) to be printed and read
back (specification): relations which fit in the buffers, domains, given names which are enough and have at most 12
characters, texts with short lines. -/
structure PrintScop (c : Cfg) (e : Option Str) (sym : Ops S) (s : Scop (Data S)) : Prop where
  rels : ∀ r ∈ Scops.rels s, Rel.Printable c r ∧ ∀ p ∈ r, Rel.LineFits p
  domain : ∀ st ∈ s.statement, st.domain ≠ []
  iterators : ∀ st ∈ s.statement, ∀ its ex, ext (.body (oneBody its ex)) ∈ st.extension → ∀ w ∈ its, w.length ≤ 12
  params : ∀ ws, s.parameters = [ext (.strings { string := some ws })] → Scops.expectedParams s.context ≤ ws.length ∧ ∀ w ∈ ws, w.length ≤ 12
  arrays : ∀ a, ext (.arrays a) ∈ s.extension → (∀ p ∈ a.pairs, 1 ≤ p.1 ∧ p.1 < 10 ^ 7 ∧ p.2.length ≤ 12) ∧
    ∀ st ∈ s.statement, ∀ r ∈ st.access, ∀ q ∈ r, ∀ k, 0 < k → Rel.FixesFirst q k → ∃ p ∈ a.pairs, k ≤ p.1
  language : ∀ w, s.language = some w → w.length < MAX_STRING - 1
  paramsText : ∀ t, GList.sprint (lib c e sym).toEnv s.parameters = .ok t → Rel.ShortText t
  extsText : ∀ t, GList.sprint (lib c e sym).toEnv s.extension = .ok t → Rel.ShortText t
  stmtText : ∀ st ∈ s.statement, ∀ t, GList.sprint (lib c e sym).toEnv st.extension = .ok t → Rel.ShortText t

theorem arrays_enough {a : Ext.Arrays} (h : ∀ p ∈ a.pairs, 1 ≤ p.1 ∧ p.1 < 10 ^ 7 ∧ p.2.length ≤ 12) :
    ∃ s, Ext.Arrays.to_strings (some a) = .ok (some s) ∧ ∀ k, (∃ p ∈ a.pairs, k ≤ p.1) → Rel.Enough (some s) k := by
  obtain ⟨s, e1, e2, e3⟩ := Ext.Arrays.arrays_to_strings_correct a fun p hp => by have := h p hp; omega
  refine ⟨s, e1, ?_⟩
  rintro k ⟨p, hp, hk⟩
  have hne : a.pairs ≠ [] := by intro e; rw [e] at hp; cases hp
  obtain ⟨m1, q, hq, m2⟩ := Ext.Arrays.maxId_spec a.pairs hne
  have hle := m1 p hp
  refine Rel.Enough.mono (Scops.words_enough ?_) (n := (Strings.words s).length) (by omega)
  intro w hw
  obtain ⟨j, hj, rfl⟩ := List.mem_iff_getElem.mp hw
  have := e3 j hj
  rw [List.getElem?_eq_getElem hj] at this
  injection this with this
  rw [this]
  cases hn : Ext.Arrays.nameOf a.pairs (j + 1) with
  | none =>
    have h1 := h q hq
    have := Util.showNat_length_le (j + 1) 6 (by omega)
    simp only [Option.getD_none, List.length_append, show "Dummy".toList.length = 5 from rfl]
    omega
  | some x =>
    unfold Ext.Arrays.nameOf at hn
    obtain ⟨y, hy, rfl⟩ := Option.map_eq_some_iff.mp hn
    have := List.mem_of_find?_eq_some hy
    exact (h y (by simpa using this)).2.2

theorem plain_pieces {c : Cfg} {e : Option Str} {sym : Ops S} {PS : S → Prop} (hS : ∀ s, PS s → sym.Back s) {l : GList (Data S)}
    (h : ∀ g ∈ l, ∃ d, g = ext d ∧ PlainFile c e PS d ∧ NoTag c e sym d) : ∃ t, GList.sprint (lib c e sym).toEnv l = .ok t := by
  rw [← GList.sprint_exact]
  refine GList.sprint_of_pieces fun g hg => ?_
  obtain ⟨d, rfl, h1, h2⟩ := h g hg
  obtain ⟨i, u, t, d', h3, h4, _, h5, _, h6, _⟩ := ext_ftextable hS h1 h2
  exact GList.pieces_textable h3 h4 h5 h6

theorem PrintScop.printable {c : Cfg} {e : Option Str} {sym : Ops S} {PS : S → Prop} (hS : ∀ s, PS s → sym.Back s) {prec : Int} {s : Scop (Data S)}
    (h : PrintScop c e sym s) (hp : PlainScop c e sym PS prec s) : Scops.Printable c (lib c e sym) s where
  rels := fun r hr => (h.rels r hr).1
  context := hp.context.nonempty
  domain := h.domain
  bodies := by
    intro st hst
    have hst' := hp.statement st hst
    have hx : ∀ g ∈ st.extension, ∃ d, g = ext d := fun g hg => by obtain ⟨d, h1, _⟩ := hst'.extension g hg; exact ⟨d, h1⟩
    unfold Stmts.lookupBody
    cases hl : GList.lookup st.extension URI_BODY with
    | none => exact ⟨none, rfl, by simp⟩
    | some d =>
      obtain ⟨h1, h2⟩ := lookup_ext hx hl
      obtain ⟨b, rfl⟩ := body_of_uri h2
      refine ⟨some b, rfl, ?_⟩
      intro body i hb hi
      injection hb with hb
      subst hb
      obtain ⟨d, h3, h4, _⟩ := hst'.extension _ h1
      have hd : d = .body b := by
        have := congrArg Generic.data h3
        simp only [ext, Option.some.injEq] at this
        exact this.symm
      subst hd
      rcases h4 with ⟨its, ex, e1, e2⟩ | ⟨x, e1, _⟩
      · subst e1
        simp only [oneBody, Option.some.injEq] at hi
        subst hi
        refine ⟨by have := e2.nb; simp only [Strings.words, Option.getD_some]; omega, ?_⟩
        simp only [Strings.words, Option.getD_some]
        exact h.iterators st hst its ex h1
      · cases e1
  params := by
    intro hu
    rcases hp.parameters with h1 | ⟨ws, h1, h2, h3, h4⟩
    · rw [h1] at hu; cases hu
    · obtain ⟨g1, g2⟩ := h.params ws h1
      refine ⟨some { string := some ws }, by rw [h1]; rfl, ?_⟩
      exact (Scops.words_enough (i := { string := some ws }) (by simpa [Strings.words] using g2)).mono (by simpa [Strings.words] using g1)
  arrays := by
    intro d hl
    have hx : ∀ g ∈ s.extension, ∃ d, g = ext d := fun g hg => by obtain ⟨d, h1, _⟩ := hp.extension g hg; exact ⟨d, h1⟩
    obtain ⟨h1, h2⟩ := lookup_ext hx hl
    obtain ⟨a, rfl⟩ := arrays_of_uri h2
    obtain ⟨g1, g2⟩ := h.arrays a h1
    obtain ⟨str, e1, e2⟩ := arrays_enough g1
    exact ⟨str, e1, fun st hst r hr q hq k hk hf => e2 k (g2 st hst r hr q hq k hk hf)⟩
  paramsText := by
    rcases hp.parameters with h1 | ⟨ws, h1, h2, h3, h4⟩
    · rw [h1]; exact GList.sprint_of_pieces (by simp)
    · rw [h1]
      exact plain_pieces hS (by intro g hg; simp at hg; subst hg; exact ⟨_, rfl, .inl ⟨ws, rfl, h2, h3⟩, h4⟩)
  extsText := plain_pieces hS fun g hg => by obtain ⟨d, h1, h2, h3⟩ := hp.extension g hg; exact ⟨d, h1, .inl h2, h3⟩
  stmtText := fun st hst => plain_pieces hS (hp.statement st hst).extension

theorem PrintScop.short {c : Cfg} {e : Option Str} {sym : Ops S} {PS : S → Prop} {prec : Int} {s : Scop (Data S)}
    (h : PrintScop c e sym s) (hp : PlainScop c e sym PS prec s) : Scops.Short (lib c e sym) s where
  context := ⟨(h.rels s.context (by simp [Scops.rels])).2, hp.context.length⟩
  language := by
    obtain ⟨w, h1, _⟩ := hp.language
    simp only [Scops.languageText, h1, Option.getD_some]
    exact h.language w h1
  statement := fun st hst => {
    rels := by
      intro r hr
      have hm : r ∈ Scops.rels s := by simp only [Scops.rels, List.mem_cons, List.mem_flatMap]; exact .inr ⟨st, hst, hr⟩
      refine ⟨(h.rels r hm).2, ?_⟩
      have hst' := hp.statement st hst
      simp only [Stmts.rels, List.mem_cons] at hr
      rcases hr with rfl | rfl | hr
      · rcases hst'.domain with h1 | h1
        · rw [h1]; decide
        · exact h1.1.length
      · rcases hst'.scattering with h1 | h1
        · rw [h1]; decide
        · exact h1.1.length
      · exact (hst'.access r hr).1.length
    exts := h.stmtText st hst
    access := by have := (hp.statement st hst).accesses; omega
    extensions := (hp.statement st hst).extensions }
  statements := hp.nbStatements
  paramsText := h.paramsText
  extsText := h.extsText

/-- C60: with the default registry, every list of plain scops which passes the integrity check, whose relations fit in the buffers and
whose given names are enough, is printed, and the text is read back as the same list. -/
theorem scop_default_print_read {c : Cfg} (hv : c.Valid) (hnd : c.ndebug = false) {e : Option Str} {sym : Ops S} {PS : S → Prop} (hS : ∀ s, PS s → sym.Back s)
    {prec : Int} {release : Str} (hrel : release.length < 1000) (hrel' : '<' ∉ release) {x : Scops (Data S)} (hp : ∀ s ∈ x, PlainScop c e sym PS prec s)
    (h : ∀ s ∈ x, PrintScop c e sym s) (hok : Scops.integrity_check c (lib c e sym).toLib x = .ok true) :
    ∃ t, Scops.print c (lib c e sym) release x = .ok t ∧ Scops.pread c (lib c e sym) defaultRegistry prec t = .ok x :=
  Scops.scop_print_read hv hnd default_registry_eq.2 hrel hrel' (fun s hs => (h s hs).printable hS (hp s hs)) (fun s hs => (h s hs).short (hp s hs))
    (fun s hs => (hp s hs).text hS) hok

/-! ## Example -/

theorem exBodyM_textable : Body.Textable (oneBody ["i".toList] "A[i] = i + 1;".toList) ["i".toList] "A[i] = i + 1;".toList where
  iters := ⟨_, rfl, rfl⟩
  expr := ⟨_, rfl, rfl⟩
  words := by
    intro w hw
    simp only [List.mem_cons, List.not_mem_nil, or_false] at hw
    rcases hw with rfl
    exact ⟨by decide, by decide, by decide⟩
  nb := by decide
  line := by decide +kernel
  starts := by intro c hc; simp at hc; subst hc; decide
  nonempty := by decide
  short := by decide

/-- A statement with a comment and a body which names the iterator of the domain. -/
def exStmtM : Stmt exData := { exStmtL with extension := [ext (.comment ⟨some "a comment".toList⟩), ext (.body (oneBody ["i".toList] "A[i] = i + 1;".toList))] }

/-- A scop with named parameters, arrays, coordinates and symbols. -/
def exScopM : Scop exData := { exScopL with statement := [exStmtM, exStmtM] }

theorem exStmtM_plain : PlainStmt Cfg.std (some "64".toList) exSym (PlainSymbols Cfg.std (some "64".toList) 0) 64 exStmtM where
  domain := exStmtL_plain.domain
  scattering := exStmtL_plain.scattering
  access := exStmtL_plain.access
  accesses := exStmtL_plain.accesses
  unique := ⟨by simp only [exStmtM, List.map_cons, List.map_nil, ext_uri]; decide, by intro g hg; simp only [exStmtM, List.mem_cons, List.not_mem_nil, or_false] at hg; rcases hg with rfl | rfl <;> simp [ext_uri]⟩
  extensions := by decide
  extension := by
    intro g hg
    simp only [exStmtM, List.mem_cons, List.not_mem_nil, or_false] at hg
    rcases hg with rfl | rfl
    · exact ⟨_, rfl, .inr ⟨_, rfl, by decide⟩, noTag_of (t := "a comment".toList) (by decide) (by decide)⟩
    · exact ⟨_, rfl, .inl ⟨_, _, rfl, exBodyM_textable⟩,
        noTag_of (t := "# Number of original iterators\n1\n# List of original iterators\ni\n# Statement body expression\nA[i] = i + 1;\n".toList) (by decide +kernel) (by decide)⟩

theorem exScopM_plain : PlainScop Cfg.std (some "64".toList) exSym (PlainSymbols Cfg.std (some "64".toList) 0) 64 exScopM :=
  { exScopL_plain with statement := by intro st hst; simp [exScopM] at hst; subst hst; exact exStmtM_plain }

/-- A text which ends with an end of line and is short enough as a whole. -/
def shortWhole (t : Str) : Bool := decide (t.length < MAX_STRING) && decide (t.getLast? = some '\n')

theorem shortWhole_text {t : Str} (h : shortWhole t = true) : Rel.ShortText t := by
  simp only [shortWhole, Bool.and_eq_true, decide_eq_true_eq] at h
  obtain ⟨h1, h2⟩ := h
  obtain ⟨s, rfl⟩ := List.getLast?_eq_some_iff.mp h2
  exact .line (by simp at h1; omega)

theorem exFits (p : Part) (h : p.Valid Cfg.std ∧ p.Dims ∧ Rel.Part.Small p ∧ kind Cfg.std p.precision = some (.fixed 64) ∧ (∀ row ∈ p.m, ∀ a ∈ row, a ≠ cMin 64) ∧
    (∀ row ∈ p.m, Rel.rowWidth row < MAX_STRING)) : Rel.PartFits Cfg.std p := ⟨h.1, h.2.1, h.2.2.1, Rel.notMin_of h.2.2.2.1 h.2.2.2.2.1, h.2.2.2.2.2⟩

theorem exScopM_rels : ∀ r ∈ Scops.rels exScopM, Rel.Printable Cfg.std r ∧ ∀ p ∈ r, Rel.LineFits p := by
  have h1 : Rel.PartFits Cfg.std Rel.exDomain := exFits _ ⟨Rel.exDomain_valid, by decide, by unfold Rel.Part.Small; decide, by decide, by decide, by decide⟩
  have h2 : Rel.PartFits Cfg.std Rel.exDomain2 := exFits _ ⟨Rel.exDomain2_valid, by decide, by unfold Rel.Part.Small; decide, by decide, by decide, by decide⟩
  have h3 : Rel.PartFits Cfg.std Stmts.exScatt := exFits _ ⟨Stmts.exScatt_valid, by decide, by unfold Rel.Part.Small; decide, by decide, by decide, by decide⟩
  have h4 : Rel.PartFits Cfg.std Rel.exAccess := exFits _ ⟨Rel.exAccess_valid, by decide, by unfold Rel.Part.Small; decide, by decide, by decide, by decide⟩
  have h5 : ∀ p ∈ Scops.exScop.context, Rel.PartFits Cfg.std p := by
    intro p hp
    simp [Scops.exScop] at hp; subst hp
    exact exFits _ ⟨⟨rfl, by decide, by decide, by decide, by decide⟩, by decide, by unfold Rel.Part.Small; decide, by decide, by decide, by decide⟩
  have hst : ∀ r ∈ Stmts.rels exStmtM, Rel.Printable Cfg.std r ∧ ∀ p ∈ r, Rel.LineFits p := by
    intro r hr
    simp only [Stmts.rels, exStmtM, exStmtL, List.mem_cons, List.not_mem_nil, or_false] at hr
    rcases hr with rfl | rfl | rfl
    · refine ⟨⟨?_, by decide, fun h => absurd h (by decide)⟩, by unfold Rel.LineFits; decide⟩
      intro p hp
      simp only [List.mem_cons, List.not_mem_nil, or_false] at hp
      rcases hp with rfl | rfl
      · exact h1
      · exact h2
    · refine ⟨⟨?_, by decide, fun h => absurd h (by decide)⟩, by unfold Rel.LineFits; decide⟩
      intro p hp; simp at hp; subst hp; exact h3
    · refine ⟨⟨?_, by decide, ?_⟩, by unfold Rel.LineFits; decide⟩
      · intro p hp; simp at hp; subst hp; exact h4
      · intro _ p hp
        simp at hp; subst hp
        refine ⟨by unfold Rel.IntEntries; decide, ?_⟩
        intro k hk
        have : k = 5 := Rel.FixesFirst.unique Rel.exAccess_valid.wf hk ⟨by decide, 0, by decide, -1, 5, by decide, by decide, by decide, by decide⟩
        omega
  intro r hr
  simp only [Scops.rels, exScopM, List.mem_cons, List.mem_flatMap, List.not_mem_nil, or_false] at hr
  rcases hr with rfl | ⟨st, rfl | rfl, hr⟩
  · exact ⟨⟨h5, by decide, fun h => absurd h (by decide)⟩, by unfold Rel.LineFits; decide⟩
  · exact hst r hr
  · exact hst r hr

theorem exScopM_print : PrintScop Cfg.std (some "64".toList) exSym exScopM where
  rels := exScopM_rels
  domain := by intro st hst; simp [exScopM] at hst; subst hst; decide
  iterators := by
    intro st hst its ex h
    simp [exScopM] at hst; subst hst
    simp only [exStmtM, List.mem_cons, List.not_mem_nil, or_false] at h
    rcases h with h | h
    · have := congrArg Generic.data h
      simp [ext] at this
    · have := congrArg Generic.data h
      simp [ext, oneBody] at this
      obtain ⟨rfl, _⟩ := this
      decide
  params := by
    intro ws h
    have := congrArg (fun l => l.map Generic.data) h
    simp [exScopM, exScopL, ext, exNames] at this
    subst this
    decide
  arrays := by
    intro a h
    simp only [exScopM, exScopL, List.mem_cons, List.not_mem_nil, or_false] at h
    rcases h with h | h | h
    · have := congrArg Generic.data h
      simp [ext, exArrays] at this
      subst this
      refine ⟨by decide, ?_⟩
      intro st hst r hr q hq k hk hf
      simp [exScopM] at hst; subst hst
      simp [exStmtM, exStmtL] at hr; subst hr
      simp at hq; subst hq
      have : k = 5 := Rel.FixesFirst.unique Rel.exAccess_valid.wf hf ⟨by decide, 0, by decide, -1, 5, by decide, by decide, by decide, by decide⟩
      exact ⟨(5, "B".toList), by simp, by omega⟩
    · have := congrArg Generic.data h
      simp [ext, exCoordinates] at this
    · have := congrArg Generic.data h
      simp [ext] at this
  language := by intro w h; simp [exScopM, exScopL] at h; subst h; decide
  paramsText := fun t ht => shortWhole_text (holds_of (p := shortWhole) (by decide +kernel) ht)
  extsText := fun t ht => shortWhole_text (holds_of (p := shortWhole) (by decide +kernel) ht)
  stmtText := by
    intro st hst t ht
    simp [exScopM] at hst; subst hst
    exact shortWhole_text (holds_of (p := shortWhole) (by decide +kernel) ht)

theorem exScopM_checked : Scops.integrity_check Cfg.std (lib Cfg.std (some "64".toList) exSym).toLib [exScopM, exScopM] = .ok true := by decide +kernel

theorem exScopM_all {s : Scop exData} (h : s ∈ [exScopM, exScopM]) : exScopM = s := by
  rcases List.mem_cons.mp h with h | h
  · exact h.symm
  · exact (List.mem_singleton.mp h).symm

/-- All the hypotheses are met by a list of two scops with unions, given names and extensions. -/
example : ∃ t, Scops.print Cfg.std (libAt Cfg.std (some "64".toList) 1) "0.9.1".toList [exScopM, exScopM] = .ok t ∧
    Scops.pread Cfg.std (libAt Cfg.std (some "64".toList) 1) defaultRegistry 64 t = .ok [exScopM, exScopM] :=
  scop_default_print_read (by decide) rfl (fun _ => Ext.Symbol.Plain.back) (by decide) (by decide) (fun s hs => exScopM_all hs ▸ exScopM_plain)
    (fun s hs => exScopM_all hs ▸ exScopM_print) exScopM_checked

/-! ## Findings -/

/-- Finding (C60): a scop with one parameter whose list of names is empty passes the integrity check (the number of names is
not checked), and the printer reads out of the list. -/
theorem scop_print_params_violates :
    Scops.integrity_check Cfg.std (lib Cfg.std (some "64".toList) exSym).toLib [{ exScopM with parameters := [ext (.strings { string := some [] })] }] = .ok true ∧
    Scops.print Cfg.std (lib Cfg.std (some "64".toList) exSym) "0.9.1".toList [{ exScopM with parameters := [ext (.strings { string := some [] })] }] = .ub := by
  decide +kernel

/-- Finding (C60): a scop whose `arrays` extension does not name the array 5 which a statement accesses passes the integrity check, and the
printer reads out of the list of names. -/
theorem scop_print_arrays_violates :
    Scops.integrity_check Cfg.std (lib Cfg.std (some "64".toList) exSym).toLib [{ exScopM with extension := [ext (.arrays ⟨[(1, "A".toList)]⟩)] }] = .ok true ∧
    Scops.print Cfg.std (lib Cfg.std (some "64".toList) exSym) "0.9.1".toList [{ exScopM with extension := [ext (.arrays ⟨[(1, "A".toList)]⟩)] }] = .ub := by
  decide +kernel

/-- Finding (C60): a scop without any relation passes the integrity check; the numbers of dimensions are -1 and the printer generates -1 names:
it writes out of bounds. -/
theorem scop_print_empty_violates :
    Scops.integrity_check Cfg.std (lib Cfg.std (some "64".toList) exSym).toLib [Scops.malloc] = .ok true ∧
    Scops.print Cfg.std (lib Cfg.std (some "64".toList) exSym) "0.9.1".toList [Scops.malloc] = .ub := by
  decide +kernel

end Data
end Osl
