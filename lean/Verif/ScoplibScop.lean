import Verif.ScoplibCheck
import Verif.ScopPrintProps
/-!
# What a whole SCoPLib text says (C66)
-/

namespace Osl

/-- A table of integers, as words. -/
def intRows (t : List (List Int)) : List (List Str) := t.map fun r => r.map showInt

theorem textWords_last {w : Str} (hw : ∀ ch ∈ w, isSpace ch = false) (hne : w ≠ []) : textWords w = [w] := by
  unfold textWords
  have := wordsFrom_word (cur := []) hw []
  rw [List.append_nil, List.nil_append] at this
  rw [this]
  simp [wordsFrom, hne]

theorem lineWords_line : ∀ {l : List Str}, (∀ w ∈ l, Strings.Word w) → lineWords (Strings.line l) = l
  | [], _ => by simp [Strings.line, lineWords, textWords, wordsFrom]
  | [w], h => by
    have hw := h w (by simp)
    unfold lineWords
    rw [takeWhile_all (by intro ch hch; simp [(hw.2.2 ch hch).2])]
    exact textWords_last (fun ch hch => (hw.2.2 ch hch).1) hw.1
  | w :: w' :: ws, h => by
    have hw := h w (by simp)
    have ih := lineWords_line (l := w' :: ws) fun x hx => h x (by simp [hx])
    unfold lineWords at ih ⊢
    simp only [Strings.line]
    rw [List.takeWhile_append_of_pos (by intro ch hch; simp [(hw.2.2 ch hch).2]), List.takeWhile_cons_of_pos (by decide)]
    unfold textWords
    rw [wordsFrom_word (fun ch hch => (hw.2.2 ch hch).1), List.nil_append, wordsFrom_end hw.1 (by simp; decide)]
    have := textWords_blanks (b := [' ']) (by simp; decide)
    have h2 := this (List.takeWhile (fun ch => ch != '#') (Strings.line (w' :: ws)))
    rw [List.singleton_append] at h2
    rw [h2, ih]

theorem noNL_line : ∀ {l : List Str}, (∀ w ∈ l, NoNL w) → NoNL (Strings.line l)
  | [], _ => NoNL.nil
  | [w], h => h w (by simp)
  | w :: w' :: ws, h => (h w (by simp)).append (NoNL.cons (by decide) (noNL_line fun x hx => h x (by simp [hx])))

theorem Says.blank : Says ['\n'] [] := Says.silent (l := []) NoNL.nil (by simp [lineWords, textWords, wordsFrom])

theorem Says.one {l : Str} (h : Strings.Word l) : Says (l ++ ['\n']) [[l]] := by
  refine Says.line h.noNL ?_ (by simp)
  unfold lineWords
  rw [takeWhile_all (by intro ch hch; simp [(h.2.2 ch hch).2])]
  exact textWords_last (fun ch hch => (h.2.2 ch hch).1) h.1

namespace Body

/-- The body of a statement in the SCoPLib format: whether there is one, its iterators (`fakeiter` if there is none) and its expression. -/
def scoplibRows (body : Option (List Str × Str)) : List (List Str) :=
  match body with
  | none => [["0".toList]]
  | some (its, e) => [["1".toList], if its = [] then ["fakeiter".toList] else its, lineWords e]

end Body

namespace Stmts

variable {D : Type}

open Rel (relTable)

/-- The iterators and the expression of the body of a statement, if it has one. -/
def BodyIs (L : Lib D) (s : Stmt D) : Option (List Str × Str) → Prop
  | none => lookupBody L s.extension = .ok none
  | some (its, e) => ∃ b, lookupBody L s.extension = .ok (some b) ∧ Body.Textable b its e

theorem starts_words {e : Str} (h1 : ∀ c ∈ e, Util.lineChar c = true) (h2 : Util.Starts e) (h3 : e ≠ []) : lineWords e ≠ [] := by
  have hl : lineWords e = textWords e := by
    unfold lineWords
    rw [takeWhile_all]
    intro ch hch
    have := h1 ch hch
    unfold Util.lineChar at this
    simp at this ⊢
    exact this.2
  rw [hl]
  cases e with
  | nil => exact absurd rfl h3
  | cons ch e =>
    have hs := h2 ch rfl
    have hns : isSpace ch = false := by
      cases hsp : isSpace ch with
      | false => rfl
      | true => simp [hsp] at hs
    have key : ∀ (s cur : Str), cur ≠ [] → wordsFrom cur s ≠ [] := by
      intro s
      induction s with
      | nil => intro cur hc; simp [wordsFrom, hc]
      | cons x s ih =>
        intro cur hc
        unfold wordsFrom
        split
        · simp
        · exact ih _ (by simp)
    unfold textWords wordsFrom
    rw [hns]
    exact key e _ (by simp)

theorem bodyScoplib_says {L : Lib D} {s : Stmt D} {body : Option (List Str × Str)} (h : BodyIs L s body) :
    ∃ b t, lookupBody L s.extension = .ok b ∧ bodyScoplib b = .ok t ∧ Says t (Body.scoplibRows body) := by
  cases body with
  | none =>
    refine ⟨none, _, h, rfl, ?_⟩
    have := (Says.comment (u := " Statement body is not provided".toList) (by unfold NoNL; decide)).append (Says.one (l := ['0']) ⟨by simp, by decide, by decide⟩)
    exact this
  | some p =>
    obtain ⟨its, e⟩ := p
    obtain ⟨b, hb, ht⟩ := h
    obtain ⟨si, i1, i2⟩ := ht.iters
    obtain ⟨se, e1, e2⟩ := ht.expr
    have he : Strings.sprint (some se) = .ok (e ++ ['\n']) := by
      rw [Strings.sprint_eq (by rw [e2]; simpa using ht.short), e2]; rfl
    have hnl : NoNL e := fun hm => by
      have := ht.line _ hm
      revert this; decide
    have hse : Says (e ++ ['\n']) [lineWords e] := Says.line hnl rfl (starts_words ht.line ht.starts ht.nonempty)
    have hexp := (Says.comment (u := " Statement body expression".toList) (by unfold NoNL; decide)).append hse
    have hone := (Says.comment (u := " Statement body is provided".toList) (by unfold NoNL; decide)).append (Says.one (l := ['1']) ⟨by simp, by decide, by decide⟩)
    have hit : ∃ t, Body.iteratorsScoplib b = .ok t ∧ Says t [if its = [] then ["fakeiter".toList] else its] := by
      have hsz : Strings.size b.iterators = its.length := by
        rw [i1, ← i2]
        cases si with
        | mk o => cases o <;> rfl
      unfold Body.iteratorsScoplib
      rw [hsz]
      by_cases hn : its = []
      · subst hn
        refine ⟨_, rfl, ?_⟩
        exact Says.one (l := "fakeiter".toList) ⟨by decide, by decide, by decide⟩
      · rw [if_pos (List.length_pos_iff.mpr hn), i1, Strings.sprint_eq (by rw [i2]; exact fun w hw => (ht.words w hw).2.1), i2, if_neg hn]
        refine ⟨_, rfl, ?_⟩
        exact (Says.comment (u := " List of original iterators".toList) (by unfold NoNL; decide)).append
          (Says.line (noNL_line fun w hw => (ht.words w hw).noNL) (lineWords_line ht.words) hn)
    obtain ⟨ti, hi1, hi2⟩ := hit
    refine ⟨some b, _, hb, ?_, hone.append (hi2.append hexp)⟩
    simp only [bodyScoplib, Body.print_scoplib, hi1, Out.ok_bind, e1, he]
    simp only [Out.pure_eq, Out.ok_bind]
    rfl

/-- A fake iterator is added to the statement: its domain has no constraint and its scattering has one row. -/
def fakeOf (s : Stmt D) : Bool :=
  match s.domain.head?, s.scattering.head? with
  | some d, some p => decide (d.nb_rows = 0) && decide (p.nb_rows = 1)
  | _, _ => false

/-- The table of a statement: domain, scattering, accesses, body. -/
def scoplibTable (s : Stmt D) (body : Option (List Str × Str)) : List (List Str) :=
  intRows (relTable true (fakeOf s) s.domain) ++ (["1".toList] :: intRows (relTable false (fakeOf s) s.scattering) ++
    (["1".toList] :: intRows (RList.accessesTables (fakeOf s) s.access) ++ Body.scoplibRows body))

/-- What the SCoPLib printer needs of a statement (specification): a domain and a scattering, parts of one type in each relation and, with a fake
iterator, parts of the scattering of at most three rows. -/
structure ScoplibPrints (s : Stmt D) : Prop where
  domain : s.domain ≠ []
  scattering : s.scattering ≠ []
  uniform : ∀ r ∈ rels s, ∀ p ∈ r, ∀ q ∈ r, p.type = q.type
  rows : fakeOf s = true → ∀ r ∈ rels s, ∀ p ∈ r, p.type = TYPE_SCATTERING → p.nb_rows ≤ 3

theorem ScoplibPrints.parts {s : Stmt D} (h : ScoplibPrints s) : ∀ r ∈ rels s, ∀ p ∈ r, Rel.ScoplibPart (Rel.isScoplibAccess r) (fakeOf s) p := by
  intro r hr p hp
  refine ⟨?_, fun hf => h.rows hf r hr p hp⟩
  cases r with
  | nil => simp at hp
  | cons q r => simp only [Rel.isScoplibAccess]; rw [h.uniform _ hr q (by simp) p hp]

theorem addFakeiter_eq {s : Stmt D} (hd : s.domain ≠ []) (hs : s.scattering ≠ []) : addFakeiter s = .ok (fakeOf s) := by
  cases h1 : s.domain with
  | nil => exact absurd h1 hd
  | cons d dr =>
    cases h2 : s.scattering with
    | nil => exact absurd h2 hs
    | cons p pr =>
      simp only [addFakeiter, fakeOf, h1, h2, List.head?_cons]
      by_cases hr : d.nb_rows = 0
      · rw [if_pos hr]; simp [hr]
      · rw [if_neg hr]; simp [hr]

theorem partLine_says {number : Nat} {title : Str} (h : NoNL title) : Says (partLine number title) [] := by
  have e : partLine number title = '#' :: (" ---------------------------------------------- ".toList ++ (pad2 number ++ title)) ++ ['\n'] := by
    unfold partLine
    simp
  rw [e]
  refine Says.comment (NoNL.append (by unfold NoNL; decide) (NoNL.append ?_ h))
  exact (noNL_replicate _).append (noNL_showNat _)

theorem bodyIs_noNL {L : Lib D} {s : Stmt D} {body : Option (List Str × Str)} (h : BodyIs L s body) {b : Option Body} (hb : lookupBody L s.extension = .ok b) :
    ∀ b', b = some b' → Rel.StringsNoNL b'.iterators := by
  rintro b' rfl
  cases body with
  | none => rw [show lookupBody L s.extension = .ok none from h] at hb; injection hb with hb; cases hb
  | some p =>
    obtain ⟨its, e⟩ := p
    obtain ⟨b2, hb2, ht⟩ := h
    rw [hb2] at hb
    injection hb with hb
    injection hb with hb
    subst hb
    obtain ⟨si, i1, i2⟩ := ht.iters
    intro a ha w hw
    rw [i1] at ha
    injection ha with ha
    subst ha
    rw [i2] at hw
    exact (ht.words w hw).noNL

/-- C66: the text of a statement. -/
theorem printOneScoplib_says {c : Cfg} (hv : c.Valid) {L : Lib D} {s : Stmt D} (h : Prints c L s) (hs : ScoplibPrints s) {names : Names} (hnl : Rel.NamesNoNL names)
    (hn : ∀ r ∈ Stmts.rels s, Rel.AllNamed c names r) {body : Option (List Str × Str)} (hb : BodyIs L s body) (number : Nat) :
    ∃ t, printOneScoplib c L names number s = .ok t ∧ Says t (scoplibTable s body) := by
  obtain ⟨b, tb, e, eb, hb'⟩ := bodyScoplib_says hb
  have hw := withBody_named h hn e
  have hwn := withBody_noNL hnl (bodyIs_noNL hb e)
  obtain ⟨t1, e1, h1⟩ := Rel.relation_scoplib_says hv hwn (h.rels s.domain (by simp [Stmts.rels])).parts (hw s.domain (by simp [Stmts.rels])) (nth := true) (hs.parts s.domain (by simp [Stmts.rels]))
  obtain ⟨t2, e2, h2⟩ := Rel.relation_scoplib_says hv hwn (h.rels s.scattering (by simp [Stmts.rels])).parts (hw s.scattering (by simp [Stmts.rels])) (nth := false)
    (hs.parts s.scattering (by simp [Stmts.rels]))
  obtain ⟨t3, e3, h3⟩ := RList.scoplib_accesses_says hv hwn (l := s.access) (fake := fakeOf s)
    (fun r hr => ⟨(h.rels r (by simp [Stmts.rels, hr])).parts, hw r (by simp [Stmts.rels, hr]), hs.parts r (by simp [Stmts.rels, hr])⟩)
  unfold printOneScoplib
  rw [e]
  simp only [Out.ok_bind]
  rw [addFakeiter_eq hs.domain hs.scattering]
  simp only [Out.ok_bind]
  rw [e1, e2, e3, eb]
  refine ⟨_, rfl, ?_⟩
  have a0 : Says ("# =============================================== Statement ".toList ++ (showNat number ++ "\n".toList)) [] := by
    have := Says.comment (u := " =============================================== Statement ".toList ++ showNat number) (NoNL.append (by unfold NoNL; decide) (noNL_showNat _))
    have e : "# =============================================== Statement ".toList ++ (showNat number ++ "\n".toList) =
      '#' :: (" =============================================== Statement ".toList ++ showNat number) ++ ['\n'] := by simp
    rw [e]; exact this
  have a1 : Says "# Iteration domain\n".toList [] := Says.comment (u := " Iteration domain".toList) (by unfold NoNL; decide)
  have a2 : Says "# Scattering function is provided\n1\n".toList [["1".toList]] :=
    (Says.comment (u := " Scattering function is provided".toList) (by unfold NoNL; decide)).append (Says.one (l := ['1']) ⟨by simp, by decide, by decide⟩)
  have a3 : Says "# Access informations are provided\n1\n".toList [["1".toList]] :=
    (Says.comment (u := " Access informations are provided".toList) (by unfold NoNL; decide)).append (Says.one (l := ['1']) ⟨by simp, by decide, by decide⟩)
  have p1 := partLine_says (number := number) (title := ".1 Domain".toList) (by unfold NoNL; decide)
  have p2 := partLine_says (number := number) (title := ".2 Scattering".toList) (by unfold NoNL; decide)
  have p3 := partLine_says (number := number) (title := ".3 Access".toList) (by unfold NoNL; decide)
  have p4 := partLine_says (number := number) (title := ".4 Body".toList) (by unfold NoNL; decide)
  have nl : Says "\n".toList [] := Says.blank
  have all := a0.append (p1.append (a1.append (Says.append h1 (nl.append (p2.append (a2.append (Says.append h2 (nl.append (p3.append (a3.append (Says.append h3 (nl.append
    (p4.append (hb'.append nl))))))))))))))
  have e0 : scoplibTable s body = intRows (relTable true (fakeOf s) s.domain) ++ ([["1".toList]] ++ (intRows (relTable false (fakeOf s) s.scattering) ++
      ([["1".toList]] ++ (intRows (RList.accessesTables (fakeOf s) s.access) ++ Body.scoplibRows body)))) := by simp [scoplibTable]
  rw [e0]
  simp only [List.nil_append, List.append_nil, List.append_assoc] at all ⊢
  exact all

/-- The tables of the statements. -/
def scoplibTables : List (Stmt D × Option (List Str × Str)) → List (List Str)
  | [] => []
  | (s, b) :: l => scoplibTable s b ++ scoplibTables l

theorem printLoopScoplib_says {c : Cfg} (hv : c.Valid) {L : Lib D} {names : Names} (hnl : Rel.NamesNoNL names) : ∀ {l : List (Stmt D × Option (List Str × Str))} (number : Nat),
    (∀ x ∈ l, Prints c L x.1) → (∀ x ∈ l, ScoplibPrints x.1) → (∀ x ∈ l, ∀ r ∈ Stmts.rels x.1, Rel.AllNamed c names r) → (∀ x ∈ l, BodyIs L x.1 x.2) →
    ∃ t, printLoopScoplib c L names number (l.map Prod.fst) = .ok t ∧ Says t (scoplibTables l)
  | [], _, _, _, _, _ => ⟨_, rfl, Says.nil⟩
  | (s, b) :: l, number, h, hs, hn, hb => by
    obtain ⟨t, e, h1⟩ := printOneScoplib_says hv (h (s, b) (by simp)) (hs (s, b) (by simp)) hnl (hn (s, b) (by simp)) (hb (s, b) (by simp)) number
    obtain ⟨u, e1, h2⟩ := printLoopScoplib_says hv hnl (l := l) (number + 1) (fun x hx => h x (by simp [hx])) (fun x hx => hs x (by simp [hx])) (fun x hx => hn x (by simp [hx]))
      (fun x hx => hb x (by simp [hx]))
    simp only [List.map_cons, printLoopScoplib]
    rw [e, e1]
    exact ⟨_, rfl, h1.append h2⟩

/-- C66: `osl_statement_pprint_scoplib` with given names. -/
theorem pprint_scoplib_says {c : Cfg} (hv : c.Valid) {L : Lib D} {names : Names} (hnl : Rel.NamesNoNL names) {l : List (Stmt D × Option (List Str × Str))}
    (h : ∀ x ∈ l, Prints c L x.1) (hs : ∀ x ∈ l, ScoplibPrints x.1) (hn : ∀ x ∈ l, ∀ r ∈ Stmts.rels x.1, Rel.AllNamed c names r) (hb : ∀ x ∈ l, BodyIs L x.1 x.2) :
    ∃ t, pprint_scoplib c L (l.map Prod.fst) (some names) = .ok t ∧ Says t (scoplibTables l) := by
  have : ∃ m, Names.clone (some names) = some m := ⟨_, rfl⟩
  obtain ⟨m, hm⟩ := this
  have hmn := Scops.cloneNames_noNL hnl
  rw [hm] at hmn
  unfold pprint_scoplib
  simp only [chooseNames, hm, Option.getD_some, Out.ok_bind]
  exact printLoopScoplib_says hv hmn 1 h hs (fun x hx r hr ps hps => (hn x hx r hr ps hps).clone hm) hb

end Stmts
end Osl
