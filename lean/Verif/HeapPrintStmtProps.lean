import Verif.HeapPrintScopProps
/-!
# Printing statements in memory (C74)
-/

set_option linter.unusedSectionVars false

namespace Osl.Mem

open Osl.Ext

variable [Allocator] {D : Type}

/-! ## Names -/

/-- A copy of the names, which are kept at their places. -/
theorem names_clone_pin {v : Nat → Ptr} {p : Ptr} {n : Names} : Triple (namesPin v p n) (namesClone p) (fun q => namesPin v p n ∗ namesAt q (Names.clone (some n))) := by
  unfold namesClone
  refine Triple.of_fact (φ := p ≠ 0) (fun h hh => pto_ne_sep h hh) (fun hp => ?_)
  rw [if_pos hp]
  show Triple (namesPin v p n) _ _
  unfold namesPin
  generalize hA : stringsAt (v 0) n.parameters = A
  generalize hB : stringsAt (v 1) n.iterators = B
  generalize hC : stringsAt (v 2) n.scatt_dims = C
  generalize hD : stringsAt (v 3) n.local_dims = D
  generalize hE : stringsAt (v 4) n.arrays = E
  refine Triple.step (P := emp) namesMalloc_spec (by rw [emp_sep]) (fun q => ?_)
  refine Triple.step (F := B ∗ C ∗ D ∗ E) (namesCloneField_spec (p := p) (q := q) (l1 := [v 0, v 1, v 2, v 3, v 4]) (l2 := [0, 0, 0, 0, 0]) (i := 0) (x := v 0) (s := n.parameters) rfl (fun _ => rfl))
    (by rw [hA]; ac_rfl) (fun _ => ?_)
  rw [ex_sep]
  refine Triple.exi (fun a' => ?_)
  rw [hA]
  generalize hA' : stringsAt a' (Strings.clone n.parameters) = A'
  refine Triple.step (F := A ∗ A' ∗ C ∗ D ∗ E) (namesCloneField_spec (p := p) (q := q) (l1 := [v 0, v 1, v 2, v 3, v 4]) (l2 := [a', 0, 0, 0, 0]) (i := 1) (x := v 1) (s := n.iterators) rfl (fun _ => rfl))
    (by rw [hB]; show (_ ∗ q ↦ .ptrs [a', 0, 0, 0, 0] ∗ _) ∗ _ = _; ac_rfl) (fun _ => ?_)
  rw [ex_sep]
  refine Triple.exi (fun b' => ?_)
  rw [hB]
  generalize hB' : stringsAt b' (Strings.clone n.iterators) = B'
  refine Triple.step (F := A ∗ A' ∗ B ∗ B' ∗ D ∗ E) (namesCloneField_spec (p := p) (q := q) (l1 := [v 0, v 1, v 2, v 3, v 4]) (l2 := [a', b', 0, 0, 0]) (i := 2) (x := v 2) (s := n.scatt_dims) rfl (fun _ => rfl))
    (by rw [hC]; show (_ ∗ q ↦ .ptrs [a', b', 0, 0, 0] ∗ _) ∗ _ = _; ac_rfl) (fun _ => ?_)
  rw [ex_sep]
  refine Triple.exi (fun c' => ?_)
  rw [hC]
  generalize hC' : stringsAt c' (Strings.clone n.scatt_dims) = C'
  refine Triple.step (F := A ∗ A' ∗ B ∗ B' ∗ C ∗ C' ∗ E) (namesCloneField_spec (p := p) (q := q) (l1 := [v 0, v 1, v 2, v 3, v 4]) (l2 := [a', b', c', 0, 0]) (i := 3) (x := v 3) (s := n.local_dims) rfl (fun _ => rfl))
    (by rw [hD]; show (_ ∗ q ↦ .ptrs [a', b', c', 0, 0] ∗ _) ∗ _ = _; ac_rfl) (fun _ => ?_)
  rw [ex_sep]
  refine Triple.exi (fun d' => ?_)
  rw [hD]
  generalize hD' : stringsAt d' (Strings.clone n.local_dims) = D'
  refine Triple.step (F := A ∗ A' ∗ B ∗ B' ∗ C ∗ C' ∗ D ∗ D') (namesCloneField_spec (p := p) (q := q) (l1 := [v 0, v 1, v 2, v 3, v 4]) (l2 := [a', b', c', d', 0]) (i := 4) (x := v 4) (s := n.arrays) rfl (fun _ => rfl))
    (by rw [hE]; show (_ ∗ q ↦ .ptrs [a', b', c', d', 0] ∗ _) ∗ _ = _; ac_rfl) (fun _ => ?_)
  rw [ex_sep]
  refine Triple.exi (fun e' => ?_)
  rw [hE]
  generalize hE' : stringsAt e' (Strings.clone n.arrays) = E'
  refine Triple.ret (fun h hh => ?_)
  have hh' : ((p ↦ .ptrs [v 0, v 1, v 2, v 3, v 4] ∗ A ∗ B ∗ C ∗ D ∗ E) ∗ q ↦ .ptrs [a', b', c', d', e'] ∗ A' ∗ B' ∗ C' ∗ D' ∗ E') h :=
    hh.perm (by show ((_ ∗ _) ∗ q ↦ .ptrs [a', b', c', d', e'] ∗ _) ∗ _ = _; ac_rfl)
  subst hA hB hC hD hE hA' hB' hC' hD' hE'
  exact sep_mono (fun _ h => h) (fun h hh => ⟨a', b', c', d', e', hh⟩) hh'

/-- The fields of the names when the field number `k` is replaced. -/
def pinSet (v : Nat → Ptr) (k : Nat) (x : Ptr) : Nat → Ptr := fun i => if i = k then x else v i

section

variable {L : Lib D} {c : Cfg} {O : DataMem D L.toEnv}

/-- The names generated for the statements. -/
theorem stmtNames_spec {p : Ptr} {l : Stmts D} {nm : Names} (h : Stmts.names c l = .ok nm) :
    Triple (stmtsAt c O p l) (stmtNames c p) (fun q => stmtsAt c O p l ∗ namesAt q (some nm)) := by
  unfold stmtNames
  obtain ⟨at1, ha, hg⟩ := Out.bind_eq_ok.mp h
  hstep ((statement_get_attributes_query (O := O) (p := p) ha).triple)
  hlast (names_generate_memory hg)
  hret

/-! ## One statement -/

theorem oneRel_eq {p : Ptr} {r : Rel} (h : p = 0 ↔ r = []) : oneRel p = if r.isEmpty then 0 else 1 := by
  unfold oneRel
  cases r with
  | nil => rw [if_pos (h.mpr rfl)]; rfl
  | cons a r => rw [if_neg (fun hp => by cases h.mp hp)]; rfl

/-- The relations of the statement can be stored in their precisions (specification). -/
def StmtFits (c : Cfg) (s : Stmt D) : Prop := RelFits c s.domain ∧ RelFits c s.scattering ∧ ∀ e ∈ s.access, RelFits c e

theorem stmtPrintRels_spec (hc : c.Valid) {s : Stmt D} (hs : StmtFits c s) {p d sc a e n q : Ptr} {v : Nat → Ptr} {nm : Names} {number : Nat} {td ts ta : Str}
    (h1 : Rel.spprint c s.domain (some nm) = .ok td) (h2 : Rel.spprint c s.scattering (some nm) = .ok ts) (h3 : RList.pprint_elts c s.access (some nm) = .ok ta) :
    Triple (p ↦ .ptrs [d, sc, a, e, n] ∗ relAt c d s.domain ∗ relAt c sc s.scattering ∗ rlistAt c a s.access ∗ namesPin v q nm) (stmtPrintRels c q p number)
      (fun t => pur (t = stmtRelsText number (Stmts.nbRelations s) td ts ta) ∗
        p ↦ .ptrs [d, sc, a, e, n] ∗ relAt c d s.domain ∗ relAt c sc s.scattering ∗ rlistAt c a s.access ∗ namesPin v q nm) := by
  unfold stmtPrintRels
  refine Triple.of_fact (φ := (d = 0 ↔ s.domain = []) ∧ (sc = 0 ↔ s.scattering = [])) (fun h hh => ?_) (fun hf => ?_)
  · obtain ⟨_, _, _, _, _, hh⟩ := hh
    obtain ⟨_, _, _, _, ha, hh⟩ := hh
    obtain ⟨_, _, _, _, hb, _⟩ := hh
    exact ⟨relAt_nil_iff _ ha, relAt_nil_iff _ hb⟩
  hstep (getField_spec (p := p) (i := 0) (x := d) rfl)
  hstep (getField_spec (p := p) (i := 1) (x := sc) rfl)
  hstep (getField_spec (p := p) (i := 2) (x := a) rfl)
  hstep (list_count_memory s.access a)
  have e1 := relation_pprint_pin (c := c) hc (p := d) (q := q) (v := v) (names := some nm) hs.1 h1
  have e2 := relation_pprint_pin (c := c) hc (p := sc) (q := q) (v := v) (names := some nm) hs.2.1 h2
  have e3 := list_pprint_elts_pin (c := c) hc (p := a) (q := q) (v := v) (names := some nm) hs.2.2 h3
  simp only [namesOpt] at e1 e2 e3
  hstep e1
  hstep e2
  hstep e3
  rw [oneRel_eq hf.1, oneRel_eq hf.2]
  hret

theorem stmtPrintExts_spec (R : DataPrint O) {e : Ptr} {l : GList D} (hl : goodList R.good l) {number : Nat} {te : Str} (h : Stmts.printExts L l = .ok te) :
    Triple (glistAt O e l) (stmtPrintExts R.sprint e number) (fun t => pur (t = stmtExtsText number l.length te) ∗ glistAt O e l) := by
  unfold stmtPrintExts
  hstep ((generic_number_query (O := O) (p := e) (l := l)).triple)
  have hp : Triple (glistAt O e l) (stmtGenPrint R.sprint e l.length) (fun t => pur (t = te) ∗ glistAt O e l) := by
    unfold stmtGenPrint
    unfold Stmts.printExts at h
    by_cases h0 : l.length > 0
    · rw [if_pos h0]
      rw [if_pos (show GList.number l > 0 by unfold GList.number; omega)] at h
      exact generic_print_memory R hl h
    · rw [if_neg h0]
      rw [if_neg (show ¬ GList.number l > 0 by unfold GList.number; omega)] at h
      cases h
      hret
  hstep hp
  hret

/-- How the bodies are seen by `osl_statement_pprint` (specification): the cast of source/statement.c:212. -/
def BodyMem (O : DataMem D L.toEnv) : Prop := ∀ {d b}, L.body d = some b → ∀ p, O.at_ p d = bodyAt p b

theorem showInt_nat (n : Nat) : showInt (n : Int) = showNat n := rfl

theorem printOne_text {nm : Names} {number : Nat} {s : Stmt D} {t : Str} (h : Stmts.printOne c L nm number s = .ok t) :
    ∃ body td ts ta te, Stmts.lookupBody L s.extension = .ok body ∧ Rel.spprint c s.domain (some (Stmts.withBody nm body)) = .ok td ∧
      Rel.spprint c s.scattering (some (Stmts.withBody nm body)) = .ok ts ∧ RList.pprint_elts c s.access (some (Stmts.withBody nm body)) = .ok ta ∧
      Stmts.printExts L s.extension = .ok te ∧ t = stmtRelsText number (Stmts.nbRelations s) td ts ta ++ stmtExtsText number s.extension.length te := by
  unfold Stmts.printOne at h
  obtain ⟨body, h0, h⟩ := Out.bind_eq_ok.mp h
  obtain ⟨td, h1, h⟩ := Out.bind_eq_ok.mp h
  obtain ⟨ts, h2, h⟩ := Out.bind_eq_ok.mp h
  obtain ⟨ta, h3, h⟩ := Out.bind_eq_ok.mp h
  obtain ⟨te, h4, h⟩ := Out.bind_eq_ok.mp h
  refine ⟨body, td, ts, ta, te, h0, h1, h2, h3, h4, ?_⟩
  simp only [Out.pure_eq, Out.ok.injEq] at h
  subst h
  unfold stmtRelsText stmtExtsText GList.number
  rw [showInt_nat]
  simp only [List.append_assoc]

/-- Without iterators in a body, the names are used as they are. -/
theorem stmtPrintOne_plain (hc : c.Valid) (R : DataPrint O) {s : Stmt D} (hs : StmtFits c s) (hl : goodList R.good s.extension) {p n q : Ptr} {v : Nat → Ptr} {nm : Names}
    {x : Nat × Str} {td ts ta te : Str} (h1 : Rel.spprint c s.domain (some nm) = .ok td) (h2 : Rel.spprint c s.scattering (some nm) = .ok ts)
    (h3 : RList.pprint_elts c s.access (some nm) = .ok ta) (h4 : Stmts.printExts L s.extension = .ok te) {d sc a e : Ptr} :
    Triple (p ↦ .ptrs [d, sc, a, e, n] ∗ relAt c d s.domain ∗ relAt c sc s.scattering ∗ rlistAt c a s.access ∗ glistAt O e s.extension ∗ namesPin v q nm)
      (do
        let backup ← stmtUseIterators q 0
        let t ← stmtPrintRels c q p x.1
        let te ← stmtPrintExts R.sprint e x.1
        stmtRestore q 0 backup
        pure (x.1 + 1, x.2 ++ (t ++ te)))
      (fun z => pur (z = (x.1 + 1, x.2 ++ (stmtRelsText x.1 (Stmts.nbRelations s) td ts ta ++ stmtExtsText x.1 s.extension.length te))) ∗
        p ↦ .ptrs [d, sc, a, e, n] ∗ relAt c d s.domain ∗ relAt c sc s.scattering ∗ rlistAt c a s.access ∗ glistAt O e s.extension ∗ namesPin v q nm) := by
  have use : Triple emp (stmtUseIterators q 0) (fun _ => emp) := by
    unfold stmtUseIterators
    rw [if_neg (by simp)]
    exact Triple.ret (fun _ h => h)
  hstep use
  hstep (stmtPrintRels_spec hc hs (p := p) (q := q) (v := v) (number := x.1) h1 h2 h3)
  hstep (stmtPrintExts_spec R hl (number := x.1) h4)
  have back : ∀ b, Triple emp (stmtRestore q 0 b) (fun _ => emp) := by
    intro b
    unfold stmtRestore
    rw [if_neg (by simp)]
    exact Triple.ret (fun _ h => h)
  hstep (back _)
  hret

/-- With the iterators `z` of a body, they are used as names and then put back. -/
theorem stmtPrintOne_swap (hc : c.Valid) (R : DataPrint O) {s : Stmt D} (hs : StmtFits c s) (hl : goodList R.good s.extension) {p n q y z w : Ptr} {v : Nat → Ptr} {nm : Names} {i : Strings}
    {o : Option Strings} {x : Nat × Str} {td ts ta te : Str} (h1 : Rel.spprint c s.domain (some { nm with iterators := some i }) = .ok td)
    (h2 : Rel.spprint c s.scattering (some { nm with iterators := some i }) = .ok ts)
    (h3 : RList.pprint_elts c s.access (some { nm with iterators := some i }) = .ok ta) (h4 : Stmts.printExts L s.extension = .ok te) {d sc a e : Ptr} (hz : z ≠ 0) :
    Triple ((p ↦ .ptrs [d, sc, a, e, n] ∗ relAt c d s.domain ∗ relAt c sc s.scattering ∗ rlistAt c a s.access) ∗ namesPin v q nm ∗
        (y ↦ .ptrs [z, w] ∗ stringsAt z (some i) ∗ stringsAt w o) ∗ wand (bodyAt y ⟨some i, o⟩) (glistAt O e s.extension))
      (do
        let backup ← stmtUseIterators q z
        let t ← stmtPrintRels c q p x.1
        let te ← stmtPrintExts R.sprint e x.1
        stmtRestore q z backup
        pure (x.1 + 1, x.2 ++ (t ++ te)))
      (fun r => pur (r = (x.1 + 1, x.2 ++ (stmtRelsText x.1 (Stmts.nbRelations s) td ts ta ++ stmtExtsText x.1 s.extension.length te))) ∗
        (p ↦ .ptrs [d, sc, a, e, n] ∗ relAt c d s.domain ∗ relAt c sc s.scattering ∗ rlistAt c a s.access) ∗ namesPin v q nm ∗ glistAt O e s.extension) := by
  have swap : Triple (namesPin v q nm ∗ stringsAt z (some i)) (stmtUseIterators q z)
      (fun b => pur (b = v 1) ∗ namesPin (pinSet v 1 z) q { nm with iterators := some i } ∗ stringsAt (v 1) nm.iterators) := by
    unfold stmtUseIterators namesSwap
    rw [if_pos hz]
    unfold namesPin
    hstep (getField_spec (p := q) (i := 1) (x := v 1) rfl)
    hstep (setField_spec (p := q) (i := 1) (x := z) (l' := [v 0, z, v 2, v 3, v 4]) rfl)
    have e0 : pinSet v 1 z 0 = v 0 := rfl
    have e1 : pinSet v 1 z 1 = z := rfl
    have e2 : pinSet v 1 z 2 = v 2 := rfl
    have e3 : pinSet v 1 z 3 = v 3 := rfl
    have e4 : pinSet v 1 z 4 = v 4 := rfl
    simp only [e0, e1, e2, e3, e4]
    hret
  have open_ : (namesPin (pinSet v 1 z) q { nm with iterators := some i } ∗ stringsAt (v 1) nm.iterators) =
      ((q ↦ .ptrs [v 0, z, v 2, v 3, v 4] ∗ stringsAt (v 0) nm.parameters ∗ stringsAt (v 2) nm.scatt_dims ∗ stringsAt (v 3) nm.local_dims ∗ stringsAt (v 4) nm.arrays ∗
        stringsAt (v 1) nm.iterators) ∗ stringsAt z (some i)) := by
    show (q ↦ .ptrs [v 0, z, v 2, v 3, v 4] ∗ stringsAt (v 0) nm.parameters ∗ stringsAt z (some i) ∗ stringsAt (v 2) nm.scatt_dims ∗ stringsAt (v 3) nm.local_dims ∗
      stringsAt (v 4) nm.arrays) ∗ stringsAt (v 1) nm.iterators = _
    ac_rfl
  have back : Triple (q ↦ .ptrs [v 0, z, v 2, v 3, v 4] ∗ stringsAt (v 0) nm.parameters ∗ stringsAt (v 2) nm.scatt_dims ∗ stringsAt (v 3) nm.local_dims ∗ stringsAt (v 4) nm.arrays ∗
        stringsAt (v 1) nm.iterators) (stmtRestore q z (v 1)) (fun _ => namesPin v q nm) := by
    unfold stmtRestore
    rw [if_pos hz]
    unfold namesPin
    hlast (setField_spec (p := q) (i := 1) (x := v 1) (l' := [v 0, v 1, v 2, v 3, v 4]) rfl)
    hret
  hstep swap
  hstep (stmtPrintRels_spec hc hs (p := p) (q := q) (v := pinSet v 1 z) (number := x.1) h1 h2 h3)
  have exts := stmtPrintExts_spec R hl (e := e) (number := x.1) h4
  generalize hg : (q ↦ .ptrs [v 0, z, v 2, v 3, v 4] ∗ stringsAt (v 0) nm.parameters ∗ stringsAt (v 2) nm.scatt_dims ∗ stringsAt (v 3) nm.local_dims ∗ stringsAt (v 4) nm.arrays ∗
        stringsAt (v 1) nm.iterators) = gap at open_ back
  refine Triple.pre (P := glistAt O e s.extension ∗ gap ∗ p ↦ .ptrs [d, sc, a, e, n] ∗ relAt c d s.domain ∗ relAt c sc s.scattering ∗ rlistAt c a s.access) ?_ (fun h hh => ?_)
  · hstep exts
    hstep back
    hret
  · have hh : ((namesPin (pinSet v 1 z) q { nm with iterators := some i } ∗ stringsAt (v 1) nm.iterators) ∗ (y ↦ .ptrs [z, w] ∗ stringsAt w o ∗
        wand (bodyAt y ⟨some i, o⟩) (glistAt O e s.extension)) ∗ p ↦ .ptrs [d, sc, a, e, n] ∗ relAt c d s.domain ∗ relAt c sc s.scattering ∗ rlistAt c a s.access) h := hh.perm (by ac_rfl)
    rw [open_] at hh
    have hh : (((y ↦ .ptrs [z, w] ∗ stringsAt z (some i) ∗ stringsAt w o) ∗ wand (bodyAt y ⟨some i, o⟩) (glistAt O e s.extension)) ∗
        (gap ∗ p ↦ .ptrs [d, sc, a, e, n] ∗ relAt c d s.domain ∗ relAt c sc s.scattering ∗ rlistAt c a s.access)) h := hh.perm (by ac_rfl)
    refine sep_mono (fun h hx => wand_elim (A := bodyAt y ⟨some i, o⟩) _ ?_) (fun _ h => h) hh
    exact sep_mono (fun _ hx => ⟨z, w, hx⟩) (fun _ h => h) hx

/-- One turn of the loop of `osl_statement_pprint`. -/
theorem stmtPrintOne_spec (hc : c.Valid) (V : BodyMem O) (R : DataPrint O) {s : Stmt D} (hs : StmtFits c s) (hl : goodList R.good s.extension) {p n q : Ptr} {v : Nat → Ptr} {nm : Names}
    {x : Nat × Str} {t : Str} (h : Stmts.printOne c L nm x.1 s = .ok t) :
    Triple (stmtAt c O p s n ∗ namesPin v q nm) (stmtPrintOne c R.sprint q p x) (fun z => pur (z = (x.1 + 1, x.2 ++ t)) ∗ stmtAt c O p s n ∗ namesPin v q nm) := by
  obtain ⟨body, td, ts, ta, te, h0, h1, h2, h3, h4, ht⟩ := printOne_text h
  subst ht
  unfold stmtPrintOne
  hopen stmtAt
  hstep (getField_spec (p := p) (i := 3) (x := e) rfl)
  have borrow := genFind_borrow (O := O) (t := URI_BODY) (l := s.extension) (p := e)
  unfold Stmts.lookupBody at h0
  refine Triple.bind (Q := fun y => O.opt y (GList.lookup s.extension URI_BODY) ∗ wand (O.opt y (GList.lookup s.extension URI_BODY)) (glistAt O e s.extension) ∗
    p ↦ .ptrs [d, sc, a, e, n] ∗ relAt c d s.domain ∗ relAt c sc s.scattering ∗ rlistAt c a s.access ∗ namesPin v q nm) ?_ (fun y => ?_)
  · hlast borrow
    hret
  have plain : ∀ h1 h2 h3, Triple (p ↦ .ptrs [d, sc, a, e, n] ∗ relAt c d s.domain ∗ relAt c sc s.scattering ∗ rlistAt c a s.access ∗ glistAt O e s.extension ∗ namesPin v q nm) _ _ :=
    fun h1 h2 h3 => stmtPrintOne_plain hc R hs hl (p := p) (n := n) (q := q) (v := v) (nm := nm) (x := x) (td := td) (ts := ts) (ta := ta) h1 h2 h3 h4 (d := d) (sc := sc) (a := a) (e := e)
  cases hlk : GList.lookup s.extension URI_BODY with
  | none =>
    rw [hlk] at h0
    cases h0
    have := plain h1 h2 h3
    have hi : Triple emp (bodyIterators 0) (fun z => pur (z = 0) ∗ emp) := by
      unfold bodyIterators
      rw [if_neg (by simp)]
      hret
    refine Triple.frame_fact (P := O.opt y none) (φ := y = 0) (fun h hh => hh.1) (fun hy => ?_)
    subst hy
    refine Triple.pre (P := glistAt O e s.extension ∗ p ↦ .ptrs [d, sc, a, e, n] ∗ relAt c d s.domain ∗ relAt c sc s.scattering ∗ rlistAt c a s.access ∗ namesPin v q nm) ?_
      (fun h hh => wand_back hh)
    hstep hi
    hlast this
    unfold stmtAt
    hret
  | some dd =>
    rw [hlk] at h0
    dsimp only at h0
    cases hb : L.body dd with
    | none => rw [hb] at h0; cases h0
    | some b =>
      rw [hb] at h0
      cases h0
      have ho : O.opt y (some dd) = bodyAt y b := V hb y
      rw [ho]
      obtain ⟨it, ex⟩ := b
      show Triple (bodyAt y ⟨it, ex⟩ ∗ _) _ _
      generalize hw : wand (bodyAt y ⟨it, ex⟩) (glistAt O e s.extension) = w1
      have hi : ∀ z w, Triple (y ↦ .ptrs [z, w]) (bodyIterators y) (fun r => pur (r = z) ∗ y ↦ .ptrs [z, w]) := by
        intro z w
        unfold bodyIterators
        refine Triple.of_fact (φ := y ≠ 0) (fun h hh => pto_ne h hh) (fun hy => ?_)
        rw [if_pos hy]
        exact getField_spec rfl
      unfold bodyAt
      rw [ex_sep]
      refine Triple.exi (fun z => ?_)
      rw [ex_sep]
      refine Triple.exi (fun w => ?_)
      dsimp only
      hstep (hi z w)
      cases it with
      | none =>
        have hr := plain h1 h2 h3
        refine Triple.of_fact (φ := z = 0) (fun h hh => ?_) (fun hz => ?_)
        · obtain ⟨_, _, _, _, _, hh⟩ := hh
          obtain ⟨_, _, _, _, hx, _⟩ := hh
          exact hx.1
        subst hz
        refine Triple.pre (P := glistAt O e s.extension ∗ p ↦ .ptrs [d, sc, a, e, n] ∗ relAt c d s.domain ∗ relAt c sc s.scattering ∗ rlistAt c a s.access ∗ namesPin v q nm) ?_
          (fun h hh => ?_)
        · hlast hr
          unfold stmtAt
          hret
        · subst hw
          have hh : ((y ↦ .ptrs [0, w] ∗ stringsAt 0 none ∗ stringsAt w ex) ∗ wand (bodyAt y ⟨none, ex⟩) (glistAt O e s.extension) ∗ p ↦ .ptrs [d, sc, a, e, n] ∗
              relAt c d s.domain ∗ relAt c sc s.scattering ∗ rlistAt c a s.access ∗ namesPin v q nm) h := hh.perm (by ac_rfl)
          exact wand_back (sep_mono (fun _ hx => ⟨0, w, hx⟩) (fun _ h => h) hh)
      | some i =>
        refine Triple.of_fact (φ := z ≠ 0) (fun h hh => ?_) (fun hz => ?_)
        · obtain ⟨_, _, _, _, _, hh⟩ := hh
          obtain ⟨_, _, _, _, hx, _⟩ := hh
          exact stringsAt_ne _ hx
        subst hw
        have := stmtPrintOne_swap hc R hs hl (p := p) (n := n) (q := q) (y := y) (z := z) (w := w) (v := v) (nm := nm) (i := i) (o := ex) (x := x) h1 h2 h3 h4 (d := d) (sc := sc)
          (a := a) (e := e) hz
        hlast this
        unfold stmtAt
        hret

/-! ## Lists of statements -/

/-- What one turn of the loop does, on values. -/
def stmtStep (c : Cfg) (L : Lib D) (nm : Names) (s : Stmt D) (_ : Bool) (x : Nat × Str) : Out (Nat × Str) := do
  let u ← Stmts.printOne c L nm x.1 s
  return (x.1 + 1, x.2 ++ u)

theorem stmtLoop_fold {nm : Names} : ∀ {l : Stmts D} {number : Nat} {t u : Str}, Stmts.printLoop c L nm number l = .ok u →
    foldOut (stmtStep c L nm) l (number, t) = .ok (number + l.length, t ++ u)
  | [], number, t, u, h => by
    cases h
    simp [foldOut]
  | s :: l, number, t, u, h => by
    unfold Stmts.printLoop at h
    obtain ⟨a, h1, h⟩ := Out.bind_eq_ok.mp h
    obtain ⟨b, h2, h⟩ := Out.bind_eq_ok.mp h
    simp only [Out.pure_eq, Out.ok.injEq] at h
    subst h
    refine Out.bind_eq_ok.mpr ⟨(number + 1, t ++ a), ?_, ?_⟩
    · show (Stmts.printOne c L nm number s >>= fun u => _) = _
      rw [h1]
      rfl
    · rw [stmtLoop_fold (l := l) h2]
      simp only [List.append_assoc, List.length_cons]
      rw [Nat.add_assoc, Nat.add_comm 1]

/-- The relations and the extensions of the statements can be printed (specification): the values of the relations can be stored in their precisions. -/
def StmtsFit (c : Cfg) (good : D → Prop) (l : Stmts D) : Prop := ∀ s ∈ l, StmtFits c s ∧ goodList good s.extension

/-- The loop of `osl_statement_pprint`. -/
theorem stmtWalk_spec (hc : c.Valid) (V : BodyMem O) (R : DataPrint O) {l : Stmts D} (hl : StmtsFit c R.good l) {p q : Ptr} {v : Nat → Ptr} {nm : Names} {t : Str}
    (h : Stmts.printLoop c L nm 1 l = .ok t) :
    Triple (stmtsAt c O p l ∗ namesPin v q nm) (walk stmtNext (stmtPrintOne c R.sprint q) p (1, [])) (fun x => pur (x.2 = t) ∗ stmtsAt c O p l ∗ namesPin v q nm) := by
  have hw := walk_spec (N := stmtChain c O) (act := stmtPrintOne c R.sprint q) (g := stmtStep c L nm) (A := fun (x y : Nat × Str) => pur (x = y) ∗ namesPin v q nm) (p := p) (s := (1, []))
    (t := (1, [])) (l := l) (fun s hs p n x y y' hy => by
      obtain ⟨u, h1, hy⟩ := Out.bind_eq_ok.mp hy
      simp only [Out.pure_eq, Out.ok.injEq] at hy
      subst hy
      refine Triple.pre (P := pur (x = y) ∗ stmtAt c O p s n ∗ namesPin v q nm) (Triple.fact (fun hxy => ?_)) (fun h hh => hh.perm (by show ((stmtAt c O p s n) ∗ _) = _; ac_rfl))
      subst hxy
      refine (stmtPrintOne_spec hc V R (hl s hs).1 (hl s hs).2 (p := p) (n := n) (q := q) (v := v) h1).post (fun z h hh => ?_)
      exact hh.perm (by show _ = (stmtAt c O p s n ∗ _); ac_rfl)) (stmtLoop_fold (t := []) h)
  refine (hw.pre (fun h hh => ?_)).post (fun x h hh => ?_)
  · rw [pur_true rfl, emp_sep]
    exact hh
  · have hh : (pur (x = (1 + l.length, [] ++ t)) ∗ stmtsAt c O p l ∗ namesPin v q nm) h := hh.perm (by show ((stmtsAt c O p l) ∗ _) = _; ac_rfl)
    obtain ⟨hx, h2⟩ := pur_sep_iff.mp hh
    refine pur_sep_iff.mpr ⟨by rw [hx]; rfl, h2⟩

/-- `osl_statement_pprint`, the names being kept at their places. -/
theorem statement_pprint_pin (hc : c.Valid) (V : BodyMem O) (R : DataPrint O) {l : Stmts D} (hl : StmtsFit c R.good l) {p q : Ptr} {v : Nat → Ptr} {names : Option Names} {t : Str}
    (h : Stmts.pprint c L l names = .ok t) :
    Triple (stmtsAt c O p l ∗ namesOpt v q names) (stmtPprint c R.sprint p q) (fun s => pur (s = t) ∗ stmtsAt c O p l ∗ namesOpt v q names) := by
  unfold Stmts.pprint at h
  obtain ⟨nm, h1, h2⟩ := Out.bind_eq_ok.mp h
  unfold stmtPprint
  have choose_ : Triple (stmtsAt c O p l ∗ namesOpt v q names) (stmtChooseNames c p q) (fun x => namesAt x (some nm) ∗ stmtsAt c O p l ∗ namesOpt v q names) := by
    unfold stmtChooseNames
    cases names with
    | none =>
      simp only [namesOpt]
      refine Triple.of_fact (φ := q = 0) (fun h hh => ?_) (fun hq => ?_)
      · obtain ⟨_, _, _, _, _, hh⟩ := hh
        exact hh.1
      subst hq
      rw [if_pos rfl]
      hlast (stmtNames_spec (O := O) (p := p) h1)
      hret
    | some n =>
      simp only [namesOpt]
      refine Triple.of_fact (φ := q ≠ 0) (fun h hh => ?_) (fun hq => ?_)
      · obtain ⟨_, _, _, _, _, hh⟩ := hh
        exact pto_ne_sep _ hh
      rw [if_neg hq]
      have hn : Names.clone (some n) = some nm := by
        have h1 : Out.ok ((Names.clone (some n)).getD n) = .ok nm := h1
        injection h1 with h1
        rw [← h1]
        rfl
      have := names_clone_pin (v := v) (p := q) (n := n)
      rw [hn] at this
      hlast this
      hret
  refine Triple.bind choose_ (fun x => ?_)
  rw [namesAt_pin, ex_sep]
  refine Triple.exi (fun w => ?_)
  refine Triple.bind (Q := fun r => pur (r.2 = t) ∗ namesAt x (some nm) ∗ stmtsAt c O p l ∗ namesOpt v q names) ?_ (fun r => Triple.fact (fun hr => ?_))
  · refine Triple.last (stmtWalk_spec hc V R hl (p := p) (q := x) (v := w) h2) (F := namesOpt v q names) (by ac_rfl) (fun r h hh => ?_)
    rw [namesAt_pin]
    have hh : (namesPin w x nm ∗ pur (r.2 = t) ∗ stmtsAt c O p l ∗ namesOpt v q names) h := hh.perm (by ac_rfl)
    have hh := sep_mono (P' := ex fun v => namesPin v x nm) (fun _ hx => ⟨w, hx⟩) (fun _ h => h) hh
    exact hh.perm (by ac_rfl)
  hstep (names_free_memory x (some nm))
  refine Triple.ret (fun h hh => pur_sep_iff.mpr ⟨hr, hh⟩)

/-- C74: `osl_statement_pprint` writes the text of the statements: the statements and the names are unchanged, the names which it generates or copies are freed. -/
theorem statement_pprint_memory (hc : c.Valid) (V : BodyMem O) (R : DataPrint O) {l : Stmts D} (hl : StmtsFit c R.good l) {p q : Ptr} {names : Option Names} {t : Str}
    (h : Stmts.pprint c L l names = .ok t) :
    Triple (stmtsAt c O p l ∗ namesAt q names) (stmtPprint c R.sprint p q) (fun s => pur (s = t) ∗ stmtsAt c O p l ∗ namesAt q names) :=
  (Triple.unpin (Q := fun s => pur (s = t) ∗ stmtsAt c O p l) (fun v => (statement_pprint_pin (v := v) hc V R hl h).post (fun _ _ hh => hh.perm (by ac_rfl)))).post
    (fun _ _ hh => hh.perm (by ac_rfl))

/-- C74: `osl_statement_print`. -/
theorem statement_print_memory (hc : c.Valid) (V : BodyMem O) (R : DataPrint O) {l : Stmts D} (hl : StmtsFit c R.good l) {p : Ptr} {t : Str} (h : Stmts.print c L l = .ok t) :
    Triple (stmtsAt c O p l) (stmtPrint c R.sprint p) (fun s => pur (s = t) ∗ stmtsAt c O p l) := by
  have := statement_pprint_memory hc V R hl (p := p) (q := 0) (names := none) h
  simp only [namesAt, pur_true, sep_emp] at this
  exact this

end

end Osl.Mem
