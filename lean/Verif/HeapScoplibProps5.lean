import Verif.HeapScoplibProps4
import Verif.HeapPrintTopProps3
import Verif.HeapIntProps
/-!
# Printing in the SCoPLib format in memory (C79): scops
-/

set_option linter.unusedSectionVars false

namespace Osl.Mem

open Osl.Ext

variable [Allocator] {D : Type} {L : ScoplibLib D} {c : Cfg} {O : DataMem D L.toEnv}

/-- How the data is seen by `osl_scop_print_scoplib` (specification): the casts of `osl_scop_print`, and the text of the arrays (source/generic.c:209-211). -/
structure ScoplibView (L : ScoplibLib D) (O : DataMem D L.toEnv) : Prop where
  text : TextView L.toTextLib O
  arraysText : ∀ {d r}, L.arraysText d = .ok r → ∃ a, (∀ p, O.at_ p d = arraysAt p a) ∧ Arrays.sprint (some a) = .ok r

/-- The relations of a scop can be printed in the SCoPLib format (specification): their values can be stored in their precisions. -/
def ScopFitsScoplib (c : Cfg) (s : Scop D) : Prop := RelFits c s.context ∧ ∀ x ∈ s.statement, StmtFits c x

/-! ## The options -/

omit [Allocator] in
/-- The text of the options (specification). -/
def optionsOf : Option Str → Str
  | none => []
  | some t => "<arrays>\n".toList ++ (t ++ "</arrays>\n".toList)

theorem optionsText_spec {q : Ptr} {t : Option Str} : Triple (uriAt q t) (optionsText q) (fun u => pur (u = optionsOf t)) := by
  unfold optionsText
  cases t with
  | none =>
    refine Triple.of_fact (φ := q = 0) (fun h hh => hh.1) (fun hq => ?_)
    rw [if_neg (by simp [hq])]
    exact Triple.ret (fun h hh => ⟨rfl, hh.2⟩)
  | some w =>
    refine Triple.of_fact (φ := q ≠ 0) (fun h hh => pto_ne h hh) (fun hq => ?_)
    rw [if_pos hq]
    show Triple (q ↦ .chars w) _ _
    unfold optionsOf
    generalize "<arrays>\n".toList = s1
    generalize "</arrays>\n".toList = s2
    hstep writeFree_spec
    hret

/-- C79: `osl_generic_print_options_scoplib` writes the text of the arrays found in the list; the list is unchanged and the string is freed. -/
theorem generic_print_options_scoplib_memory (T : ScoplibView L O) {l : GList D} {p : Ptr} {t : Str} (h : GList.print_options_scoplib L l = .ok t) :
    Triple (glistAt O p l) (genPrintOptions p) (fun s => pur (s = t) ∗ glistAt O p l) := by
  unfold GList.print_options_scoplib at h
  obtain ⟨o, ho, h⟩ := Out.bind_eq_ok.mp h
  have ht : t = optionsOf o := by
    cases o <;> (injection h with h; exact h.symm)
  subst ht
  unfold genPrintOptions
  refine Triple.bind (genFind_borrow (O := O) (t := URI_ARRAYS) (l := l) (p := p)) (fun y => ?_)
  obtain ⟨d, hat, hs⟩ : ∃ d : Option Arrays, O.opt y (GList.lookup l URI_ARRAYS) = optAt arraysAt y d ∧ Arrays.sprint d = .ok o := by
    cases hlk : GList.lookup l URI_ARRAYS with
    | none =>
      rw [hlk] at ho
      exact ⟨none, rfl, ho⟩
    | some x =>
      rw [hlk] at ho
      obtain ⟨a, h1, h2⟩ := T.arraysText ho
      exact ⟨some a, h1 y, h2⟩
  rw [hat]
  hstep (arrays_sprint_memory hs)
  refine Triple.last (F := optAt arraysAt y d ∗ wand (optAt arraysAt y d) (glistAt O p l)) (optionsText_spec (q := string) (t := o)) (by ac_rfl) (fun u h hh => ?_)
  obtain ⟨hu, hh⟩ := pur_sep_iff.mp hh
  refine pur_sep_iff.mpr ⟨hu, ?_⟩
  have := wand_back (A := optAt arraysAt y d) (B := glistAt O p l) (F := emp) (by rw [sep_emp]; exact hh)
  rwa [sep_emp] at this

theorem scopOptionsScoplib_spec (T : ScoplibView L O) {l : GList D} {p : Ptr} {t : Str} (h : Scops.printOptionsScoplib L l = .ok t) :
    Triple (glistAt O p l) (scopOptionsScoplib p) (fun s => pur (s = t) ∗ glistAt O p l) := by
  unfold scopOptionsScoplib
  cases l with
  | nil =>
    cases h
    refine Triple.of_fact (φ := p = 0) (fun h hh => hh.1) (fun he => ?_)
    rw [if_neg (by simp [he])]
    exact Triple.ret (fun h hh => pur_sep_iff.mpr ⟨rfl, hh⟩)
  | cons g l =>
    unfold Scops.printOptionsScoplib at h
    obtain ⟨t, h1, h⟩ := Out.bind_eq_ok.mp h
    refine Triple.of_fact (φ := p ≠ 0) (fun h hh => Chain.list_cons_ne hh) (fun he => ?_)
    rw [if_pos he]
    refine Triple.bind (generic_print_options_scoplib_memory T h1) (fun a => Triple.fact (fun ha => ?_))
    subst ha
    simp only [Out.pure_eq, Out.ok.injEq] at h
    exact Triple.ret (fun _ hh => pur_sep_iff.mpr ⟨h, hh⟩)

/-! ## The parameters -/

theorem scopParamsScoplib_spec {L : TextLib D} {O : DataMem D L.toEnv} (T : TextView L O) {g : Ptr} {m : List (Generic D × Ptr × Ptr)} {s : Scop D} (hm : m.map (·.1) = s.parameters) {t : Str}
    (h : Scops.printParamsScoplib L s = .ok t) : Triple ((pinChain O).list g m) (scopParamsScoplib g) (fun u => pur (u = t) ∗ (pinChain O).list g m) := by
  unfold scopParamsScoplib
  unfold Scops.printParamsScoplib at h
  rw [← hm] at h
  cases m with
  | nil =>
    cases h
    refine Triple.of_fact (φ := g = 0) (fun h hh => hh.1) (fun he => ?_)
    rw [if_neg (by simp [he])]
    exact Triple.ret (fun h hh => pur_sep_iff.mpr ⟨rfl, hh⟩)
  | cons gm m =>
    obtain ⟨⟨i, d⟩, u, y⟩ := gm
    refine Triple.of_fact (φ := g ≠ 0) (fun h hh => Chain.list_cons_ne hh) (fun he => ?_)
    rw [if_pos he]
    obtain ⟨ps, h0, h⟩ := Out.bind_eq_ok.mp h
    obtain ⟨w, h1, h⟩ := Out.bind_eq_ok.mp h
    simp only [Out.pure_eq, Out.ok.injEq] at h
    subst h
    obtain ⟨F, hF⟩ : ∃ F : Assn, contentAt O u y ⟨i, d⟩ = (stringsAt y ps ∗ F) := by
      cases i with
      | none =>
        rw [contentAt_none]
        cases d with
        | none =>
          cases h0
          refine ⟨pur (u = 0), ?_⟩
          show _ = (pur (y = 0) ∗ pur (u = 0))
          funext hp
          refine propext ⟨fun hh => pur_sep_iff.mpr ⟨hh.1.2.1, hh.1.1, hh.2⟩, fun hh => ?_⟩
          obtain ⟨h1, h2⟩ := pur_sep_iff.mp hh
          exact ⟨⟨h2.1, h1, rfl⟩, h2.2⟩
        | some d =>
          refine ⟨pur False, ?_⟩
          funext hp
          refine propext ⟨fun hh => (by cases hh.1.2.2), fun hh => ?_⟩
          rw [sep_comm] at hh
          exact (pur_sep_iff.mp hh).1.elim
      | some i =>
        refine ⟨pur (O.fits i.fns d) ∗ ifacesAt u [i], ?_⟩
        have hd : O.opt y d = stringsAt y ps := by
          cases d with
          | none =>
            cases h0
            rfl
          | some d =>
            have h0 : (match L.strings d with | some s => Out.ok (some s) | none => .ub) = .ok ps := h0
            cases hsd : L.strings d with
            | none => rw [hsd] at h0; cases h0
            | some w =>
              rw [hsd] at h0
              cases h0
              exact T.strings hsd y
        rw [contentAt_some, hd]
        ac_rfl
    rw [Chain.list_cons]
    generalize "# Parameter names\n".toList = lit
    refine Triple.opened_all (fun h0 hh => ?_)
    obtain ⟨n, hh⟩ := hh
    have e : (genPinAt O g (⟨i, d⟩, u, y) n ∗ (pinChain O).list n m) = (g ↦ .ptrs [u, y, n] ∗ stringsAt y ps ∗ F ∗ (pinChain O).list n m) := by
      unfold genPinAt
      dsimp only
      rw [hF]
      ac_rfl
    refine ⟨genPinAt O g (⟨i, d⟩, u, y) n ∗ (pinChain O).list n m, hh, ?_⟩
    refine Triple.post (Q := fun x => pur (x = lit ++ w) ∗ (genPinAt O g (⟨i, d⟩, u, y) n ∗ (pinChain O).list n m)) ?_ (fun x h hh => ?_)
    · rw [e]
      hstep (getField_spec (p := g) (i := 1) (x := y) rfl)
      hstep (strings_print_memory h1)
      hret
    · obtain ⟨hx, hh⟩ := pur_sep_iff.mp hh
      exact pur_sep_iff.mpr ⟨hx, n, hh⟩

/-! ## The text of one scop -/

theorem scopTextScoplib_spec (hc : c.Valid) (T : ScoplibView L O) {s : Scop D} (hs : ScopFitsScoplib c s) {p l x g st r e n q : Ptr} {v : Nat → Ptr} {nm : Names}
    {W G F1 F2 : Assn} (hN : W = (namesPin v q nm ∗ F1)) (hG : W = (G ∗ F2)) {ctx par ts te : Str} {b : Bool}
    (hp : Triple G (scopParamsScoplib g) (fun t => pur (t = par) ∗ G)) (hb : Query G (genListIs URI_STRINGS g) b)
    (h1 : Rel.spprint_scoplib c s.context (some nm) false false = .ok ctx) (h2 : Stmts.pprint_scoplib c L.toLib s.statement (some nm) = .ok ts)
    (h3 : Scops.printOptionsScoplib L s.extension = .ok te) :
    Triple (p ↦ .node [s.version] [l, x, g, st, r, e, n] ∗ uriAt l s.language ∗ relAt c x s.context ∗ stmtsAt c O st s.statement ∗ glistAt O e s.extension ∗ W)
      (scopTextScoplib c q p)
      (fun t => pur (t = scopScoplibText (Scops.languageText s) ctx b par s.statement.length ts te) ∗
        p ↦ .node [s.version] [l, x, g, st, r, e, n] ∗ uriAt l s.language ∗ relAt c x s.context ∗ stmtsAt c O st s.statement ∗ glistAt O e s.extension ∗ W) := by
  have hctx := relation_pprint_scoplib_pin (c := c) hc (p := x) (q := q) (v := v) (names := some nm) hs.1 h1
  have hst := statement_pprint_scoplib_pin (L := L.toLib) (O := O) hc T.text.body hs.2 (p := st) (q := q) (v := v) (names := some nm) h2
  simp only [namesOpt] at hctx hst
  have hctx : Triple (W ∗ relAt c x s.context) (relPprintScoplib c x q false false) (fun t => pur (t = ctx) ∗ W ∗ relAt c x s.context) := by
    rw [hN]
    hlast hctx
    hret
  have hst : Triple (W ∗ stmtsAt c O st s.statement) (stmtPprintScoplib c st q) (fun t => pur (t = ts) ∗ W ∗ stmtsAt c O st s.statement) := by
    rw [hN]
    hlast hst
    hret
  have hp : Triple W (scopParamsScoplib g) (fun t => pur (t = par) ∗ W) := by
    rw [hG]
    hlast hp
    hret
  have hb : Query W (genListIs URI_STRINGS g) b := by
    rw [hG]
    exact hb.left
  unfold scopTextScoplib
  hstep (getPtr_spec (p := p) (i := 0) (x := l) rfl)
  hstep (languageTextAt_spec (l := l) (o := s.language))
  hstep (getPtr_spec (p := p) (i := 1) (x := x) rfl)
  hstep hctx
  hstep (getPtr_spec (p := p) (i := 2) (x := g) rfl)
  hstep hb.triple
  hstep hp
  hstep (getPtr_spec (p := p) (i := 3) (x := st) rfl)
  hstep ((statement_number_query (c := c) (O := O) (p := st) (l := s.statement)).triple)
  hstep hst
  hstep (getPtr_spec (p := p) (i := 5) (x := e) rfl)
  hstep (scopOptionsScoplib_spec T (p := e) h3)
  unfold Scops.languageText
  hret

/-- What follows the choice of the names of the parameters. -/
theorem scopTailScoplib_spec (hc : c.Valid) (T : ScoplibView L O) {s : Scop D} (hs : ScopFitsScoplib c s) {p l x g st r e n q bk : Ptr} {v : Nat → Ptr} {nm : Names}
    {W F1 F2 : (Nat → Ptr) → Names → Assn} {G : Assn} {f : (Nat → Ptr) → Nat → Ptr} {k : Names → Names} {b : Bool} {text : Str}
    (hN : ∀ v nm, W v nm = (namesPin (f v) q (k nm) ∗ F1 v nm)) (hG : ∀ v nm, W v nm = (G ∗ F2 v nm))
    (hA : ∀ v nm y s, Triple (W v nm ∗ stringsAt y s) (namesSwap q 4 y) (fun b => pur (b = v 4) ∗ W (pinSet v 4 y) { nm with arrays := s } ∗ stringsAt (v 4) nm.arrays))
    (hB : ∀ v' nm, v' 0 = v 0 → Triple (W v' nm) (scopRestoreParams q b bk) (fun _ => namesPin v' q nm ∗ G)) (hk : ∀ nm s, k { nm with arrays := s } = { k nm with arrays := s })
    {n2 : Names} {ctx par ts te : Str} (hn : Scops.withArrays L.toTextLib s (k nm) = .ok n2)
    (hp : Triple G (scopParamsScoplib g) (fun t => pur (t = par) ∗ G)) (hb : Query G (genListIs URI_STRINGS g) b)
    (h1 : Rel.spprint_scoplib c s.context (some n2) false false = .ok ctx) (h2 : Stmts.pprint_scoplib c L.toLib s.statement (some n2) = .ok ts) (h3 : Scops.printOptionsScoplib L s.extension = .ok te) :
    Triple (p ↦ .node [s.version] [l, x, g, st, r, e, n] ∗ uriAt l s.language ∗ relAt c x s.context ∗ stmtsAt c O st s.statement ∗ glistAt O e s.extension ∗ W v nm)
      (do
        let e ← getPtr p 5
        let arrays ← genFind URI_ARRAYS e
        let old ← scopUseArrays q arrays
        let t ← scopTextScoplib c q p
        scopRestoreParams q b bk
        scopRestoreArrays q arrays old
        pure (text ++ t))
      (fun t => pur (t = text ++ scopScoplibText (Scops.languageText s) ctx b par s.statement.length ts te) ∗
        p ↦ .node [s.version] [l, x, g, st, r, e, n] ∗ uriAt l s.language ∗ relAt c x s.context ∗ stmtsAt c O st s.statement ∗ glistAt O e s.extension ∗ namesPin v q nm ∗ G) := by
  have ht := fun v nm h1 h2 => scopTextScoplib_spec hc T hs (p := p) (l := l) (x := x) (g := g) (st := st) (r := r) (e := e) (n := n) (q := q) (v := f v) (nm := k nm)
    (hN v nm) (hG v nm) (ctx := ctx) (ts := ts) hp hb h1 h2 h3
  generalize hX : scopScoplibText (Scops.languageText s) ctx b par s.statement.length ts te = X at ht ⊢
  hstep (getPtr_spec (p := p) (i := 5) (x := e) rfl)
  refine Triple.bind (Q := fun y => O.opt y (GList.lookup s.extension URI_ARRAYS) ∗ wand (O.opt y (GList.lookup s.extension URI_ARRAYS)) (glistAt O e s.extension) ∗
    p ↦ .node [s.version] [l, x, g, st, r, e, n] ∗ uriAt l s.language ∗ relAt c x s.context ∗ stmtsAt c O st s.statement ∗ W v nm) ?_ (fun y => ?_)
  · hlast (genFind_borrow (O := O) (t := URI_ARRAYS) (l := s.extension) (p := e))
    hret
  unfold Scops.withArrays at hn
  cases hlk : GList.lookup s.extension URI_ARRAYS with
  | none =>
    rw [hlk] at hn
    cases hn
    refine Triple.frame_fact (P := O.opt y none) (φ := y = 0) (fun h hh => hh.1) (fun hy => ?_)
    subst hy
    refine Triple.pre (P := glistAt O e s.extension ∗ p ↦ .node [s.version] [l, x, g, st, r, e, n] ∗ uriAt l s.language ∗ relAt c x s.context ∗ stmtsAt c O st s.statement ∗ W v nm) ?_
      (fun h hh => wand_back hh)
    have use : Triple emp (scopUseArrays q 0) (fun _ => emp) := by
      unfold scopUseArrays
      rw [if_neg (by simp)]
      exact Triple.ret (fun _ h => h)
    have back : ∀ o, Triple emp (scopRestoreArrays q 0 o) (fun _ => emp) := by
      intro o
      unfold scopRestoreArrays
      rw [if_neg (by simp)]
      exact Triple.ret (fun _ h => h)
    hstep use
    hstep (ht v nm h1 h2)
    hstep (hB v nm rfl)
    hstep (back _)
    hret
  | some d =>
    rw [hlk] at hn
    dsimp only at hn
    obtain ⟨a, ha, hn⟩ := Out.bind_eq_ok.mp hn
    cases hn
    obtain ⟨arr, hat, hto⟩ := T.text.arrays ha
    have ho : O.opt y (some d) = arraysAt y arr := hat y
    rw [ho]
    refine Triple.frame_fact (P := arraysAt y arr) (φ := y ≠ 0) (fun h hh => arraysAt_ne h hh) (fun hy => ?_)
    have use : Triple (arraysAt y arr ∗ W v nm) (scopUseArrays q y)
        (fun b => pur (b = v 4) ∗ ex fun z => arraysAt y arr ∗ W (pinSet v 4 z) { nm with arrays := a } ∗ stringsAt (v 4) nm.arrays) := by
      unfold scopUseArrays
      rw [if_pos hy]
      refine Triple.step (F := W v nm) (arrays_to_strings_memory hto) rfl (fun z => ?_)
      refine Triple.last (F := arraysAt y arr) (hA v nm z a) (by ac_rfl) (fun b h hh => ?_)
      have hh : (pur (b = v 4) ∗ (arraysAt y arr ∗ W (pinSet v 4 z) { nm with arrays := a } ∗ stringsAt (v 4) nm.arrays)) h := hh.perm (by ac_rfl)
      obtain ⟨h1, h2⟩ := pur_sep_iff.mp hh
      exact pur_sep_iff.mpr ⟨h1, z, h2⟩
    refine Triple.bind (Q := fun o => pur (o = v 4) ∗ ex fun z => glistAt O e s.extension ∗ p ↦ .node [s.version] [l, x, g, st, r, e, n] ∗ uriAt l s.language ∗ relAt c x s.context ∗
      stmtsAt c O st s.statement ∗ W (pinSet v 4 z) { nm with arrays := a } ∗ stringsAt (v 4) nm.arrays) ?_ (fun o => Triple.fact (fun ho => Triple.exi (fun z => ?_)))
    · refine Triple.last (F := wand (arraysAt y arr) (glistAt O e s.extension) ∗ p ↦ .node [s.version] [l, x, g, st, r, e, n] ∗ uriAt l s.language ∗ relAt c x s.context ∗
        stmtsAt c O st s.statement) use (by ac_rfl) (fun b h hh => ?_)
      rw [sep_assoc] at hh
      obtain ⟨hb4, hh⟩ := pur_sep_iff.mp hh
      rw [ex_sep] at hh
      obtain ⟨z, hh⟩ := hh
      refine pur_sep_iff.mpr ⟨hb4, z, ?_⟩
      exact wand_back (A := arraysAt y arr) (hh.perm (by ac_rfl))
    · subst ho
      have hh := ht (pinSet v 4 z) { nm with arrays := a } (by rw [hk]; exact h1) (by rw [hk]; exact h2)
      hstep hh
      hstep (hB (pinSet v 4 z) { nm with arrays := a } rfl)
      hstep (scopRestoreArrays_spec (v := v) (y := z) (a := y) (nm := nm) (s := a) hy)
      hret

/-! ## One scop -/

theorem scopScoplib_text {nm : Names} {s : Scop D} {t : Str} (h : Scops.printOneScoplib c L nm s = .ok t) :
    ∃ n1 n2 ctx par ts te, Scops.withParams L.toTextLib s nm = .ok n1 ∧ Scops.withArrays L.toTextLib s n1 = .ok n2 ∧ Rel.spprint_scoplib c s.context (some n2) false false = .ok ctx ∧
      Scops.printParamsScoplib L.toTextLib s = .ok par ∧ Stmts.pprint_scoplib c L.toLib s.statement (some n2) = .ok ts ∧ Scops.printOptionsScoplib L s.extension = .ok te ∧
      t = scopScoplibText (Scops.languageText s) ctx (Scops.hasURI s.parameters URI_STRINGS) par s.statement.length ts te := by
  unfold Scops.printOneScoplib at h
  obtain ⟨n1, h1, h⟩ := Out.bind_eq_ok.mp h
  obtain ⟨n2, h2, h⟩ := Out.bind_eq_ok.mp h
  obtain ⟨ctx, h3, h⟩ := Out.bind_eq_ok.mp h
  obtain ⟨par, h4, h⟩ := Out.bind_eq_ok.mp h
  obtain ⟨ts, h5, h⟩ := Out.bind_eq_ok.mp h
  obtain ⟨te, h6, h⟩ := Out.bind_eq_ok.mp h
  refine ⟨n1, n2, ctx, par, ts, te, h1, h2, h3, h4, h5, h6, ?_⟩
  simp only [Out.pure_eq, Out.ok.injEq] at h
  rw [← h]
  rfl

/-- One turn of the loop of `osl_scop_print_scoplib`. -/
theorem scopOneScoplib_spec (hc : c.Valid) (T : ScoplibView L O) {s : Scop D} (hs : ScopFitsScoplib c s) {p n q : Ptr} {v : Nat → Ptr} {nm : Names}
    {text t : Str} (h : Scops.printOneScoplib c L nm s = .ok t) :
    Triple (scopAt c O p s n ∗ namesPin v q nm) (scopOneScoplib c q p text) (fun z => pur (z = text ++ t) ∗ scopAt c O p s n ∗ namesPin v q nm) := by
  obtain ⟨n1, n2, ctx, par, ts, te, h1, h2, h3, h4, h5, h6, ht⟩ := scopScoplib_text h
  subst ht
  generalize hX : scopScoplibText (Scops.languageText s) ctx (Scops.hasURI s.parameters URI_STRINGS) par s.statement.length ts te = X
  unfold scopOneScoplib
  refine Triple.opened (fun h0 hh => ?_)
  obtain ⟨l, x, g, st, r, e, hh⟩ := hh
  refine ⟨p ↦ .node [s.version] [l, x, g, st, r, e, n] ∗ uriAt l s.language ∗ relAt c x s.context ∗ glistAt O g s.parameters ∗ stmtsAt c O st s.statement ∗ ifacesAt r s.registry ∗
    glistAt O e s.extension, hh, ?_⟩
  clear hh h0
  refine Triple.pre (P := glistAt O g s.parameters ∗ p ↦ .node [s.version] [l, x, g, st, r, e, n] ∗ uriAt l s.language ∗ relAt c x s.context ∗ stmtsAt c O st s.statement ∗
    ifacesAt r s.registry ∗ glistAt O e s.extension ∗ namesPin v q nm) ?_ (fun h hh => hh.perm (by ac_rfl))
  refine Triple.opened (fun h0 hh => ?_)
  obtain ⟨m, hm, hh⟩ := glist_pin hh
  refine ⟨(pinChain O).list g m, hh, ?_⟩
  have hpr : Triple ((pinChain O).list g m) (scopParamsScoplib g) (fun s => pur (s = par) ∗ (pinChain O).list g m) := scopParamsScoplib_spec T.text hm h4
  have hq : Query ((pinChain O).list g m) (genListIs URI_STRINGS g) (Scops.hasURI s.parameters URI_STRINGS) := by
    have := genListIs_pin (O := O) (p := g) (m := m) (t := URI_STRINGS)
    rwa [hm] at this
  have close : ∀ h, ((pinChain O).list g m ∗ p ↦ .node [s.version] [l, x, g, st, r, e, n] ∗ uriAt l s.language ∗ relAt c x s.context ∗ stmtsAt c O st s.statement ∗
      glistAt O e s.extension ∗ ifacesAt r s.registry ∗ namesPin v q nm) h →
      (scopAt c O p s n ∗ namesPin v q nm) h := by
    intro h hh
    have hh := sep_mono (P' := glistAt O g s.parameters) (fun h hx => by rw [← hm]; exact glist_unpin hx) (fun _ h => h) hh
    refine sep_mono (P := p ↦ .node [s.version] [l, x, g, st, r, e, n] ∗ uriAt l s.language ∗ relAt c x s.context ∗ glistAt O g s.parameters ∗ stmtsAt c O st s.statement ∗
      ifacesAt r s.registry ∗ glistAt O e s.extension) (fun _ hx => ⟨l, x, g, st, r, e, hx⟩) (fun _ h => h) ?_
    exact hh.perm (by ac_rfl)
  hstep (getPtr_spec (p := p) (i := 2) (x := g) rfl)
  hstep hq.triple
  unfold Scops.withParams at h1
  cases hu : Scops.hasURI s.parameters URI_STRINGS with
  | false =>
    rw [hu] at h1 hX hq
    rw [if_neg (by simp)] at h1
    cases h1
    have use : Triple emp (scopUseParams q g false) (fun _ => emp) := by
      unfold scopUseParams
      rw [if_neg (by simp)]
      exact Triple.ret (fun _ h => h)
    hstep use
    have := scopTailScoplib_spec hc T hs (p := p) (l := l) (x := x) (g := g) (st := st) (r := r) (e := e) (n := n) (q := q) (bk := params) (v := v) (nm := nm) (text := text)
      (W := fun v nm => namesPin v q nm ∗ (pinChain O).list g m) (F1 := fun _ _ => (pinChain O).list g m) (F2 := fun v nm => namesPin v q nm) (G := (pinChain O).list g m)
      (f := fun v => v) (k := fun nm => nm) (b := false) (fun _ _ => rfl) (fun _ _ => by rw [sep_comm]) (fun v nm y s => by
        hlast (namesSwap_arrays (v := v) (q := q) (y := y) (nm := nm) (s := s))
        hret) (fun v' nm _ => by
        unfold scopRestoreParams
        rw [if_neg (by simp)]
        exact Triple.ret (fun _ h => h)) (fun _ _ => rfl) h2 hpr hq h3 h5 h6
    rw [hX] at this
    refine Triple.last (F := ifacesAt r s.registry) this (by ac_rfl) (fun z h hh => ?_)
    rw [sep_assoc] at hh
    obtain ⟨hz, hh⟩ := pur_sep_iff.mp hh
    exact pur_sep_iff.mpr ⟨hz, close h (hh.perm (by ac_rfl))⟩
  | true =>
    rw [hu] at h1 hX hq
    rw [if_pos rfl] at h1
    obtain ⟨ps, h0, h1⟩ := Out.bind_eq_ok.mp h1
    cases h1
    cases m with
    | nil =>
      rw [← hm] at hu
      cases hu
    | cons gm m =>
      obtain ⟨⟨i, d⟩, u, y⟩ := gm
      rw [← hm] at hu h0
      cases i with
      | none => cases hu
      | some i =>
        have hd : O.opt y d = stringsAt y ps := by
          cases d with
          | none =>
            cases h0
            rfl
          | some d =>
            have h0 : (match L.strings d with | some s => Out.ok (some s) | none => .ub) = .ok ps := h0
            cases hsd : L.strings d with
            | none => rw [hsd] at h0; cases h0
            | some w =>
              rw [hsd] at h0
              cases h0
              exact T.text.strings hsd y
        generalize hGr : (ex fun n => g ↦ .ptrs [u, y, n] ∗ pur (O.fits i.fns d) ∗ ifacesAt u [i] ∗ (pinChain O).list n m) = Gr
        have hlist : (pinChain O).list g ((⟨some i, d⟩, u, y) :: m) = (Gr ∗ stringsAt y ps) := by
          rw [Chain.list_cons, ← hGr, ex_sep]
          congr 1
          funext n
          show (genPinAt O g (⟨some i, d⟩, u, y) n ∗ _) = _
          unfold genPinAt
          dsimp only
          rw [contentAt_some, hd]
          ac_rfl
        have use : Triple ((pinChain O).list g ((⟨some i, d⟩, u, y) :: m) ∗ namesPin v q nm) (scopUseParams q g true)
            (fun b => pur (b = v 0) ∗ Gr ∗ namesPin (pinSet v 0 y) q { nm with parameters := ps } ∗ stringsAt (v 0) nm.parameters) := by
          unfold scopUseParams
          rw [if_pos rfl]
          have get : Triple Gr (getField g 1) (fun z => pur (z = y) ∗ Gr) := by
            rw [← hGr]
            refine Triple.exi (fun n => ?_)
            refine Triple.last (F := pur (O.fits i.fns d) ∗ ifacesAt u [i] ∗ (pinChain O).list n m) (getField_spec (p := g) (i := 1) (x := y) rfl) rfl (fun z h hh => ?_)
            rw [sep_assoc] at hh
            obtain ⟨hz, hh⟩ := pur_sep_iff.mp hh
            exact pur_sep_iff.mpr ⟨hz, n, hh⟩
          rw [hlist]
          hstep get
          hlast (namesSwap_params (v := v) (q := q) (y := y) (nm := nm) (s := ps))
          hret
        hstep use
        have := scopTailScoplib_spec hc T hs (p := p) (l := l) (x := x) (g := g) (st := st) (r := r) (e := e) (n := n) (q := q) (bk := v 0) (v := v) (nm := nm) (text := text)
          (W := fun v nm => Gr ∗ namesPin (pinSet v 0 y) q { nm with parameters := ps } ∗ stringsAt (v 0) nm.parameters) (F1 := fun v nm => Gr ∗ stringsAt (v 0) nm.parameters)
          (F2 := fun v nm => q ↦ .ptrs [y, v 1, v 2, v 3, v 4] ∗ stringsAt (v 1) nm.iterators ∗ stringsAt (v 2) nm.scatt_dims ∗ stringsAt (v 3) nm.local_dims ∗
            stringsAt (v 4) nm.arrays ∗ stringsAt (v 0) nm.parameters) (G := (pinChain O).list g ((⟨some i, d⟩, u, y) :: m))
          (f := fun v => pinSet v 0 y) (k := fun nm => { nm with parameters := ps }) (b := true) (fun _ _ => by ac_rfl) (fun v nm => by
            rw [hlist]
            show (Gr ∗ (q ↦ .ptrs [y, v 1, v 2, v 3, v 4] ∗ stringsAt y ps ∗ stringsAt (v 1) nm.iterators ∗ stringsAt (v 2) nm.scatt_dims ∗ stringsAt (v 3) nm.local_dims ∗
              stringsAt (v 4) nm.arrays) ∗ stringsAt (v 0) nm.parameters) = _
            ac_rfl) (fun v nm z s => by
            have := namesSwap_arrays (v := pinSet v 0 y) (q := q) (y := z) (nm := { nm with parameters := ps }) (s := s)
            rw [pinSet_comm] at this
            refine Triple.last (F := Gr ∗ stringsAt (v 0) nm.parameters) this (by ac_rfl) (fun b h hh => ?_)
            exact hh.perm (by show ((_ ∗ _ ∗ stringsAt (v 4) nm.arrays) ∗ _) = (_ ∗ (_ ∗ _ ∗ stringsAt (v 0) nm.parameters) ∗ _); ac_rfl)) (fun v' nm hv => by
            unfold scopRestoreParams
            rw [if_pos rfl, hlist, ← hv]
            refine Triple.last (F := Gr) (namesBack_params (v := v') (q := q) (y := y) (nm := nm) (s := ps)) (by ac_rfl) (fun _ h hh => hh.perm (by ac_rfl))) (fun _ _ => rfl) h2 hpr hq h3 h5 h6
        rw [hX] at this
        refine Triple.last (F := ifacesAt r s.registry) this (by ac_rfl) (fun z h hh => ?_)
        rw [sep_assoc] at hh
        obtain ⟨hz, hh⟩ := pur_sep_iff.mp hh
        exact pur_sep_iff.mpr ⟨hz, close h (hh.perm (by ac_rfl))⟩

/-! ## Lists of scops -/

/-- What one turn of the loop does, on values. -/
def scopStepScoplib (c : Cfg) (L : ScoplibLib D) (nm : Names) (s : Scop D) (_ : Bool) (x : Str) : Out Str := do
  let u ← Scops.printOneScoplib c L nm s
  return x ++ u

theorem scopLoopScoplib_fold {nm : Names} : ∀ {l : Scops D} {t u : Str}, Scops.printLoopScoplib c L nm l = .ok u → foldOut (scopStepScoplib c L nm) l t = .ok (t ++ u)
  | [], t, u, h => by
    cases h
    simp [foldOut]
  | s :: l, t, u, h => by
    unfold Scops.printLoopScoplib at h
    obtain ⟨a, h1, h⟩ := Out.bind_eq_ok.mp h
    obtain ⟨b, h2, h⟩ := Out.bind_eq_ok.mp h
    simp only [Out.pure_eq, Out.ok.injEq] at h
    subst h
    refine Out.bind_eq_ok.mpr ⟨t ++ a, ?_, ?_⟩
    · show (Scops.printOneScoplib c L nm s >>= fun u => _) = _
      rw [h1]
      rfl
    · rw [scopLoopScoplib_fold (l := l) h2, List.append_assoc]

/-- The loop of `osl_scop_print_scoplib`. -/
theorem scopWalkScoplib_spec (hc : c.Valid) (T : ScoplibView L O) {l : Scops D} (hl : ∀ s ∈ l, ScopFitsScoplib c s) {p q : Ptr} {v : Nat → Ptr} {nm : Names} {t : Str}
    (h : Scops.printLoopScoplib c L nm l = .ok t) :
    Triple (scopsAt c O p l ∗ namesPin v q nm) (walk scopNext (scopOneScoplib c q) p []) (fun x => pur (x = t) ∗ scopsAt c O p l ∗ namesPin v q nm) := by
  have hw := walk_spec (N := scopChain c O) (act := scopOneScoplib c q) (g := scopStepScoplib c L nm) (A := fun (x y : Str) => pur (x = y) ∗ namesPin v q nm) (p := p) (s := [])
    (t := []) (l := l) (fun s hs p n x y y' hy => by
      obtain ⟨u, h1, hy⟩ := Out.bind_eq_ok.mp hy
      simp only [Out.pure_eq, Out.ok.injEq] at hy
      subst hy
      refine Triple.pre (P := pur (x = y) ∗ scopAt c O p s n ∗ namesPin v q nm) (Triple.fact (fun hxy => ?_)) (fun h hh => hh.perm (by show ((scopAt c O p s n) ∗ _) = _; ac_rfl))
      subst hxy
      refine (scopOneScoplib_spec hc T (hl s hs) (p := p) (n := n) (q := q) (v := v) h1).post (fun z h hh => ?_)
      exact hh.perm (by show _ = (scopAt c O p s n ∗ _); ac_rfl)) (scopLoopScoplib_fold (t := []) h)
  refine (hw.pre (fun h hh => ?_)).post (fun x h hh => ?_)
  · rw [pur_true rfl, emp_sep]
    exact hh
  · exact hh.perm (by show ((scopsAt c O p l) ∗ _) = _; rw [List.nil_append]; ac_rfl)

/-- C79: `osl_scop_print_scoplib` writes the text of the scops; the scops are unchanged, everything which it allocates is freed. -/
theorem scop_print_scoplib_memory (hc : c.Valid) (T : ScoplibView L O) {l : Scops D} (hl : ∀ s ∈ l, ScopFitsScoplib c s) {p : Ptr} {release t : Str}
    (h : Scops.print_scoplib c L release l = .ok t) :
    Triple (scopsAt c O p l) (scopPrintScoplib c release p) (fun s => pur (s = t) ∗ scopsAt c O p l) := by
  unfold scopPrintScoplib
  cases l with
  | nil =>
    simp only [Scops.print_scoplib, Out.ok.injEq] at h
    refine Triple.of_fact (φ := p = 0) (fun h hh => hh.1) (fun hp => ?_)
    rw [if_pos hp]
    exact Triple.ret (fun _ hh => pur_sep_iff.mpr ⟨h, hh⟩)
  | cons s l =>
    simp only [Scops.print_scoplib] at h
    obtain ⟨b, h1, h⟩ := Out.bind_eq_ok.mp h
    cases b with
    | false => cases h
    | true =>
    rw [if_pos rfl] at h
    obtain ⟨nm, h2, h⟩ := Out.bind_eq_ok.mp h
    obtain ⟨u, h3, h⟩ := Out.bind_eq_ok.mp h
    simp only [Out.pure_eq, Out.ok.injEq] at h
    refine Triple.of_fact (φ := p ≠ 0) (fun h hh => Chain.list_cons_ne hh) (fun hp => ?_)
    rw [if_neg hp]
    generalize s :: l = k at h1 h2 h3 hl
    show Triple (scopsAt c O p k) _ _
    refine Triple.bind (scop_check_compatible_scoplib_query (O := O) T.text.bodies (p := p) h1).triple (fun ok => Triple.fact (fun hok => ?_))
    subst hok
    rw [if_pos rfl]
    refine Triple.bind (scopNames_spec (O := O) (p := p) h2) (fun x => ?_)
    rw [namesAt_pin, sep_ex]
    refine Triple.exi (fun w => ?_)
    refine Triple.bind (Q := fun r => pur (r = u) ∗ namesAt x (some nm) ∗ scopsAt c O p k) ?_ (fun r => Triple.fact (fun hr => ?_))
    · refine (scopWalkScoplib_spec hc T hl (p := p) (q := x) (v := w) h3).post (fun r h hh => ?_)
      obtain ⟨hr, hh⟩ := pur_sep_iff.mp hh
      rw [namesAt_pin]
      refine pur_sep_iff.mpr ⟨hr, ?_⟩
      rw [sep_comm] at hh
      exact sep_mono (fun _ hx => ⟨w, hx⟩) (fun _ h => h) hh
    hstep (names_free_memory x (some nm))
    subst hr
    exact Triple.ret (fun _ hh => pur_sep_iff.mpr ⟨h, hh⟩)

/-- C79: the program ends on the scops which the compatibility check refuses, whatever is in the memory around them. -/
theorem scop_print_scoplib_refused_memory (T : ScoplibView L O) {l : Scops D} (hne : l ≠ []) {p : Ptr} {release : Str} (h : Scops.check_compatible_scoplib c L.toLib l = .ok false)
    {m : Heap} (hm : (scopsAt c O p l ∗ anything) m.get) : scopPrintScoplib c release p m = .err := by
  have hp : p ≠ 0 := by
    obtain ⟨h1, h2, _, _, ha, _⟩ := hm
    cases l with
    | nil => exact absurd rfl hne
    | cons s l => exact Chain.list_cons_ne ha
  have hq := scop_check_compatible_scoplib_query (O := O) T.text.bodies (p := p) h m hm
  unfold scopPrintScoplib
  rw [if_neg hp]
  rw [bind_ok hq, if_neg (by simp)]
  rfl

end Osl.Mem
