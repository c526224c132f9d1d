import Verif.HeapPrintTopProps2
/-!
# Printing scops in memory (C74): the scops
-/

set_option linter.unusedSectionVars false

namespace Osl.Mem

open Osl.Ext

variable [Allocator] {D : Type} {L : TextLib D} {c : Cfg} {O : DataMem D L.toEnv}

/-- How the data is seen by `osl_scop_print` (specification): the casts of source/scop.c:234, 238, source/statement.c:212, and those of the integrity check. -/
structure TextView (L : TextLib D) (O : DataMem D L.toEnv) : Prop where
  body : BodyMem (L := L.toLib) O
  bodies : BodyView (L := L.toLib) O
  strings : ∀ {d s}, L.strings d = some s → ∀ p, O.at_ p d = stringsAt p (some s)
  arrays : ∀ {d r}, L.arraysNames d = .ok r → ∃ a, (∀ p, O.at_ p d = arraysAt p a) ∧ Arrays.to_strings (some a) = .ok r

/-- The relations and the extensions of a scop can be printed (specification): the values of the relations can be stored in their precisions. -/
def ScopFits (c : Cfg) (good : D → Prop) (s : Scop D) : Prop :=
  RelFits c s.context ∧ goodList good s.parameters ∧ StmtsFit c good s.statement ∧ goodList good s.extension

/-! ## The text of one scop -/

theorem languageTextAt_spec {l : Ptr} {o : Option Str} : Triple (uriAt l o) (languageTextAt l) (fun t => pur (t = o.getD "(null)".toList) ∗ uriAt l o) := by
  unfold languageTextAt
  cases o with
  | none =>
    refine Triple.of_fact (φ := l = 0) (fun h hh => hh.1) (fun hl => ?_)
    rw [if_pos hl]
    exact Triple.ret (fun h hh => pur_sep_iff.mpr ⟨rfl, hh⟩)
  | some w =>
    refine Triple.of_fact (φ := l ≠ 0) (fun h hh => pto_ne h hh) (fun hl => ?_)
    rw [if_neg hl]
    show Triple (l ↦ .chars w) _ _
    exact loadChars_spec

theorem scopPrintExts_spec (R : DataPrint O) {e : Ptr} {l : GList D} (hl : goodList R.good l) {te : Str} (h : Scops.printExtension L l = .ok te) :
    Triple (glistAt O e l) (scopPrintExts R.sprint e) (fun t => pur (t = te) ∗ glistAt O e l) := by
  unfold scopPrintExts
  cases l with
  | nil =>
    cases h
    refine Triple.of_fact (φ := e = 0) (fun h hh => hh.1) (fun he => ?_)
    rw [if_neg (by simp [he])]
    exact Triple.ret (fun h hh => pur_sep_iff.mpr ⟨rfl, hh⟩)
  | cons g l =>
    unfold Scops.printExtension at h
    obtain ⟨t, h1, h⟩ := Out.bind_eq_ok.mp h
    refine Triple.of_fact (φ := e ≠ 0) (fun h hh => Chain.list_cons_ne hh) (fun he => ?_)
    rw [if_pos he]
    refine Triple.bind (generic_print_memory R hl h1) (fun a => Triple.fact (fun ha => ?_))
    subst ha
    simp only [Out.pure_eq, Out.ok.injEq] at h
    exact Triple.ret (fun _ hh => pur_sep_iff.mpr ⟨h, hh⟩)

theorem scopPrintText_spec (hc : c.Valid) (T : TextView L O) (R : DataPrint O) {s : Scop D} (hs : ScopFits c R.good s) {p l x g st r e n q : Ptr} {v : Nat → Ptr} {nm : Names}
    {W G F1 F2 : Assn} (hN : W = (namesPin v q nm ∗ F1)) (hG : W = (G ∗ F2)) {ctx par ts te : Str} {b : Bool}
    (hp : Triple G (genPrint R.sprint g) (fun t => pur (t = par) ∗ G)) (hb : Query G (genListIs URI_STRINGS g) b)
    (h1 : Rel.spprint c s.context (some nm) = .ok ctx) (h2 : Stmts.pprint c L.toLib s.statement (some nm) = .ok ts) (h3 : Scops.printExtension L s.extension = .ok te) :
    Triple (p ↦ .node [s.version] [l, x, g, st, r, e, n] ∗ uriAt l s.language ∗ relAt c x s.context ∗ stmtsAt c O st s.statement ∗ glistAt O e s.extension ∗ W)
      (scopPrintText c R.sprint q p)
      (fun t => pur (t = scopText (Scops.languageText s) ctx b par s.statement.length ts te) ∗
        p ↦ .node [s.version] [l, x, g, st, r, e, n] ∗ uriAt l s.language ∗ relAt c x s.context ∗ stmtsAt c O st s.statement ∗ glistAt O e s.extension ∗ W) := by
  have hctx := relation_pprint_pin (c := c) hc (p := x) (q := q) (v := v) (names := some nm) hs.1 h1
  have hst := statement_pprint_pin (L := L.toLib) (O := O) hc T.body R hs.2.2.1 (p := st) (q := q) (v := v) (names := some nm) h2
  simp only [namesOpt] at hctx hst
  have hctx : Triple (W ∗ relAt c x s.context) (relPprint c x q) (fun t => pur (t = ctx) ∗ W ∗ relAt c x s.context) := by
    rw [hN]
    hlast hctx
    hret
  have hst : Triple (W ∗ stmtsAt c O st s.statement) (stmtPprint c R.sprint st q) (fun t => pur (t = ts) ∗ W ∗ stmtsAt c O st s.statement) := by
    rw [hN]
    hlast hst
    hret
  have hp : Triple W (genPrint R.sprint g) (fun t => pur (t = par) ∗ W) := by
    rw [hG]
    hlast hp
    hret
  have hb : Query W (genListIs URI_STRINGS g) b := by
    rw [hG]
    exact hb.left
  unfold scopPrintText
  hstep (getPtr_spec (p := p) (i := 0) (x := l) rfl)
  hstep (languageTextAt_spec (l := l) (o := s.language))
  hstep (getPtr_spec (p := p) (i := 1) (x := x) rfl)
  hstep hctx
  hstep (getPtr_spec (p := p) (i := 2) (x := g) rfl)
  hstep hb.triple
  hstep hp
  hstep (getPtr_spec (p := p) (i := 3) (x := st) rfl)
  hstep ((statement_number_query (c := c) (O := O) (p := st) (l := s.statement)).triple)
  hstep hst
  hstep (getPtr_spec (p := p) (i := 5) (x := e) rfl)
  hstep (scopPrintExts_spec R hs.2.2.2 (e := e) h3)
  unfold Scops.languageText
  hret

/-! ## The names of the arrays -/

theorem optAt_ne {y : Ptr} {d : D} : ∀ h, O.at_ y d h → y ≠ 0 := fun _ hh => O.nonnull hh

/-- What follows the choice of the names of the parameters. -/
theorem scopPrintTail_spec (hc : c.Valid) (T : TextView L O) (R : DataPrint O) {s : Scop D} (hs : ScopFits c R.good s) {p l x g st r e n q bk : Ptr} {v : Nat → Ptr} {nm : Names}
    {W F1 F2 : (Nat → Ptr) → Names → Assn} {G : Assn} {f : (Nat → Ptr) → Nat → Ptr} {k : Names → Names} {b : Bool} {text : Str}
    (hN : ∀ v nm, W v nm = (namesPin (f v) q (k nm) ∗ F1 v nm)) (hG : ∀ v nm, W v nm = (G ∗ F2 v nm))
    (hA : ∀ v nm y s, Triple (W v nm ∗ stringsAt y s) (namesSwap q 4 y) (fun b => pur (b = v 4) ∗ W (pinSet v 4 y) { nm with arrays := s } ∗ stringsAt (v 4) nm.arrays))
    (hB : ∀ v' nm, v' 0 = v 0 → Triple (W v' nm) (scopRestoreParams q b bk) (fun _ => namesPin v' q nm ∗ G)) (hk : ∀ nm s, k { nm with arrays := s } = { k nm with arrays := s })
    {n2 : Names} {ctx par ts te : Str} (hn : Scops.withArrays L s (k nm) = .ok n2)
    (hp : Triple G (genPrint R.sprint g) (fun t => pur (t = par) ∗ G)) (hb : Query G (genListIs URI_STRINGS g) b)
    (h1 : Rel.spprint c s.context (some n2) = .ok ctx) (h2 : Stmts.pprint c L.toLib s.statement (some n2) = .ok ts) (h3 : Scops.printExtension L s.extension = .ok te) :
    Triple (p ↦ .node [s.version] [l, x, g, st, r, e, n] ∗ uriAt l s.language ∗ relAt c x s.context ∗ stmtsAt c O st s.statement ∗ glistAt O e s.extension ∗ W v nm)
      (do
        let e ← getPtr p 5
        let arrays ← genFind URI_ARRAYS e
        let old ← scopUseArrays q arrays
        let t ← scopPrintText c R.sprint q p
        scopRestoreParams q b bk
        scopRestoreArrays q arrays old
        pure (text ++ t))
      (fun t => pur (t = text ++ scopText (Scops.languageText s) ctx b par s.statement.length ts te) ∗
        p ↦ .node [s.version] [l, x, g, st, r, e, n] ∗ uriAt l s.language ∗ relAt c x s.context ∗ stmtsAt c O st s.statement ∗ glistAt O e s.extension ∗ namesPin v q nm ∗ G) := by
  have ht := fun v nm h1 h2 => scopPrintText_spec hc T R hs (p := p) (l := l) (x := x) (g := g) (st := st) (r := r) (e := e) (n := n) (q := q) (v := f v) (nm := k nm)
    (hN v nm) (hG v nm) (ctx := ctx) (ts := ts) hp hb h1 h2 h3
  generalize hX : scopText (Scops.languageText s) ctx b par s.statement.length ts te = X at ht ⊢
  hstep (getPtr_spec (p := p) (i := 5) (x := e) rfl)
  refine Triple.bind (Q := fun y => O.opt y (GList.lookup s.extension URI_ARRAYS) ∗ wand (O.opt y (GList.lookup s.extension URI_ARRAYS)) (glistAt O e s.extension) ∗
    p ↦ .node [s.version] [l, x, g, st, r, e, n] ∗ uriAt l s.language ∗ relAt c x s.context ∗ stmtsAt c O st s.statement ∗ W v nm) ?_ (fun y => ?_)
  · hlast (genFind_borrow (O := O) (t := URI_ARRAYS) (l := s.extension) (p := e))
    hret
  unfold Scops.withArrays at hn
  cases hlk : GList.lookup s.extension URI_ARRAYS with
  | none =>
    rw [hlk] at hn
    cases hn
    refine Triple.frame_fact (P := O.opt y none) (φ := y = 0) (fun h hh => hh.1) (fun hy => ?_)
    subst hy
    refine Triple.pre (P := glistAt O e s.extension ∗ p ↦ .node [s.version] [l, x, g, st, r, e, n] ∗ uriAt l s.language ∗ relAt c x s.context ∗ stmtsAt c O st s.statement ∗ W v nm) ?_
      (fun h hh => wand_back hh)
    have use : Triple emp (scopUseArrays q 0) (fun _ => emp) := by
      unfold scopUseArrays
      rw [if_neg (by simp)]
      exact Triple.ret (fun _ h => h)
    have back : ∀ o, Triple emp (scopRestoreArrays q 0 o) (fun _ => emp) := by
      intro o
      unfold scopRestoreArrays
      rw [if_neg (by simp)]
      exact Triple.ret (fun _ h => h)
    hstep use
    hstep (ht v nm h1 h2)
    hstep (hB v nm rfl)
    hstep (back _)
    hret
  | some d =>
    rw [hlk] at hn
    dsimp only at hn
    obtain ⟨a, ha, hn⟩ := Out.bind_eq_ok.mp hn
    cases hn
    obtain ⟨arr, hat, hto⟩ := T.arrays ha
    have ho : O.opt y (some d) = arraysAt y arr := hat y
    rw [ho]
    refine Triple.frame_fact (P := arraysAt y arr) (φ := y ≠ 0) (fun h hh => arraysAt_ne h hh) (fun hy => ?_)
    have use : Triple (arraysAt y arr ∗ W v nm) (scopUseArrays q y)
        (fun b => pur (b = v 4) ∗ ex fun z => arraysAt y arr ∗ W (pinSet v 4 z) { nm with arrays := a } ∗ stringsAt (v 4) nm.arrays) := by
      unfold scopUseArrays
      rw [if_pos hy]
      refine Triple.step (F := W v nm) (arrays_to_strings_memory hto) rfl (fun z => ?_)
      refine Triple.last (F := arraysAt y arr) (hA v nm z a) (by ac_rfl) (fun b h hh => ?_)
      have hh : (pur (b = v 4) ∗ (arraysAt y arr ∗ W (pinSet v 4 z) { nm with arrays := a } ∗ stringsAt (v 4) nm.arrays)) h := hh.perm (by ac_rfl)
      obtain ⟨h1, h2⟩ := pur_sep_iff.mp hh
      exact pur_sep_iff.mpr ⟨h1, z, h2⟩
    refine Triple.bind (Q := fun o => pur (o = v 4) ∗ ex fun z => glistAt O e s.extension ∗ p ↦ .node [s.version] [l, x, g, st, r, e, n] ∗ uriAt l s.language ∗ relAt c x s.context ∗
      stmtsAt c O st s.statement ∗ W (pinSet v 4 z) { nm with arrays := a } ∗ stringsAt (v 4) nm.arrays) ?_ (fun o => Triple.fact (fun ho => Triple.exi (fun z => ?_)))
    · refine Triple.last (F := wand (arraysAt y arr) (glistAt O e s.extension) ∗ p ↦ .node [s.version] [l, x, g, st, r, e, n] ∗ uriAt l s.language ∗ relAt c x s.context ∗
        stmtsAt c O st s.statement) use (by ac_rfl) (fun b h hh => ?_)
      rw [sep_assoc] at hh
      obtain ⟨hb4, hh⟩ := pur_sep_iff.mp hh
      rw [ex_sep] at hh
      obtain ⟨z, hh⟩ := hh
      refine pur_sep_iff.mpr ⟨hb4, z, ?_⟩
      exact wand_back (A := arraysAt y arr) (hh.perm (by ac_rfl))
    · subst ho
      have hh := ht (pinSet v 4 z) { nm with arrays := a } (by rw [hk]; exact h1) (by rw [hk]; exact h2)
      hstep hh
      hstep (hB (pinSet v 4 z) { nm with arrays := a } rfl)
      hstep (scopRestoreArrays_spec (v := v) (y := z) (a := y) (nm := nm) (s := a) hy)
      hret

/-! ## One scop -/

theorem scopOne_text {nm : Names} {s : Scop D} {t : Str} (h : Scops.printOne c L nm s = .ok t) :
    ∃ n1 n2 ctx par ts te, Scops.withParams L s nm = .ok n1 ∧ Scops.withArrays L s n1 = .ok n2 ∧ Rel.spprint c s.context (some n2) = .ok ctx ∧
      GList.sprint L.toEnv s.parameters = .ok par ∧ Stmts.pprint c L.toLib s.statement (some n2) = .ok ts ∧ Scops.printExtension L s.extension = .ok te ∧
      t = scopText (Scops.languageText s) ctx (Scops.hasURI s.parameters URI_STRINGS) par s.statement.length ts te := by
  unfold Scops.printOne at h
  obtain ⟨n1, h1, h⟩ := Out.bind_eq_ok.mp h
  obtain ⟨n2, h2, h⟩ := Out.bind_eq_ok.mp h
  obtain ⟨ctx, h3, h⟩ := Out.bind_eq_ok.mp h
  obtain ⟨par, h4, h⟩ := Out.bind_eq_ok.mp h
  obtain ⟨ts, h5, h⟩ := Out.bind_eq_ok.mp h
  obtain ⟨te, h6, h⟩ := Out.bind_eq_ok.mp h
  refine ⟨n1, n2, ctx, par, ts, te, h1, h2, h3, h4, h5, h6, ?_⟩
  simp only [Out.pure_eq, Out.ok.injEq] at h
  rw [← h]
  rfl

/-- One turn of the loop of `osl_scop_print`. -/
theorem scopPrintOne_spec (hc : c.Valid) (T : TextView L O) (R : DataPrint O) {s : Scop D} (hs : ScopFits c R.good s) {p n q : Ptr} {v : Nat → Ptr} {nm : Names}
    {text t : Str} (h : Scops.printOne c L nm s = .ok t) :
    Triple (scopAt c O p s n ∗ namesPin v q nm) (scopPrintOne c R.sprint q p text) (fun z => pur (z = text ++ t) ∗ scopAt c O p s n ∗ namesPin v q nm) := by
  obtain ⟨n1, n2, ctx, par, ts, te, h1, h2, h3, h4, h5, h6, ht⟩ := scopOne_text h
  subst ht
  generalize hX : scopText (Scops.languageText s) ctx (Scops.hasURI s.parameters URI_STRINGS) par s.statement.length ts te = X
  unfold scopPrintOne
  refine Triple.opened (fun h0 hh => ?_)
  obtain ⟨l, x, g, st, r, e, hh⟩ := hh
  refine ⟨p ↦ .node [s.version] [l, x, g, st, r, e, n] ∗ uriAt l s.language ∗ relAt c x s.context ∗ glistAt O g s.parameters ∗ stmtsAt c O st s.statement ∗ ifacesAt r s.registry ∗
    glistAt O e s.extension, hh, ?_⟩
  clear hh h0
  refine Triple.pre (P := glistAt O g s.parameters ∗ p ↦ .node [s.version] [l, x, g, st, r, e, n] ∗ uriAt l s.language ∗ relAt c x s.context ∗ stmtsAt c O st s.statement ∗
    ifacesAt r s.registry ∗ glistAt O e s.extension ∗ namesPin v q nm) ?_ (fun h hh => hh.perm (by ac_rfl))
  refine Triple.opened (fun h0 hh => ?_)
  obtain ⟨m, hm, hh⟩ := glist_pin hh
  refine ⟨(pinChain O).list g m, hh, ?_⟩
  have hgood := hs.2.1
  rw [← hm] at hgood
  have hpr : Triple ((pinChain O).list g m) (genPrint R.sprint g) (fun s => pur (s = par) ∗ (pinChain O).list g m) := generic_print_pin R hgood (by rw [hm]; exact h4)
  have hq : Query ((pinChain O).list g m) (genListIs URI_STRINGS g) (Scops.hasURI s.parameters URI_STRINGS) := by
    have := genListIs_pin (O := O) (p := g) (m := m) (t := URI_STRINGS)
    rwa [hm] at this
  have close : ∀ h, ((pinChain O).list g m ∗ p ↦ .node [s.version] [l, x, g, st, r, e, n] ∗ uriAt l s.language ∗ relAt c x s.context ∗ stmtsAt c O st s.statement ∗
      glistAt O e s.extension ∗ ifacesAt r s.registry ∗ namesPin v q nm) h →
      (scopAt c O p s n ∗ namesPin v q nm) h := by
    intro h hh
    have hh := sep_mono (P' := glistAt O g s.parameters) (fun h hx => by rw [← hm]; exact glist_unpin hx) (fun _ h => h) hh
    refine sep_mono (P := p ↦ .node [s.version] [l, x, g, st, r, e, n] ∗ uriAt l s.language ∗ relAt c x s.context ∗ glistAt O g s.parameters ∗ stmtsAt c O st s.statement ∗
      ifacesAt r s.registry ∗ glistAt O e s.extension) (fun _ hx => ⟨l, x, g, st, r, e, hx⟩) (fun _ h => h) ?_
    exact hh.perm (by ac_rfl)
  hstep (getPtr_spec (p := p) (i := 2) (x := g) rfl)
  hstep hq.triple
  unfold Scops.withParams at h1
  cases hu : Scops.hasURI s.parameters URI_STRINGS with
  | false =>
    rw [hu] at h1 hX hq
    rw [if_neg (by simp)] at h1
    cases h1
    have use : Triple emp (scopUseParams q g false) (fun _ => emp) := by
      unfold scopUseParams
      rw [if_neg (by simp)]
      exact Triple.ret (fun _ h => h)
    hstep use
    have := scopPrintTail_spec hc T R hs (p := p) (l := l) (x := x) (g := g) (st := st) (r := r) (e := e) (n := n) (q := q) (bk := params) (v := v) (nm := nm) (text := text)
      (W := fun v nm => namesPin v q nm ∗ (pinChain O).list g m) (F1 := fun _ _ => (pinChain O).list g m) (F2 := fun v nm => namesPin v q nm) (G := (pinChain O).list g m)
      (f := fun v => v) (k := fun nm => nm) (b := false) (fun _ _ => rfl) (fun _ _ => by rw [sep_comm]) (fun v nm y s => by
        hlast (namesSwap_arrays (v := v) (q := q) (y := y) (nm := nm) (s := s))
        hret) (fun v' nm _ => by
        unfold scopRestoreParams
        rw [if_neg (by simp)]
        exact Triple.ret (fun _ h => h)) (fun _ _ => rfl) h2 hpr hq h3 h5 h6
    rw [hX] at this
    refine Triple.last (F := ifacesAt r s.registry) this (by ac_rfl) (fun z h hh => ?_)
    rw [sep_assoc] at hh
    obtain ⟨hz, hh⟩ := pur_sep_iff.mp hh
    exact pur_sep_iff.mpr ⟨hz, close h (hh.perm (by ac_rfl))⟩
  | true =>
    rw [hu] at h1 hX hq
    rw [if_pos rfl] at h1
    obtain ⟨ps, h0, h1⟩ := Out.bind_eq_ok.mp h1
    cases h1
    cases m with
    | nil =>
      rw [← hm] at hu
      cases hu
    | cons gm m =>
      obtain ⟨⟨i, d⟩, u, y⟩ := gm
      rw [← hm] at hu h0
      cases i with
      | none => cases hu
      | some i =>
        have hd : O.opt y d = stringsAt y ps := by
          cases d with
          | none =>
            cases h0
            rfl
          | some d =>
            have h0 : (match L.strings d with | some s => Out.ok (some s) | none => .ub) = .ok ps := h0
            cases hsd : L.strings d with
            | none => rw [hsd] at h0; cases h0
            | some w =>
              rw [hsd] at h0
              cases h0
              exact T.strings hsd y
        generalize hGr : (ex fun n => g ↦ .ptrs [u, y, n] ∗ pur (O.fits i.fns d) ∗ ifacesAt u [i] ∗ (pinChain O).list n m) = Gr
        have hlist : (pinChain O).list g ((⟨some i, d⟩, u, y) :: m) = (Gr ∗ stringsAt y ps) := by
          rw [Chain.list_cons, ← hGr, ex_sep]
          congr 1
          funext n
          show (genPinAt O g (⟨some i, d⟩, u, y) n ∗ _) = _
          unfold genPinAt
          dsimp only
          rw [contentAt_some, hd]
          ac_rfl
        have use : Triple ((pinChain O).list g ((⟨some i, d⟩, u, y) :: m) ∗ namesPin v q nm) (scopUseParams q g true)
            (fun b => pur (b = v 0) ∗ Gr ∗ namesPin (pinSet v 0 y) q { nm with parameters := ps } ∗ stringsAt (v 0) nm.parameters) := by
          unfold scopUseParams
          rw [if_pos rfl]
          have get : Triple Gr (getField g 1) (fun z => pur (z = y) ∗ Gr) := by
            rw [← hGr]
            refine Triple.exi (fun n => ?_)
            refine Triple.last (F := pur (O.fits i.fns d) ∗ ifacesAt u [i] ∗ (pinChain O).list n m) (getField_spec (p := g) (i := 1) (x := y) rfl) rfl (fun z h hh => ?_)
            rw [sep_assoc] at hh
            obtain ⟨hz, hh⟩ := pur_sep_iff.mp hh
            exact pur_sep_iff.mpr ⟨hz, n, hh⟩
          rw [hlist]
          hstep get
          hlast (namesSwap_params (v := v) (q := q) (y := y) (nm := nm) (s := ps))
          hret
        hstep use
        have := scopPrintTail_spec hc T R hs (p := p) (l := l) (x := x) (g := g) (st := st) (r := r) (e := e) (n := n) (q := q) (bk := v 0) (v := v) (nm := nm) (text := text)
          (W := fun v nm => Gr ∗ namesPin (pinSet v 0 y) q { nm with parameters := ps } ∗ stringsAt (v 0) nm.parameters) (F1 := fun v nm => Gr ∗ stringsAt (v 0) nm.parameters)
          (F2 := fun v nm => q ↦ .ptrs [y, v 1, v 2, v 3, v 4] ∗ stringsAt (v 1) nm.iterators ∗ stringsAt (v 2) nm.scatt_dims ∗ stringsAt (v 3) nm.local_dims ∗
            stringsAt (v 4) nm.arrays ∗ stringsAt (v 0) nm.parameters) (G := (pinChain O).list g ((⟨some i, d⟩, u, y) :: m))
          (f := fun v => pinSet v 0 y) (k := fun nm => { nm with parameters := ps }) (b := true) (fun _ _ => by ac_rfl) (fun v nm => by
            rw [hlist]
            show (Gr ∗ (q ↦ .ptrs [y, v 1, v 2, v 3, v 4] ∗ stringsAt y ps ∗ stringsAt (v 1) nm.iterators ∗ stringsAt (v 2) nm.scatt_dims ∗ stringsAt (v 3) nm.local_dims ∗
              stringsAt (v 4) nm.arrays) ∗ stringsAt (v 0) nm.parameters) = _
            ac_rfl) (fun v nm z s => by
            have := namesSwap_arrays (v := pinSet v 0 y) (q := q) (y := z) (nm := { nm with parameters := ps }) (s := s)
            rw [pinSet_comm] at this
            refine Triple.last (F := Gr ∗ stringsAt (v 0) nm.parameters) this (by ac_rfl) (fun b h hh => ?_)
            exact hh.perm (by show ((_ ∗ _ ∗ stringsAt (v 4) nm.arrays) ∗ _) = (_ ∗ (_ ∗ _ ∗ stringsAt (v 0) nm.parameters) ∗ _); ac_rfl)) (fun v' nm hv => by
            unfold scopRestoreParams
            rw [if_pos rfl, hlist, ← hv]
            refine Triple.last (F := Gr) (namesBack_params (v := v') (q := q) (y := y) (nm := nm) (s := ps)) (by ac_rfl) (fun _ h hh => hh.perm (by ac_rfl))) (fun _ _ => rfl) h2 hpr hq h3 h5 h6
        rw [hX] at this
        refine Triple.last (F := ifacesAt r s.registry) this (by ac_rfl) (fun z h hh => ?_)
        rw [sep_assoc] at hh
        obtain ⟨hz, hh⟩ := pur_sep_iff.mp hh
        exact pur_sep_iff.mpr ⟨hz, close h (hh.perm (by ac_rfl))⟩

/-! ## Lists of scops -/

/-- What one turn of the loop does, on values. -/
def scopStep (c : Cfg) (L : TextLib D) (nm : Names) (s : Scop D) (_ : Bool) (x : Str) : Out Str := do
  let u ← Scops.printOne c L nm s
  return x ++ u

theorem scopLoop_fold {nm : Names} : ∀ {l : Scops D} {t u : Str}, Scops.printLoop c L nm l = .ok u → foldOut (scopStep c L nm) l t = .ok (t ++ u)
  | [], t, u, h => by
    cases h
    simp [foldOut]
  | s :: l, t, u, h => by
    unfold Scops.printLoop at h
    obtain ⟨a, h1, h⟩ := Out.bind_eq_ok.mp h
    obtain ⟨b, h2, h⟩ := Out.bind_eq_ok.mp h
    simp only [Out.pure_eq, Out.ok.injEq] at h
    subst h
    refine Out.bind_eq_ok.mpr ⟨t ++ a, ?_, ?_⟩
    · show (Scops.printOne c L nm s >>= fun u => _) = _
      rw [h1]
      rfl
    · rw [scopLoop_fold (l := l) h2, List.append_assoc]

/-- The loop of `osl_scop_print`. -/
theorem scopWalk_spec (hc : c.Valid) (T : TextView L O) (R : DataPrint O) {l : Scops D} (hl : ∀ s ∈ l, ScopFits c R.good s) {p q : Ptr} {v : Nat → Ptr} {nm : Names} {t : Str}
    (h : Scops.printLoop c L nm l = .ok t) :
    Triple (scopsAt c O p l ∗ namesPin v q nm) (walk scopNext (scopPrintOne c R.sprint q) p []) (fun x => pur (x = t) ∗ scopsAt c O p l ∗ namesPin v q nm) := by
  have hw := walk_spec (N := scopChain c O) (act := scopPrintOne c R.sprint q) (g := scopStep c L nm) (A := fun (x y : Str) => pur (x = y) ∗ namesPin v q nm) (p := p) (s := [])
    (t := []) (l := l) (fun s hs p n x y y' hy => by
      obtain ⟨u, h1, hy⟩ := Out.bind_eq_ok.mp hy
      simp only [Out.pure_eq, Out.ok.injEq] at hy
      subst hy
      refine Triple.pre (P := pur (x = y) ∗ scopAt c O p s n ∗ namesPin v q nm) (Triple.fact (fun hxy => ?_)) (fun h hh => hh.perm (by show ((scopAt c O p s n) ∗ _) = _; ac_rfl))
      subst hxy
      refine (scopPrintOne_spec hc T R (hl s hs) (p := p) (n := n) (q := q) (v := v) h1).post (fun z h hh => ?_)
      exact hh.perm (by show _ = (scopAt c O p s n ∗ _); ac_rfl)) (scopLoop_fold (t := []) h)
  refine (hw.pre (fun h hh => ?_)).post (fun x h hh => ?_)
  · rw [pur_true rfl, emp_sep]
    exact hh
  · exact hh.perm (by show ((scopsAt c O p l) ∗ _) = _; rw [List.nil_append]; ac_rfl)

/-- The names generated for the scops. -/
theorem scopNames_spec {p : Ptr} {l : Scops D} {nm : Names} (h : Scops.names c l = .ok nm) :
    Triple (scopsAt c O p l) (scopNames c p) (fun q => scopsAt c O p l ∗ namesAt q (some nm)) := by
  unfold scopNames
  obtain ⟨at1, ha, hg⟩ := Out.bind_eq_ok.mp h
  hstep ((scop_get_attributes_query (O := O) (p := p) ha).triple)
  hlast (names_generate_memory hg)
  hret

/-- C74: `osl_scop_print` writes the text of the scops; the scops are unchanged, everything else which it allocates is freed. -/
theorem scop_print_memory (hc : c.Valid) (T : TextView L O) (R : DataPrint O) {l : Scops D} (hl : ∀ s ∈ l, ScopFits c R.good s) {p : Ptr} {release t : Str}
    (h : Scops.print c L release l = .ok t) :
    Triple (scopsAt c O p l) (scopPrint c R.sprint release p) (fun s => pur (s = t) ∗ scopsAt c O p l) := by
  unfold scopPrint
  cases l with
  | nil =>
    simp only [Scops.print, Out.ok.injEq] at h
    refine Triple.of_fact (φ := p = 0) (fun h hh => hh.1) (fun hp => ?_)
    rw [if_pos hp]
    exact Triple.ret (fun _ hh => pur_sep_iff.mpr ⟨h, hh⟩)
  | cons s l =>
    simp only [Scops.print] at h
    obtain ⟨b, h1, h⟩ := Out.bind_eq_ok.mp h
    obtain ⟨nm, h2, h⟩ := Out.bind_eq_ok.mp h
    obtain ⟨u, h3, h⟩ := Out.bind_eq_ok.mp h
    simp only [Out.pure_eq, Out.ok.injEq] at h
    refine Triple.of_fact (φ := p ≠ 0) (fun h hh => Chain.list_cons_ne hh) (fun hp => ?_)
    rw [if_neg hp]
    generalize s :: l = k at h1 h2 h3 hl
    show Triple (scopsAt c O p k) _ _
    refine Triple.bind (scop_integrity_check_query (O := O) T.bodies (p := p) h1).triple (fun _ => Triple.fact (fun _ => ?_))
    refine Triple.bind (scopNames_spec (O := O) (p := p) h2) (fun x => ?_)
    rw [namesAt_pin, sep_ex]
    refine Triple.exi (fun w => ?_)
    refine Triple.bind (Q := fun r => pur (r = u) ∗ namesAt x (some nm) ∗ scopsAt c O p k) ?_ (fun r => Triple.fact (fun hr => ?_))
    · refine (scopWalk_spec hc T R hl (p := p) (q := x) (v := w) h3).post (fun r h hh => ?_)
      obtain ⟨hr, hh⟩ := pur_sep_iff.mp hh
      rw [namesAt_pin]
      refine pur_sep_iff.mpr ⟨hr, ?_⟩
      rw [sep_comm] at hh
      exact sep_mono (fun _ hx => ⟨w, hx⟩) (fun _ h => h) hh
    hstep (names_free_memory x (some nm))
    subst hr
    exact Triple.ret (fun _ hh => pur_sep_iff.mpr ⟨h, hh⟩)

end Osl.Mem
