import Verif.HeapScoplibProps3
/-!
# Printing in the SCoPLib format in memory (C79): statements
-/

set_option linter.unusedSectionVars false

namespace Osl.Mem

open Osl.Ext

variable [Allocator] {D : Type}

section

variable {L : Lib D} {c : Cfg} {O : DataMem D L.toEnv}

theorem stmtFake_spec {s : Stmt D} {d sc : Ptr} {b : Bool} (h : Stmts.addFakeiter s = .ok b) :
    Triple (relAt c d s.domain ∗ relAt c sc s.scattering) (stmtFake d sc) (fun r => pur (r = b) ∗ relAt c d s.domain ∗ relAt c sc s.scattering) := by
  unfold stmtFake
  unfold Stmts.addFakeiter at h
  generalize hd : s.domain = dom at h ⊢
  generalize hs : s.scattering = sca at h ⊢
  cases dom with
  | nil => cases h
  | cons x dom =>
    dsimp only at h
    hstep (relFirst_spec (c := c) (p := d) (x := x) (r := dom))
    rename_i hr
    rw [hr]
    by_cases h0 : x.nb_rows = 0
    · rw [if_pos h0] at h
      rw [if_pos (show (hdr x).nb_rows = 0 from h0)]
      cases sca with
      | nil => cases h
      | cons y sca =>
        dsimp only at h
        simp only [Out.ok.injEq] at h
        hstep (relFirst_spec (c := c) (p := sc) (x := y) (r := sca))
        rename_i r' hr'
        rw [hr']
        refine Triple.ret (fun hp hh => pur_sep_iff.mpr ⟨h, ?_⟩)
        exact hh.perm (by ac_rfl)
    · rw [if_neg h0] at h
      rw [if_neg (show ¬ (hdr x).nb_rows = 0 from h0)]
      cases h
      hret

theorem stmtRelsScoplib_spec (hc : c.Valid) {s : Stmt D} (hs : StmtFits c s) {p d sc a e n q : Ptr} {v : Nat → Ptr} {nm : Names} {number : Nat} {fake : Bool} {td ts ta : Str}
    (h0 : Stmts.addFakeiter s = .ok fake) (h1 : Rel.spprint_scoplib c s.domain (some nm) true fake = .ok td) (h2 : Rel.spprint_scoplib c s.scattering (some nm) false fake = .ok ts)
    (h3 : RList.pprint_access_array_scoplib c s.access (some nm) fake = .ok ta) :
    Triple (p ↦ .ptrs [d, sc, a, e, n] ∗ relAt c d s.domain ∗ relAt c sc s.scattering ∗ rlistAt c a s.access ∗ namesPin v q nm) (stmtRelsScoplib c q p number)
      (fun t => pur (t = stmtScoplibText number td ts ta) ∗
        p ↦ .ptrs [d, sc, a, e, n] ∗ relAt c d s.domain ∗ relAt c sc s.scattering ∗ rlistAt c a s.access ∗ namesPin v q nm) := by
  unfold stmtRelsScoplib
  hstep (getField_spec (p := p) (i := 0) (x := d) rfl)
  hstep (getField_spec (p := p) (i := 1) (x := sc) rfl)
  hstep (stmtFake_spec (c := c) (d := d) (sc := sc) h0)
  have e1 := relation_pprint_scoplib_pin (c := c) hc (p := d) (q := q) (v := v) (names := some nm) hs.1 h1
  have e2 := relation_pprint_scoplib_pin (c := c) hc (p := sc) (q := q) (v := v) (names := some nm) hs.2.1 h2
  have e3 := list_pprint_access_pin (c := c) hc (p := a) (q := q) (v := v) (names := some nm) hs.2.2 h3
  simp only [namesOpt] at e1 e2 e3
  hstep e1
  hstep e2
  hstep (getField_spec (p := p) (i := 2) (x := a) rfl)
  hstep e3
  hret

theorem stmtBodyScoplib_spec {y : Ptr} {b : Option Body} {t : Str} (h : Stmts.bodyScoplib b = .ok t) :
    Triple (optAt bodyAt y b) (stmtBodyScoplib y) (fun r => pur (r = t) ∗ optAt bodyAt y b) := by
  unfold stmtBodyScoplib
  cases b with
  | none =>
    simp only [Stmts.bodyScoplib, Out.ok.injEq] at h
    refine Triple.of_fact (φ := y = 0) (fun h hh => hh.1) (fun hy => ?_)
    rw [if_neg (by simp [hy])]
    exact Triple.ret (fun _ hh => pur_sep_iff.mpr ⟨h, hh⟩)
  | some b =>
    simp only [Stmts.bodyScoplib] at h
    obtain ⟨u, h1, h⟩ := Out.bind_eq_ok.mp h
    simp only [Out.pure_eq, Out.ok.injEq] at h
    refine Triple.of_fact (φ := y ≠ 0) (fun h hh => bodyAt_ne h hh) (fun hy => ?_)
    rw [if_pos hy]
    refine Triple.bind (body_print_scoplib_memory h1) (fun r => Triple.fact (fun hr => ?_))
    subst hr
    exact Triple.ret (fun _ hh => pur_sep_iff.mpr ⟨h, hh⟩)

theorem oneScoplib_text {nm : Names} {number : Nat} {s : Stmt D} {t : Str} (h : Stmts.printOneScoplib c L nm number s = .ok t) :
    ∃ body fake td ts ta tb, Stmts.lookupBody L s.extension = .ok body ∧ Stmts.addFakeiter s = .ok fake ∧
      Rel.spprint_scoplib c s.domain (some (Stmts.withBody nm body)) true fake = .ok td ∧
      Rel.spprint_scoplib c s.scattering (some (Stmts.withBody nm body)) false fake = .ok ts ∧
      RList.pprint_access_array_scoplib c s.access (some (Stmts.withBody nm body)) fake = .ok ta ∧
      Stmts.bodyScoplib body = .ok tb ∧ t = stmtScoplibText number td ts ta ++ (tb ++ "\n".toList) := by
  unfold Stmts.printOneScoplib at h
  obtain ⟨body, h0, h⟩ := Out.bind_eq_ok.mp h
  obtain ⟨fake, h1, h⟩ := Out.bind_eq_ok.mp h
  obtain ⟨td, h2, h⟩ := Out.bind_eq_ok.mp h
  obtain ⟨ts, h3, h⟩ := Out.bind_eq_ok.mp h
  obtain ⟨ta, h4, h⟩ := Out.bind_eq_ok.mp h
  obtain ⟨tb, h5, h⟩ := Out.bind_eq_ok.mp h
  refine ⟨body, fake, td, ts, ta, tb, h0, h1, h2, h3, h4, h5, ?_⟩
  simp only [Out.pure_eq, Out.ok.injEq] at h
  subst h
  unfold stmtScoplibText
  simp only [List.append_assoc]

/-- With the body `b` found at `y` (or none), its iterators at `z` being used as names. -/
theorem stmtOneScoplib_swap (hc : c.Valid) {s : Stmt D} (hs : StmtFits c s) {p n q y z w : Ptr} {v : Nat → Ptr} {nm : Names} {i : Strings} {o : Option Strings} {x : Nat × Str}
    {fake : Bool} {td ts ta tb : Str} (h0 : Stmts.addFakeiter s = .ok fake)
    (h1 : Rel.spprint_scoplib c s.domain (some { nm with iterators := some i }) true fake = .ok td)
    (h2 : Rel.spprint_scoplib c s.scattering (some { nm with iterators := some i }) false fake = .ok ts)
    (h3 : RList.pprint_access_array_scoplib c s.access (some { nm with iterators := some i }) fake = .ok ta) (h4 : Stmts.bodyScoplib (some ⟨some i, o⟩) = .ok tb) {d sc a e : Ptr} (hz : z ≠ 0) :
    Triple ((p ↦ .ptrs [d, sc, a, e, n] ∗ relAt c d s.domain ∗ relAt c sc s.scattering ∗ rlistAt c a s.access) ∗ namesPin v q nm ∗
        (y ↦ .ptrs [z, w] ∗ stringsAt z (some i) ∗ stringsAt w o))
      (do
        let backup ← stmtUseIterators q z
        let t ← stmtRelsScoplib c q p x.1
        let tb ← stmtBodyScoplib y
        stmtRestore q z backup
        pure (x.1 + 1, x.2 ++ (t ++ (tb ++ "\n".toList))))
      (fun r => pur (r = (x.1 + 1, x.2 ++ (stmtScoplibText x.1 td ts ta ++ (tb ++ "\n".toList)))) ∗
        (p ↦ .ptrs [d, sc, a, e, n] ∗ relAt c d s.domain ∗ relAt c sc s.scattering ∗ rlistAt c a s.access) ∗ namesPin v q nm ∗ bodyAt y ⟨some i, o⟩) := by
  have swap : Triple (namesPin v q nm ∗ stringsAt z (some i)) (stmtUseIterators q z)
      (fun b => pur (b = v 1) ∗ namesPin (pinSet v 1 z) q { nm with iterators := some i } ∗ stringsAt (v 1) nm.iterators) := by
    unfold stmtUseIterators namesSwap
    rw [if_pos hz]
    unfold namesPin
    hstep (getField_spec (p := q) (i := 1) (x := v 1) rfl)
    hstep (setField_spec (p := q) (i := 1) (x := z) (l' := [v 0, z, v 2, v 3, v 4]) rfl)
    have e0 : pinSet v 1 z 0 = v 0 := rfl
    have e1 : pinSet v 1 z 1 = z := rfl
    have e2 : pinSet v 1 z 2 = v 2 := rfl
    have e3 : pinSet v 1 z 3 = v 3 := rfl
    have e4 : pinSet v 1 z 4 = v 4 := rfl
    simp only [e0, e1, e2, e3, e4]
    hret
  have open_ : (namesPin (pinSet v 1 z) q { nm with iterators := some i } ∗ stringsAt (v 1) nm.iterators) =
      ((q ↦ .ptrs [v 0, z, v 2, v 3, v 4] ∗ stringsAt (v 0) nm.parameters ∗ stringsAt (v 2) nm.scatt_dims ∗ stringsAt (v 3) nm.local_dims ∗ stringsAt (v 4) nm.arrays ∗
        stringsAt (v 1) nm.iterators) ∗ stringsAt z (some i)) := by
    show (q ↦ .ptrs [v 0, z, v 2, v 3, v 4] ∗ stringsAt (v 0) nm.parameters ∗ stringsAt z (some i) ∗ stringsAt (v 2) nm.scatt_dims ∗ stringsAt (v 3) nm.local_dims ∗
      stringsAt (v 4) nm.arrays) ∗ stringsAt (v 1) nm.iterators = _
    ac_rfl
  have back : Triple (q ↦ .ptrs [v 0, z, v 2, v 3, v 4] ∗ stringsAt (v 0) nm.parameters ∗ stringsAt (v 2) nm.scatt_dims ∗ stringsAt (v 3) nm.local_dims ∗ stringsAt (v 4) nm.arrays ∗
        stringsAt (v 1) nm.iterators) (stmtRestore q z (v 1)) (fun _ => namesPin v q nm) := by
    unfold stmtRestore
    rw [if_pos hz]
    unfold namesPin
    hlast (setField_spec (p := q) (i := 1) (x := v 1) (l' := [v 0, v 1, v 2, v 3, v 4]) rfl)
    hret
  have body := stmtBodyScoplib_spec (y := y) h4
  simp only [optAt_some] at body
  generalize hX : stmtScoplibText x.1 td ts ta = X
  have rels := stmtRelsScoplib_spec hc hs (p := p) (d := d) (sc := sc) (a := a) (e := e) (n := n) (q := q) (v := pinSet v 1 z) (number := x.1) h0 h1 h2 h3
  rw [hX] at rels
  hstep swap
  hstep rels
  generalize hg : (q ↦ .ptrs [v 0, z, v 2, v 3, v 4] ∗ stringsAt (v 0) nm.parameters ∗ stringsAt (v 2) nm.scatt_dims ∗ stringsAt (v 3) nm.local_dims ∗ stringsAt (v 4) nm.arrays ∗
        stringsAt (v 1) nm.iterators) = gap at open_ back
  refine Triple.pre (P := bodyAt y ⟨some i, o⟩ ∗ gap ∗ p ↦ .ptrs [d, sc, a, e, n] ∗ relAt c d s.domain ∗ relAt c sc s.scattering ∗ rlistAt c a s.access) ?_ (fun h hh => ?_)
  · generalize bodyAt y ⟨some i, o⟩ = B at body ⊢
    hstep body
    hstep back
    hret
  · have hh : ((namesPin (pinSet v 1 z) q { nm with iterators := some i } ∗ stringsAt (v 1) nm.iterators) ∗ (y ↦ .ptrs [z, w] ∗ stringsAt w o) ∗
        p ↦ .ptrs [d, sc, a, e, n] ∗ relAt c d s.domain ∗ relAt c sc s.scattering ∗ rlistAt c a s.access) h := hh.perm (by ac_rfl)
    rw [open_] at hh
    have hh : ((y ↦ .ptrs [z, w] ∗ stringsAt z (some i) ∗ stringsAt w o) ∗
        (gap ∗ p ↦ .ptrs [d, sc, a, e, n] ∗ relAt c d s.domain ∗ relAt c sc s.scattering ∗ rlistAt c a s.access)) h := hh.perm (by ac_rfl)
    exact sep_mono (fun _ hx => ⟨z, w, hx⟩) (fun _ h => h) hh

/-- Without iterators in a body, the names are used as they are. -/
theorem stmtOneScoplib_plain (hc : c.Valid) {s : Stmt D} (hs : StmtFits c s) {p n q y : Ptr} {v : Nat → Ptr} {nm : Names} {b : Option Body} {x : Nat × Str}
    {fake : Bool} {td ts ta tb : Str} (h0 : Stmts.addFakeiter s = .ok fake) (h1 : Rel.spprint_scoplib c s.domain (some nm) true fake = .ok td)
    (h2 : Rel.spprint_scoplib c s.scattering (some nm) false fake = .ok ts)
    (h3 : RList.pprint_access_array_scoplib c s.access (some nm) fake = .ok ta) (h4 : Stmts.bodyScoplib b = .ok tb) {d sc a e : Ptr} :
    Triple ((p ↦ .ptrs [d, sc, a, e, n] ∗ relAt c d s.domain ∗ relAt c sc s.scattering ∗ rlistAt c a s.access) ∗ namesPin v q nm ∗ optAt bodyAt y b)
      (do
        let backup ← stmtUseIterators q 0
        let t ← stmtRelsScoplib c q p x.1
        let tb ← stmtBodyScoplib y
        stmtRestore q 0 backup
        pure (x.1 + 1, x.2 ++ (t ++ (tb ++ "\n".toList))))
      (fun r => pur (r = (x.1 + 1, x.2 ++ (stmtScoplibText x.1 td ts ta ++ (tb ++ "\n".toList)))) ∗
        (p ↦ .ptrs [d, sc, a, e, n] ∗ relAt c d s.domain ∗ relAt c sc s.scattering ∗ rlistAt c a s.access) ∗ namesPin v q nm ∗ optAt bodyAt y b) := by
  have use : Triple emp (stmtUseIterators q 0) (fun _ => emp) := by
    unfold stmtUseIterators
    rw [if_neg (by simp)]
    exact Triple.ret (fun _ h => h)
  have back : ∀ b, Triple emp (stmtRestore q 0 b) (fun _ => emp) := by
    intro b
    unfold stmtRestore
    rw [if_neg (by simp)]
    exact Triple.ret (fun _ h => h)
  have rels := stmtRelsScoplib_spec hc hs (p := p) (d := d) (sc := sc) (a := a) (e := e) (n := n) (q := q) (v := v) (number := x.1) h0 h1 h2 h3
  generalize stmtScoplibText x.1 td ts ta = X at rels ⊢
  have body := stmtBodyScoplib_spec (y := y) h4
  generalize optAt bodyAt y b = B at body ⊢
  hstep use
  hstep rels
  hstep body
  hstep (back _)
  hret

/-- One turn of the loop of `osl_statement_pprint_scoplib`. -/
theorem stmtOneScoplib_spec (hc : c.Valid) (V : BodyMem O) {s : Stmt D} (hs : StmtFits c s) {p n q : Ptr} {v : Nat → Ptr} {nm : Names}
    {x : Nat × Str} {t : Str} (h : Stmts.printOneScoplib c L nm x.1 s = .ok t) :
    Triple (stmtAt c O p s n ∗ namesPin v q nm) (stmtOneScoplib c q p x) (fun z => pur (z = (x.1 + 1, x.2 ++ t)) ∗ stmtAt c O p s n ∗ namesPin v q nm) := by
  obtain ⟨body, fake, td, ts, ta, tb, hb0, h0, h1, h2, h3, h4, ht⟩ := oneScoplib_text h
  subst ht
  unfold stmtOneScoplib
  hopen stmtAt
  hstep (getField_spec (p := p) (i := 3) (x := e) rfl)
  have borrow := genFind_borrow (O := O) (t := URI_BODY) (l := s.extension) (p := e)
  unfold Stmts.lookupBody at hb0
  refine Triple.bind (Q := fun y => O.opt y (GList.lookup s.extension URI_BODY) ∗ wand (O.opt y (GList.lookup s.extension URI_BODY)) (glistAt O e s.extension) ∗
    p ↦ .ptrs [d, sc, a, e, n] ∗ relAt c d s.domain ∗ relAt c sc s.scattering ∗ rlistAt c a s.access ∗ namesPin v q nm) ?_ (fun y => ?_)
  · hlast borrow
    hret
  have close : ∀ (B : Assn) h, (B ∗ wand B (glistAt O e s.extension) ∗ p ↦ .ptrs [d, sc, a, e, n] ∗ relAt c d s.domain ∗ relAt c sc s.scattering ∗ rlistAt c a s.access ∗ namesPin v q nm) h →
      (stmtAt c O p s n ∗ namesPin v q nm) h := by
    intro B h hh
    have hh := wand_back hh
    refine sep_mono (P := p ↦ .ptrs [d, sc, a, e, n] ∗ relAt c d s.domain ∗ relAt c sc s.scattering ∗ rlistAt c a s.access ∗ glistAt O e s.extension)
      (fun _ hx => ⟨d, sc, a, e, hx⟩) (fun _ h => h) (hh.perm (by ac_rfl))
  cases hlk : GList.lookup s.extension URI_BODY with
  | none =>
    rw [hlk] at hb0
    cases hb0
    have := stmtOneScoplib_plain hc hs (p := p) (n := n) (q := q) (y := y) (v := v) (nm := nm) (x := x) h0 h1 h2 h3 h4 (d := d) (sc := sc) (a := a) (e := e)
    have hi : Triple emp (bodyIterators 0) (fun z => pur (z = 0) ∗ emp) := by
      unfold bodyIterators
      rw [if_neg (by simp)]
      hret
    refine Triple.frame_fact (P := O.opt y none) (φ := y = 0) (fun h hh => hh.1) (fun hy => ?_)
    subst hy
    have hB : O.opt 0 none = optAt bodyAt 0 none := rfl
    rw [hB]
    generalize optAt bodyAt 0 none = B at this ⊢
    hstep hi
    generalize hW : wand B (glistAt O e s.extension) = W
    generalize hX : stmtScoplibText x.1 td ts ta ++ (tb ++ "\n".toList) = X at this ⊢
    refine Triple.last this (F := W) (by ac_rfl) (fun z h hh => ?_)
    rw [sep_assoc] at hh
    obtain ⟨hz, hh⟩ := pur_sep_iff.mp hh
    refine pur_sep_iff.mpr ⟨hz, close B h ?_⟩
    rw [hW]
    exact hh.perm (by ac_rfl)
  | some dd =>
    rw [hlk] at hb0
    dsimp only at hb0
    cases hb : L.body dd with
    | none => rw [hb] at hb0; cases hb0
    | some b =>
      rw [hb] at hb0
      cases hb0
      have ho : O.opt y (some dd) = bodyAt y b := V hb y
      rw [ho]
      obtain ⟨it, ex⟩ := b
      show Triple (bodyAt y ⟨it, ex⟩ ∗ _) _ _
      generalize hw : wand (bodyAt y ⟨it, ex⟩) (glistAt O e s.extension) = w1
      have hi : ∀ z w, Triple (y ↦ .ptrs [z, w]) (bodyIterators y) (fun r => pur (r = z) ∗ y ↦ .ptrs [z, w]) := by
        intro z w
        unfold bodyIterators
        refine Triple.of_fact (φ := y ≠ 0) (fun h hh => pto_ne h hh) (fun hy => ?_)
        rw [if_pos hy]
        exact getField_spec rfl
      refine Triple.opened (fun h00 hh => ?_)
      obtain ⟨z, w, hh⟩ := hh
      refine ⟨y ↦ .ptrs [z, w] ∗ stringsAt z it ∗ stringsAt w ex, hh, ?_⟩
      clear hh h00
      hstep (hi z w)
      generalize hX : stmtScoplibText x.1 td ts ta ++ (tb ++ "\n".toList) = X
      cases it with
      | none =>
        have hr := stmtOneScoplib_plain hc hs (p := p) (n := n) (q := q) (y := y) (v := v) (nm := nm) (x := x) h0 h1 h2 h3 h4 (d := d) (sc := sc) (a := a) (e := e)
        rw [hX] at hr
        refine Triple.of_fact (φ := z = 0) (fun h hh => ?_) (fun hz => ?_)
        · obtain ⟨_, _, _, _, _, hh⟩ := hh
          obtain ⟨_, _, _, _, hx, _⟩ := hh
          exact hx.1
        subst hz
        simp only [optAt_some] at hr
        refine Triple.pre (P := bodyAt y ⟨none, ex⟩ ∗ w1 ∗ p ↦ .ptrs [d, sc, a, e, n] ∗ relAt c d s.domain ∗ relAt c sc s.scattering ∗ rlistAt c a s.access ∗ namesPin v q nm) ?_
          (fun h hh => ?_)
        · refine Triple.last hr (F := w1) (by ac_rfl) (fun z h hh => ?_)
          rw [sep_assoc] at hh
          obtain ⟨hz, hh⟩ := pur_sep_iff.mp hh
          refine pur_sep_iff.mpr ⟨hz, close (bodyAt y ⟨none, ex⟩) h ?_⟩
          rw [hw]
          exact hh.perm (by ac_rfl)
        · have hh : ((y ↦ .ptrs [0, w] ∗ stringsAt 0 none ∗ stringsAt w ex) ∗ w1 ∗ p ↦ .ptrs [d, sc, a, e, n] ∗
              relAt c d s.domain ∗ relAt c sc s.scattering ∗ rlistAt c a s.access ∗ namesPin v q nm) h := hh.perm (by ac_rfl)
          exact sep_mono (fun _ hx => ⟨0, w, hx⟩) (fun _ h => h) hh
      | some i =>
        refine Triple.of_fact (φ := z ≠ 0) (fun h hh => ?_) (fun hz => ?_)
        · obtain ⟨_, _, _, _, _, hh⟩ := hh
          obtain ⟨_, _, _, _, hx, _⟩ := hh
          exact stringsAt_ne _ hx
        have hr := stmtOneScoplib_swap hc hs (p := p) (n := n) (q := q) (y := y) (z := z) (w := w) (v := v) (nm := nm) (i := i) (o := ex) (x := x) h0 h1 h2 h3 h4 (d := d) (sc := sc)
          (a := a) (e := e) hz
        rw [hX] at hr
        refine Triple.last hr (F := w1) (by ac_rfl) (fun z h hh => ?_)
        rw [sep_assoc] at hh
        obtain ⟨hz, hh⟩ := pur_sep_iff.mp hh
        refine pur_sep_iff.mpr ⟨hz, close (bodyAt y ⟨some i, ex⟩) h ?_⟩
        rw [hw]
        exact hh.perm (by ac_rfl)

/-! ## Lists of statements -/

/-- What one turn of the loop does, on values. -/
def stmtStepScoplib (c : Cfg) (L : Lib D) (nm : Names) (s : Stmt D) (_ : Bool) (x : Nat × Str) : Out (Nat × Str) := do
  let u ← Stmts.printOneScoplib c L nm x.1 s
  return (x.1 + 1, x.2 ++ u)

theorem stmtLoopScoplib_fold {nm : Names} : ∀ {l : Stmts D} {number : Nat} {t u : Str}, Stmts.printLoopScoplib c L nm number l = .ok u →
    foldOut (stmtStepScoplib c L nm) l (number, t) = .ok (number + l.length, t ++ u)
  | [], number, t, u, h => by
    cases h
    simp [foldOut]
  | s :: l, number, t, u, h => by
    unfold Stmts.printLoopScoplib at h
    obtain ⟨a, h1, h⟩ := Out.bind_eq_ok.mp h
    obtain ⟨b, h2, h⟩ := Out.bind_eq_ok.mp h
    simp only [Out.pure_eq, Out.ok.injEq] at h
    subst h
    refine Out.bind_eq_ok.mpr ⟨(number + 1, t ++ a), ?_, ?_⟩
    · show (Stmts.printOneScoplib c L nm number s >>= fun u => _) = _
      rw [h1]
      rfl
    · rw [stmtLoopScoplib_fold (l := l) h2]
      simp only [List.append_assoc, List.length_cons]
      rw [Nat.add_assoc, Nat.add_comm 1]

/-- The loop of `osl_statement_pprint_scoplib`. -/
theorem stmtWalkScoplib_spec (hc : c.Valid) (V : BodyMem O) {l : Stmts D} (hl : ∀ s ∈ l, StmtFits c s) {p q : Ptr} {v : Nat → Ptr} {nm : Names} {t : Str}
    (h : Stmts.printLoopScoplib c L nm 1 l = .ok t) :
    Triple (stmtsAt c O p l ∗ namesPin v q nm) (walk stmtNext (stmtOneScoplib c q) p (1, [])) (fun x => pur (x.2 = t) ∗ stmtsAt c O p l ∗ namesPin v q nm) := by
  have hw := walk_spec (N := stmtChain c O) (act := stmtOneScoplib c q) (g := stmtStepScoplib c L nm) (A := fun (x y : Nat × Str) => pur (x = y) ∗ namesPin v q nm) (p := p) (s := (1, []))
    (t := (1, [])) (l := l) (fun s hs p n x y y' hy => by
      obtain ⟨u, h1, hy⟩ := Out.bind_eq_ok.mp hy
      simp only [Out.pure_eq, Out.ok.injEq] at hy
      subst hy
      refine Triple.pre (P := pur (x = y) ∗ stmtAt c O p s n ∗ namesPin v q nm) (Triple.fact (fun hxy => ?_)) (fun h hh => hh.perm (by show ((stmtAt c O p s n) ∗ _) = _; ac_rfl))
      subst hxy
      refine (stmtOneScoplib_spec hc V (hl s hs) (p := p) (n := n) (q := q) (v := v) h1).post (fun z h hh => ?_)
      exact hh.perm (by show _ = (stmtAt c O p s n ∗ _); ac_rfl)) (stmtLoopScoplib_fold (t := []) h)
  refine (hw.pre (fun h hh => ?_)).post (fun x h hh => ?_)
  · rw [pur_true rfl, emp_sep]
    exact hh
  · have hh : (pur (x = (1 + l.length, [] ++ t)) ∗ stmtsAt c O p l ∗ namesPin v q nm) h := hh.perm (by show ((stmtsAt c O p l) ∗ _) = _; ac_rfl)
    obtain ⟨hx, h2⟩ := pur_sep_iff.mp hh
    refine pur_sep_iff.mpr ⟨by rw [hx]; rfl, h2⟩

theorem chooseNames_spec {l : Stmts D} {p q : Ptr} {v : Nat → Ptr} {names : Option Names} {nm : Names} (h1 : Stmts.chooseNames c l names = .ok nm) :
    Triple (stmtsAt c O p l ∗ namesOpt v q names) (stmtChooseNames c p q) (fun x => namesAt x (some nm) ∗ stmtsAt c O p l ∗ namesOpt v q names) := by
  unfold stmtChooseNames
  cases names with
  | none =>
    simp only [namesOpt]
    refine Triple.of_fact (φ := q = 0) (fun h hh => ?_) (fun hq => ?_)
    · obtain ⟨_, _, _, _, _, hh⟩ := hh
      exact hh.1
    subst hq
    rw [if_pos rfl]
    hlast (stmtNames_spec (O := O) (p := p) h1)
    hret
  | some n =>
    simp only [namesOpt]
    refine Triple.of_fact (φ := q ≠ 0) (fun h hh => ?_) (fun hq => ?_)
    · obtain ⟨_, _, _, _, _, hh⟩ := hh
      exact pto_ne_sep _ hh
    rw [if_neg hq]
    have hn : Names.clone (some n) = some nm := by
      have h1 : Out.ok ((Names.clone (some n)).getD n) = .ok nm := h1
      injection h1 with h1
      rw [← h1]
      rfl
    have := names_clone_pin (v := v) (p := q) (n := n)
    rw [hn] at this
    hlast this
    hret

/-- `osl_statement_pprint_scoplib`, the names being kept at their places. -/
theorem statement_pprint_scoplib_pin (hc : c.Valid) (V : BodyMem O) {l : Stmts D} (hl : ∀ s ∈ l, StmtFits c s) {p q : Ptr} {v : Nat → Ptr} {names : Option Names} {t : Str}
    (h : Stmts.pprint_scoplib c L l names = .ok t) :
    Triple (stmtsAt c O p l ∗ namesOpt v q names) (stmtPprintScoplib c p q) (fun s => pur (s = t) ∗ stmtsAt c O p l ∗ namesOpt v q names) := by
  unfold Stmts.pprint_scoplib at h
  obtain ⟨nm, h1, h2⟩ := Out.bind_eq_ok.mp h
  unfold stmtPprintScoplib
  refine Triple.bind (chooseNames_spec (O := O) (p := p) (q := q) (v := v) h1) (fun x => ?_)
  rw [namesAt_pin, ex_sep]
  refine Triple.exi (fun w => ?_)
  refine Triple.bind (Q := fun r => pur (r.2 = t) ∗ namesAt x (some nm) ∗ stmtsAt c O p l ∗ namesOpt v q names) ?_ (fun r => Triple.fact (fun hr => ?_))
  · refine Triple.last (stmtWalkScoplib_spec hc V hl (p := p) (q := x) (v := w) h2) (F := namesOpt v q names) (by ac_rfl) (fun r h hh => ?_)
    rw [namesAt_pin]
    have hh : (namesPin w x nm ∗ pur (r.2 = t) ∗ stmtsAt c O p l ∗ namesOpt v q names) h := hh.perm (by ac_rfl)
    have hh := sep_mono (P' := ex fun v => namesPin v x nm) (fun _ hx => ⟨w, hx⟩) (fun _ h => h) hh
    exact hh.perm (by ac_rfl)
  hstep (names_free_memory x (some nm))
  refine Triple.ret (fun h hh => pur_sep_iff.mpr ⟨hr, hh⟩)

/-- C79: `osl_statement_pprint_scoplib` writes its text: the statements and the names are unchanged, the names which it generates or copies are freed. -/
theorem statement_pprint_scoplib_memory (hc : c.Valid) (V : BodyMem O) {l : Stmts D} (hl : ∀ s ∈ l, StmtFits c s) {p q : Ptr} {names : Option Names} {t : Str}
    (h : Stmts.pprint_scoplib c L l names = .ok t) :
    Triple (stmtsAt c O p l ∗ namesAt q names) (stmtPprintScoplib c p q) (fun s => pur (s = t) ∗ stmtsAt c O p l ∗ namesAt q names) :=
  (Triple.unpin (Q := fun s => pur (s = t) ∗ stmtsAt c O p l) (fun v => (statement_pprint_scoplib_pin (v := v) hc V hl h).post (fun _ _ hh => hh.perm (by ac_rfl)))).post
    (fun _ _ hh => hh.perm (by ac_rfl))

end

end Osl.Mem
