import Verif.HeapIrrProps2
/-!
# The irregular extension in memory (C78): additions and clones
-/

set_option linter.unusedSectionVars false

namespace Osl.Mem

open Osl.Ext

variable [Allocator] {α β : Type}

/-! ## The values -/

theorem addI_some {a b v : Int} (h : Irregular.addI a b = .ok v) : v = a + b ∧ a + b < 2 ^ 31 := by
  unfold Irregular.addI at h
  split at h
  · rename_i hf
    cases h
    refine ⟨rfl, ?_⟩
    have : cMax 32 = 2 ^ 31 - 1 := rfl
    unfold fits at hf
    omega
  · cases h

theorem addControl_value {x y : Irregular} {its : List (Option Str)} {b : Option Str} (hw : x.WF) (h : Irregular.addControl x its b = .ok y) :
    x.nbControl + x.nbExit + 1 < 2 ^ 31 ∧ y = { nbControl := x.nbControl + 1, nbExit := x.nbExit, preds := x.controls ++ ⟨its, b⟩ :: x.exits, stmts := x.stmts } := by
  have h1 := hw.control
  have h2 := hw.exit
  have h3 := hw.preds
  have hn : x.nbControl + x.nbExit + 1 < 2 ^ 31 := by
    unfold Irregular.addControl at h
    obtain ⟨c, e1, h⟩ := Out.bind_eq_ok.mp h
    obtain ⟨t, e2, h⟩ := Out.bind_eq_ok.mp h
    have a1 := addI_some e1
    have a2 := addI_some e2
    omega
  refine ⟨hn, ?_⟩
  unfold Irregular.addControl at h
  rw [Irregular.addI_ok h1 (by omega) (by omega), Out.ok_bind, Irregular.addI_ok (by omega) h2 (by omega), Out.ok_bind, Irregular.alloc_ok (by omega), Out.ok_bind,
    Irregular.copyPreds_eq (by omega) h1 (by omega), Out.ok_bind, Irregular.copyPreds_eq h1 (by omega) (by omega), Out.ok_bind, Irregular.copyPred_eq] at h
  have e1 : ((List.drop (0 : Int).toNat x.preds).take x.nbControl.toNat) = x.controls := by simp [Irregular.controls]
  have e2 : ((List.drop x.nbControl.toNat x.preds).take (((x.nbControl + 1 + x.nbExit).toNat : Int) - (x.nbControl + 1)).toNat) = x.exits := by
    rw [List.take_of_length_le]; · rfl
    · rw [List.length_drop]; omega
  rw [e1, e2] at h
  injection h with h
  exact h.symm

theorem addExit_value {x y : Irregular} {its : List (Option Str)} {b : Option Str} (hw : x.WF) (h : Irregular.addExit x its b = .ok y) :
    x.nbControl + x.nbExit + 1 < 2 ^ 31 ∧ y = { nbControl := x.nbControl, nbExit := x.nbExit + 1, preds := x.preds ++ [⟨its, b⟩], stmts := x.stmts } := by
  have h1 := hw.control
  have h2 := hw.exit
  have h3 := hw.preds
  have hn : x.nbControl + x.nbExit + 1 < 2 ^ 31 := by
    unfold Irregular.addExit at h
    obtain ⟨c, e1, h⟩ := Out.bind_eq_ok.mp h
    obtain ⟨t, e2, h⟩ := Out.bind_eq_ok.mp h
    have a1 := addI_some e1
    have a2 := addI_some e2
    omega
  refine ⟨hn, ?_⟩
  unfold Irregular.addExit at h
  rw [Irregular.addI_ok h2 (by omega) (by omega), Out.ok_bind, Irregular.addI_ok (by omega) (by omega) (by omega), Out.ok_bind, Irregular.alloc_ok (by omega), Out.ok_bind,
    Irregular.copyPreds_eq (by omega) (by omega) (by omega), Out.ok_bind, Irregular.copyPred_eq, List.take_of_length_le (by rw [List.length_drop]; omega)] at h
  injection h with h
  rw [← h]
  rfl

theorem addPredicates_value {x y : Irregular} {l : List Int} (hw : x.WF) (h : Irregular.addPredicates x l = .ok y) :
    x.nbControl + x.nbExit < 2 ^ 31 ∧ (x.stmts.length : Int) + 1 < 2 ^ 31 ∧ y = { x with stmts := x.stmts ++ [l] } := by
  have hn : x.nbControl + x.nbExit < 2 ^ 31 ∧ (x.stmts.length : Int) + 1 < 2 ^ 31 := by
    unfold Irregular.addPredicates at h
    obtain ⟨c, e1, h⟩ := Out.bind_eq_ok.mp h
    obtain ⟨t, e2, h⟩ := Out.bind_eq_ok.mp h
    have a1 := addI_some e1
    have a2 := addI_some e2
    omega
  refine ⟨hn.1, hn.2, ?_⟩
  rw [Irregular.irregular_add_predicates hw hn.1 hn.2 l] at h
  injection h with h
  exact h.symm

/-! ## Additions -/

theorem irrAt_close {p nb it bo np pr : Ptr} {c e s : Int} {x : Irregular} (h1 : x.nbControl = c) (h2 : x.nbExit = e) (h3 : (x.stmts.length : Int) = s) :
    ∀ h, (p ↦ .node [c, e, s] [nb, it, bo, np, pr] ∗ predsAt nb it bo x.preds ∗ stmtListsAt np pr x.stmts) h → irrAt p x h := by
  intro h hh
  subst h1 h2 h3
  exact ⟨nb, it, bo, np, pr, hh⟩

/-- The first predicates are copied to the same places. -/
theorem irrCopySame_spec {nb it bo : Ptr} {d : Ptr × Ptr × Ptr} {n k : Nat} {src : List Pred} {b : Int} (hb : b = k) (hk : k ≤ src.length) (hn : k ≤ n) :
    Triple (predsAt nb it bo src ∗ partPreds d n []) (Mem.forM 0 b (fun i => irrCopyPred nb it bo d.1 d.2.1 d.2.2 i i)) (fun _ => predsAt nb it bo src ∗ partPreds d n (src.take k)) := by
  have := irrCopyPreds_spec (nb := nb) (it := it) (bo := bo) (d := d) (n := n) (lo := 0) (src := src) (pre := []) (l := src.take k) (a := 0) (b := b) (body := fun i => irrCopyPred nb it bo d.1 d.2.1 d.2.2 i i) rfl
    (by simp; omega) (by simp; omega)
    (fun j y hy => by
      rw [List.getElem?_take] at hy
      split at hy
      · rwa [Nat.zero_add]
      · cases hy)
    (fun j => by rw [Int.zero_add, Nat.zero_add])
  rwa [List.nil_append] at this

/-- The last predicates are copied one place further. -/
theorem irrCopyNext_spec {nb it bo : Ptr} {d : Ptr × Ptr × Ptr} {n k : Nat} {src : List Pred} {y : Pred} {a b : Int} (ha : a = k + 1) (hb : b = src.length + 1) (hk : k ≤ src.length) (hn : n = src.length + 1) :
    Triple (predsAt nb it bo src ∗ partPreds d n (src.take k ++ [y])) (Mem.forM a b (fun i => irrCopyPred nb it bo d.1 d.2.1 d.2.2 (i - 1) i))
      (fun _ => predsAt nb it bo src ∗ partPreds d n (src.take k ++ y :: src.drop k)) := by
  have := irrCopyPreds_spec (nb := nb) (it := it) (bo := bo) (d := d) (n := n) (lo := k) (src := src) (pre := src.take k ++ [y]) (l := src.drop k) (a := a) (b := b)
    (body := fun i => irrCopyPred nb it bo d.1 d.2.1 d.2.2 (i - 1) i) (by simp; omega) (by simp; omega) (by simp; omega)
    (fun j y hy => by rwa [List.getElem?_drop] at hy)
    (fun j => by
      have : a + (j : Int) - 1 = ((k + j : Nat) : Int) := by omega
      rw [this])
  rwa [List.append_assoc, List.cons_append, List.nil_append] at this

theorem irrMalloc_spec : Triple emp irrMalloc (fun r => r ↦ .node [0, 0, 0] [0, 0, 0, 0, 0]) := Triple.alloc _

/-- C78: `osl_irregular_add_control` builds a new extension, apart from the old one and from the arguments, which are left as they are. -/
theorem irregular_add_control_memory {p its b : Ptr} {n : Int} {x y : Irregular} {l : List (Option Str)} {o : Option Str} (hw : x.WF) (hn : n = l.length)
    (h : Irregular.addControl x l o = .ok y) :
    Triple (irrAt p x ∗ tableAt uriAt its l ∗ uriAt b o) (irrAddControl p its n b) (fun r => irrAt p x ∗ tableAt uriAt its l ∗ uriAt b o ∗ irrAt r y) := by
  obtain ⟨hlt, rfl⟩ := addControl_value hw h
  have h1 := hw.control
  have h2 := hw.exit
  have h3 := hw.preds
  have hc : x.controls.length = x.nbControl.toNat := by simp [Irregular.controls]; omega
  have he : x.exits.length = x.nbExit.toNat := by simp [Irregular.exits]; omega
  have a1 : Irregular.addI x.nbControl 1 = .ok (x.nbControl + 1) := Irregular.addI_ok h1 (by omega) (by omega)
  have a2 : Irregular.addI (x.nbControl + 1) x.nbExit = .ok (x.nbControl + 1 + x.nbExit) := Irregular.addI_ok (by omega) h2 (by omega)
  refine Triple.opened (fun h0 hh => ?_)
  obtain ⟨nb, it, bo, np, pr, hh⟩ := hh
  refine ⟨_, hh, ?_⟩
  unfold irrAddControl
  hstep irrMalloc_spec
  hstep (getInt_spec (p := p) (x := x.nbControl) rfl)
  hstep (lift_spec a1)
  hstep (setInt_spec (p := r) (is' := [x.nbControl + 1, 0, 0]) rfl)
  hstep (getInt_spec (p := p) (x := x.nbExit) rfl)
  hstep (setInt_spec (p := r) (is' := [x.nbControl + 1, x.nbExit, 0]) rfl)
  hstep (getInt_spec (p := p) (x := (x.stmts.length : Int)) rfl)
  hstep (setInt_spec (p := r) (is' := [x.nbControl + 1, x.nbExit, (x.stmts.length : Int)]) rfl)
  hstep (lift_spec a2)
  hstep (irrArrays_spec (r := r) (n := x.preds.length + 1) (t := x.nbControl + 1 + x.nbExit) (by omega))
  hstep (irrPreds_spec (p := p))
  hstep (irrCopySame_spec (d := d) (n := x.preds.length + 1) (src := x.preds) (k := x.nbControl.toNat) (b := x.nbControl) (by omega) (by omega) (by omega))
  hstep (irrNewPred_spec (d := d) (n := x.preds.length + 1) (done := x.preds.take x.nbControl.toNat) (o := o) (k := x.nbControl) hn (by simp; omega) (by simp; omega))
  hstep (irrCopyNext_spec (d := d) (n := x.preds.length + 1) (src := x.preds) (k := x.nbControl.toNat) (y := ⟨l, o⟩) (a := x.nbControl + 1) (b := x.nbControl + 1 + x.nbExit) (by omega) (by omega) (by omega) rfl)
  hstep (irrStmts_spec (p := p) (r := r) (l := x.stmts) (m := x.stmts.length) rfl rfl (Nat.le_refl _))
  hconv partPreds_done (d := d) (n := x.preds.length + 1) (l := x.preds.take x.nbControl.toNat ++ ⟨l, o⟩ :: x.preds.drop x.nbControl.toNat) (by simp; omega)
  hconv partStmts_done (l := x.stmts) rfl
  hconv irrAt_close (p := r) (x := { nbControl := x.nbControl + 1, nbExit := x.nbExit, preds := x.controls ++ ⟨l, o⟩ :: x.exits, stmts := x.stmts }) rfl rfl rfl
  hconv irrAt_close (p := p) (x := x) rfl rfl rfl
  hret

/-- C78: the same, for `osl_irregular_add_exit`. -/
theorem irregular_add_exit_memory {p its b : Ptr} {n : Int} {x y : Irregular} {l : List (Option Str)} {o : Option Str} (hw : x.WF) (hn : n = l.length)
    (h : Irregular.addExit x l o = .ok y) :
    Triple (irrAt p x ∗ tableAt uriAt its l ∗ uriAt b o) (irrAddExit p its n b) (fun r => irrAt p x ∗ tableAt uriAt its l ∗ uriAt b o ∗ irrAt r y) := by
  obtain ⟨hlt, rfl⟩ := addExit_value hw h
  have h1 := hw.control
  have h2 := hw.exit
  have h3 := hw.preds
  have a1 : Irregular.addI x.nbExit 1 = .ok (x.nbExit + 1) := Irregular.addI_ok h2 (by omega) (by omega)
  have a2 : Irregular.addI x.nbControl (x.nbExit + 1) = .ok (x.nbControl + (x.nbExit + 1)) := Irregular.addI_ok (by omega) (by omega) (by omega)
  refine Triple.opened (fun h0 hh => ?_)
  obtain ⟨nb, it, bo, np, pr, hh⟩ := hh
  refine ⟨_, hh, ?_⟩
  unfold irrAddExit
  hstep irrMalloc_spec
  hstep (getInt_spec (p := p) (x := x.nbControl) rfl)
  hstep (setInt_spec (p := r) (is' := [x.nbControl, 0, 0]) rfl)
  hstep (getInt_spec (p := p) (x := x.nbExit) rfl)
  hstep (lift_spec a1)
  hstep (setInt_spec (p := r) (is' := [x.nbControl, x.nbExit + 1, 0]) rfl)
  hstep (getInt_spec (p := p) (x := (x.stmts.length : Int)) rfl)
  hstep (setInt_spec (p := r) (is' := [x.nbControl, x.nbExit + 1, (x.stmts.length : Int)]) rfl)
  hstep (lift_spec a2)
  hstep (irrArrays_spec (r := r) (n := x.preds.length + 1) (t := x.nbControl + (x.nbExit + 1)) (by omega))
  hstep (irrPreds_spec (p := p))
  hstep (irrCopySame_spec (d := d) (n := x.preds.length + 1) (src := x.preds) (k := x.preds.length) (b := x.nbControl + (x.nbExit + 1) - 1) (by omega) (by omega) (by omega))
  rw [List.take_length]
  hstep (irrNewPred_spec (d := d) (n := x.preds.length + 1) (done := x.preds) (o := o) (k := x.nbControl + (x.nbExit + 1) - 1) hn (by omega) (by omega))
  hstep (irrStmts_spec (p := p) (r := r) (l := x.stmts) (m := x.stmts.length) rfl rfl (Nat.le_refl _))
  hconv partPreds_done (d := d) (n := x.preds.length + 1) (l := x.preds ++ [⟨l, o⟩]) (by simp)
  hconv partStmts_done (l := x.stmts) rfl
  hconv irrAt_close (p := r) (x := { nbControl := x.nbControl, nbExit := x.nbExit + 1, preds := x.preds ++ [⟨l, o⟩], stmts := x.stmts }) rfl rfl rfl
  hconv irrAt_close (p := p) (x := x) rfl rfl rfl
  hret

/-- C78: the same, for `osl_irregular_add_predicates`. -/
theorem irregular_add_predicates_memory {p q : Ptr} {n : Int} {x y : Irregular} {l : List Int} (hw : x.WF) (hn : n = l.length) (h : Irregular.addPredicates x l = .ok y) :
    Triple (irrAt p x ∗ intsAt q l) (irrAddPredicates p q n) (fun r => irrAt p x ∗ intsAt q l ∗ irrAt r y) := by
  obtain ⟨hlt, hs, rfl⟩ := addPredicates_value hw h
  have h1 := hw.control
  have h2 := hw.exit
  have h3 := hw.preds
  have a1 : Irregular.addI (x.stmts.length : Int) 1 = .ok ((x.stmts.length : Int) + 1) := Irregular.addI_ok (by omega) (by omega) (by omega)
  have a2 : Irregular.addI x.nbControl x.nbExit = .ok (x.nbControl + x.nbExit) := Irregular.addI_ok h1 h2 hlt
  refine Triple.opened (fun h0 hh => ?_)
  obtain ⟨nb, it, bo, np, pr, hh⟩ := hh
  refine ⟨_, hh, ?_⟩
  unfold irrAddPredicates
  hstep irrMalloc_spec
  hstep (getInt_spec (p := p) (x := x.nbControl) rfl)
  hstep (setInt_spec (p := r) (is' := [x.nbControl, 0, 0]) rfl)
  hstep (getInt_spec (p := p) (x := x.nbExit) rfl)
  hstep (setInt_spec (p := r) (is' := [x.nbControl, x.nbExit, 0]) rfl)
  hstep (getInt_spec (p := p) (x := (x.stmts.length : Int)) rfl)
  hstep (lift_spec a1)
  hstep (setInt_spec (p := r) (is' := [x.nbControl, x.nbExit, (x.stmts.length : Int) + 1]) rfl)
  hstep (lift_spec a2)
  hstep (irrArrays_spec (r := r) (n := x.preds.length) (t := x.nbControl + x.nbExit) (by omega))
  hstep (irrPreds_spec (p := p))
  hstep (irrCopySame_spec (d := d) (n := x.preds.length) (src := x.preds) (k := x.preds.length) (b := x.nbControl + x.nbExit) (by omega) (by omega) (by omega))
  rw [List.take_length]
  hstep (irrStmts_spec (p := p) (r := r) (l := x.stmts) (m := x.stmts.length + 1) (k := (x.stmts.length : Int) + 1) (by omega) rfl (Nat.le_succ _))
  hstep (irrNewStmt_spec (p := q) (d := f) (n := x.stmts.length + 1) (l := l) (done := x.stmts) (k := (x.stmts.length : Int)) hn rfl (Nat.lt_succ_self _))
  hconv partPreds_done (d := d) (n := x.preds.length) (l := x.preds) rfl
  hconv partStmts_done (d := f) (n := x.stmts.length + 1) (l := x.stmts ++ [l]) (by simp)
  hconv irrAt_close (p := r) (x := { x with stmts := x.stmts ++ [l] }) (s := (x.stmts.length : Int) + 1) rfl rfl (by simp)
  hconv irrAt_close (p := p) (x := x) rfl rfl rfl
  hret

/-! ## Clones -/

/-- The run is undefined, from every memory with `P` and anything else. -/
def UndefFrom (P : Assn) (m : M α) : Prop := ∀ (R : Assn) (h : Heap), (P ∗ R) h.get → m h = .ub

theorem UndefFrom.step {P : Assn} {q : M β} {P' : β → Assn} {f : β → M α} (hq : Triple P q P') (hf : ∀ r, UndefFrom (P' r) (f r)) : UndefFrom P (q >>= f) := by
  intro R h hh
  obtain ⟨r, h', e, hx⟩ := hq R h hh
  rw [bind_ok e]
  exact hf r R h' hx

theorem UndefFrom.now {P : Assn} {q : M β} {f : β → M α} (hq : UndefFrom P q) : UndefFrom P (q >>= f) := by
  intro R h hh
  exact bind_ub (hq R h hh)

theorem UndefFrom.frame {P F : Assn} {m : M α} (h : UndefFrom P m) : UndefFrom (P ∗ F) m := by
  intro R hp hh
  rw [sep_assoc] at hh
  exact h (F ∗ R) hp hh

theorem UndefFrom.pre {P P' : Assn} {m : M α} (h : UndefFrom P m) (hp : ∀ h, P' h → P h) : UndefFrom P' m := fun R h0 hh => h R h0 (sep_mono hp (fun _ h => h) hh)

theorem UndefFrom.exi {γ : Type} {P : γ → Assn} {m : M α} (h : ∀ x, UndefFrom (P x) m) : UndefFrom (ex P) m := by
  intro R hp hh
  rw [ex_sep] at hh
  obtain ⟨x, hh⟩ := hh
  exact h x R hp hh

theorem UndefFrom.fact {φ : Prop} {P : Assn} {m : M α} (h : φ → UndefFrom P m) : UndefFrom (pur φ ∗ P) m := by
  intro R hp hh
  rw [sep_assoc] at hh
  obtain ⟨e, hh⟩ := pur_sep_iff.mp hh
  exact h e R hp hh

theorem UndefFrom.of_fact {φ : Prop} {P : Assn} {m : M α} (hf : ∀ h, P h → φ) (h : φ → UndefFrom P m) : UndefFrom P m := by
  intro R hp hh
  have hh0 := hh
  obtain ⟨_, _, _, _, hx, _⟩ := hh0
  exact h (hf _ hx) R hp hh

theorem slotSet_undef {a b : Ptr} {l : List (Option Str)} {n : Int} (hn : n = l.length) : UndefFrom (tableAt uriAt a l) (slotSet a n b) := by
  subst hn
  intro R h hh
  by_cases ha : a = 0
  · subst ha
    rfl
  · rw [tableAt_ne ha, ex_sep] at hh
    obtain ⟨ps, hh⟩ := hh
    have hlen : ps.length = l.length := by
      obtain ⟨_, _, _, _, ⟨_, _, _, _, _, he⟩, _⟩ := hh
      exact eachAt_len _ he
    rw [sep_assoc] at hh
    obtain ⟨r, h', e, hx⟩ := loadPtrs_spec (p := a) (l := ps) (eachAt uriAt ps l ∗ R) h hh
    rw [sep_assoc] at hx
    obtain ⟨hr, _⟩ := pur_sep_iff.mp hx
    subst hr
    unfold slotSet
    rw [bind_ok e]
    apply bind_ub
    have : setNth r (l.length : Int) b = .ub := by
      unfold setNth
      rw [if_pos (Or.inr (by omega))]
    rw [this]
    rfl

theorem irrCloneHead_spec {p nb it bo np pr : Ptr} {x : Irregular} {n : Nat} (hn : x.nbControl + x.nbExit = n) (hlt : x.nbControl + x.nbExit < 2 ^ 31) (hc : 0 ≤ x.nbControl) (he : 0 ≤ x.nbExit) :
    Triple (p ↦ .node [x.nbControl, x.nbExit, (x.stmts.length : Int)] [nb, it, bo, np, pr] ∗ predsAt nb it bo x.preds ∗ stmtListsAt np pr x.stmts) (irrCloneHead p)
      (fun d => pur (d.2.1 = (n : Int) ∧ d.2.2.1 = (nb, it, bo)) ∗ (p ↦ .node [x.nbControl, x.nbExit, (x.stmts.length : Int)] [nb, it, bo, np, pr] ∗ predsAt nb it bo x.preds ∗
        stmtListsAt np pr x.stmts) ∗ ex fun bo' => ex fun np' => ex fun pr' => d.1 ↦ .node [x.nbControl, x.nbExit, (x.stmts.length : Int)] [d.2.2.2.1, d.2.2.2.2, bo', np', pr'] ∗
          stmtListsAt np' pr' x.stmts ∗ partPreds (d.2.2.2.1, d.2.2.2.2, bo') n []) := by
  have a2 : Irregular.addI x.nbControl x.nbExit = .ok (n : Int) := by rw [← hn]; exact Irregular.addI_ok hc he hlt
  unfold irrCloneHead partPreds
  hstep irrMalloc_spec
  hstep (getInt_spec (p := p) (x := (x.stmts.length : Int)) rfl)
  hstep (setInt_spec (p := r) (is' := [0, 0, (x.stmts.length : Int)]) rfl)
  refine Triple.step (irrStmts_spec (p := p) (r := r) (l := x.stmts) (m := x.stmts.length) (np := np) (pr := pr) (nb := nb) (it := it) (bo := bo) (is := [x.nbControl, x.nbExit, (x.stmts.length : Int)]) (js := [0, 0, (x.stmts.length : Int)]) (q0 := 0) (q1 := 0) (q2 := 0) (q3 := 0) (q4 := 0) rfl rfl (Nat.le_refl _)) (F := predsAt nb it bo x.preds) (by ac_rfl) (fun f => ?_)
  hnorm
  hstep (getInt_spec (p := p) (x := x.nbControl) rfl)
  hstep (setInt_spec (p := r) (is' := [x.nbControl, 0, (x.stmts.length : Int)]) rfl)
  hstep (getInt_spec (p := p) (x := x.nbExit) rfl)
  hstep (setInt_spec (p := r) (is' := [x.nbControl, x.nbExit, (x.stmts.length : Int)]) rfl)
  hstep (lift_spec a2)
  hstep (mallocInts_fill (m := n) rfl)
  hstep (setPtr_spec (p := r) (l' := [nb', 0, 0, f.1, f.2]) rfl)
  hstep (mallocPtrs_fill (f := tableAt uriAt) (m := n) rfl)
  hstep (setPtr_spec (p := r) (l' := [nb', it', 0, f.1, f.2]) rfl)
  hstep (mallocPtrs_fill (f := uriAt) (m := n) rfl)
  hstep (setPtr_spec (p := r) (l' := [nb', it', bo', f.1, f.2]) rfl)
  hstep (irrPreds_spec (p := p))
  hconv partStmts_done (d := f) (l := x.stmts) rfl
  refine Triple.ret (fun h hh => pur_sep_iff.mpr ⟨⟨rfl, rfl⟩, ?_⟩)
  refine sep_mono (fun _ h => h) (fun _ h => ⟨bo', f.1, f.2, h⟩) ?_
  exact hh.perm (by simp only [List.map_nil]; ac_rfl)

/-- C78: `osl_irregular_clone` of an extension without predicates builds a copy apart from the original (NULL gives NULL). -/
theorem irregular_clone_memory {p : Ptr} {d d' : Option Irregular} (hw : ∀ x, d = some x → x.WF) (h : Irregular.clone d = .ok d') :
    Triple (optAt irrAt p d) (irrClone p) (fun q => optAt irrAt p d ∗ optAt irrAt q d') := by
  unfold irrClone
  cases d with
  | none =>
    cases h
    refine Triple.fact1 (fun hp => ?_)
    rw [if_pos hp]
    refine Triple.ret (fun h hh => ?_)
    exact pur_sep_iff.mpr ⟨hp, rfl, hh⟩
  | some x =>
    have hw := hw x rfl
    have hlt : x.nbControl + x.nbExit < 2 ^ 31 := by
      simp only [Irregular.clone] at h
      obtain ⟨t, e, h⟩ := Out.bind_eq_ok.mp h
      exact (addI_some e).2
    rw [Irregular.irregular_clone_iff hw hlt] at h
    split at h
    · rename_i hp0
      cases h
      have h3 := hw.preds
      rw [hp0] at h3
      refine Triple.of_fact (φ := p ≠ 0) (fun h hh => irrAt_ne h hh) (fun hp => ?_)
      rw [if_neg hp]
      show Triple (irrAt p x) _ (fun q => irrAt p x ∗ irrAt q x)
      refine Triple.opened_all (fun h0 hh => ?_)
      obtain ⟨nb, it, bo, np, pr, hh⟩ := hh
      refine ⟨_, hh, ?_⟩
      refine Triple.bind (irrCloneHead_spec (p := p) (n := 0) (by simpa using h3.symm) hlt hw.control hw.exit) (fun d => ?_)
      refine Triple.fact (fun hd => ?_)
      rw [hd.1]
      hnorm
      hstep (show Triple emp (Mem.forM 0 ((0 : Nat) : Int) (irrClonePred d.2.2.1.1 d.2.2.1.2.1 d.2.2.1.2.2 d.2.2.2.1 d.2.2.2.2)) (fun _ => emp) from Triple.forM_empty (Int.le_refl _))
      hconv partPreds_done (n := 0) (l := []) rfl
      rw [← hp0]
      hconv irrAt_close (p := d.1) (x := x) rfl rfl rfl
      hconv irrAt_close (p := p) (x := x) rfl rfl rfl
      hret
    · cases h

theorem irrCloneIters_spec {nb it nb' it' : Ptr} {n : Nat} {src : List Pred} {x : Pred} (hx : src[0]? = some x) (hn : 0 < n) :
    Triple (intsAt nb (src.map fun x => (x.iters.length : Int)) ∗ tableAt (tableAt uriAt) it (src.map Pred.iters) ∗ intsFill nb' n [] ∗ tableFill (tableAt uriAt) it' n []) (irrCloneIters nb it nb' it' 0)
      (fun d => pur (d.1 = x.iters.length) ∗ tableAt uriAt d.2 x.iters ∗ intsAt nb (src.map fun x => (x.iters.length : Int)) ∗ tableAt (tableAt uriAt) it (src.map Pred.iters) ∗ intsFill nb' n [(x.iters.length : Int)] ∗
        tableHole (tableAt uriAt) it' n [] d.2) := by
  unfold irrCloneIters
  hstep (ints_slot (a := nb) (l := src.map fun x => (x.iters.length : Int)) (i := 0) (v := (x.iters.length : Int)) (by simp [hx]))
  hstep (intsFill_put (a := nb') (n := n) (l := []) (k := 0) rfl hn)
  hstep (mallocPtrs_fill (f := uriAt) (m := x.iters.length) rfl)
  hstep (tableFill_set (f := tableAt uriAt) (a := it') (n := n) (l := []) (k := 0) rfl hn)
  hstep (irrCopyIters_spec (it := it) (src := src.map Pred.iters) (i := 0) (l := x.iters) (by simp [hx]))
  hret

/-- C78: `osl_irregular_clone` of an extension with predicates is undefined, from every memory where this extension is. -/
theorem irregular_clone_undef_memory {p : Ptr} {x : Irregular} (hw : x.WF) (hlt : x.nbControl + x.nbExit < 2 ^ 31) (hne : x.preds ≠ []) : UndefFrom (irrAt p x) (irrClone p) := by
  refine UndefFrom.of_fact (φ := p ≠ 0) (fun h hh => irrAt_ne h hh) (fun hp => ?_)
  unfold irrAt
  refine UndefFrom.exi (fun nb => UndefFrom.exi (fun it => UndefFrom.exi (fun bo => UndefFrom.exi (fun np => UndefFrom.exi (fun pr => ?_)))))
  obtain ⟨y, l, hl⟩ := List.exists_cons_of_ne_nil hne
  have hx : x.preds[0]? = some y := by rw [hl]; rfl
  have key : ∀ nb' it', UndefFrom (predsAt nb it bo x.preds ∗ intsFill nb' x.preds.length [] ∗ tableFill (tableAt uriAt) it' x.preds.length []) (irrClonePred nb it bo nb' it' 0) := by
    intro nb' it'
    unfold predsAt irrClonePred
    refine UndefFrom.pre (P := (intsAt nb (x.preds.map fun x => (x.iters.length : Int)) ∗ tableAt (tableAt uriAt) it (x.preds.map Pred.iters) ∗ intsFill nb' x.preds.length [] ∗
      tableFill (tableAt uriAt) it' x.preds.length []) ∗ tableAt uriAt bo (x.preds.map Pred.body)) ?_ (fun h hh => hh.perm (by ac_rfl))
    refine UndefFrom.step ((irrCloneIters_spec hx (by rw [hl]; simp)).frame _) (fun d => ?_)
    rw [sep_assoc]
    refine UndefFrom.fact (fun e => ?_)
    refine UndefFrom.pre (P := tableAt uriAt bo (x.preds.map Pred.body) ∗ (tableAt uriAt d.2 y.iters ∗ intsAt nb (x.preds.map fun x => (x.iters.length : Int)) ∗
      tableAt (tableAt uriAt) it (x.preds.map Pred.iters) ∗ intsFill nb' x.preds.length [(y.iters.length : Int)] ∗ tableHole (tableAt uriAt) it' x.preds.length [] d.2)) ?_ (fun h hh => hh.perm (by ac_rfl))
    refine UndefFrom.step ((dupSlot_spec (a := bo) (l := x.preds.map Pred.body) (i := 0) (x := y.body) (by simp [hx])).frame _) (fun b' => ?_)
    exact UndefFrom.pre (UndefFrom.frame (slotSet_undef (b := b') e) (F := (tableAt uriAt bo (x.preds.map Pred.body) ∗ uriAt b' y.body) ∗ intsAt nb (x.preds.map fun x => (x.iters.length : Int)) ∗
      tableAt (tableAt uriAt) it (x.preds.map Pred.iters) ∗ intsFill nb' x.preds.length [(y.iters.length : Int)] ∗ tableHole (tableAt uriAt) it' x.preds.length [] d.2)) (fun h hh => hh.perm (by ac_rfl))
  unfold irrClone
  rw [if_neg hp]
  refine UndefFrom.step (irrCloneHead_spec (p := p) (n := x.preds.length) hw.preds.symm hlt hw.control hw.exit) (fun d => ?_)
  refine UndefFrom.fact (fun hd => ?_)
  obtain ⟨r, t, o, nb', it'⟩ := d
  obtain ⟨e1, e2⟩ := hd
  dsimp only at e1 e2
  subst e1 e2
  refine UndefFrom.now ?_
  unfold Mem.forM
  rw [show ((x.preds.length : Int) - 0).toNat = l.length + 1 by rw [hl]; simp]
  show UndefFrom _ (irrClonePred nb it bo nb' it' 0 >>= fun _ => Mem.forN _ l.length (0 + 1))
  refine UndefFrom.now ?_
  rw [sep_comm, ex_sep]
  refine UndefFrom.exi (fun bo' => ?_)
  rw [ex_sep]
  refine UndefFrom.exi (fun np' => ?_)
  rw [ex_sep]
  refine UndefFrom.exi (fun pr' => ?_)
  unfold partPreds
  dsimp only [List.map_nil]
  exact UndefFrom.pre (UndefFrom.frame (key nb' it') (F := p ↦ .node [x.nbControl, x.nbExit, (x.stmts.length : Int)] [nb, it, bo, np, pr] ∗ stmtListsAt np pr x.stmts ∗
    r ↦ .node [x.nbControl, x.nbExit, (x.stmts.length : Int)] [nb', it', bo', np', pr'] ∗ stmtListsAt np' pr' x.stmts ∗ tableFill uriAt bo' x.preds.length [])) (fun h hh => hh.perm (by ac_rfl))

end Osl.Mem
