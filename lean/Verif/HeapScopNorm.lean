import Verif.HeapScopProps
/-!
# Normalization of the scattering relations in memory: theorems (C55)
-/

namespace Osl.Mem

/-- One assignment `m[i][j] = v`. -/
theorem setSiCell_spec {k : Option Kind} (hk : k ≠ none) {m : Ptr} {R C : Int} {d d' : Matrix} {i j v : Int} (hs : set2 d i j v = .ok d') :
    Triple (matAt k m R C d) (setSiCell k m i j v) (fun _ => matAt k m R C d') := by
  refine Triple.opened_all (fun h0 hh => ?_)
  have hrd := matAt_rect hh
  obtain ⟨b1, b2, b3, b4, b5, b6⟩ := set2_bounds hrd hs
  have hlt : flatIdx C i j < d.flatten.length := by rw [flatten_length hrd]; exact idx_lt b1 b2 b3 b4
  obtain ⟨-, qq, l1, x, l2, v1, v2, hl3, hl4, hfd, hh⟩ := matAt_focus b1 b2 b3 b4 (List.getElem?_eq_getElem hlt) hh
  refine ⟨_, hh, ?_⟩
  have hfd' : d'.flatten = v1 ++ v :: v2 := by
    rw [b5]; exact list_set_mid hfd (by omega)
  generalize d.flatten[flatIdx C i j] = w at *
  have fin : ∀ {y : Cell}, ∀ h, (qq ↦ .ints (l1 ++ y :: l2) ∗ cellAt k y v ∗ hole k m R C qq l1 l2 v1 v2) h → matAt k m R C d' h :=
    fun {y} => matAt_unfocus (q := qq) (l2 := l2) (x := y) b6 b1 b2 b3 b4 hl4 hfd'
  unfold hole at *
  cases k with
  | none => exact absurd rfl hk
  | some k =>
    cases k with
    | fixed wd =>
      simp only [cellAt] at fin ⊢
      unfold setSiCell
      simp only
      hnorm
      hlast (writeCell_spec (q := qq) (l2 := l2) (.val v) b1 b2 b3 hl3)
      refine Triple.ret (fun h hh => fin (y := .val v) h ?_)
      rw [pur_true rfl, emp_sep]
      exact hh.perm (by ac_rfl)
    | mp =>
      simp only [cellAt] at fin ⊢
      unfold setSiCell
      simp only
      hnorm
      hstep (readCell_spec (q := qq) (l2 := l2) b1 b2 b3 hl3)
      hstep lift_spec
      hstep Triple.load
      hstep lift_spec
      hlast Triple.store
      hconv (fin (y := .mp q))
      hret

/-- The loop which sets the rows of the new dimensions. -/
theorem diagLoop_spec {c : Cfg} {pr : Int} {m : Ptr} {R C lo hi w b : Int} {d d' : Matrix}
    (h : loop lo hi (fun i m => loop 0 w (fun j m => if i - lo = j - b - 1 then do
      let v ← OInt.set_si c pr (-1)
      set2 m i j v else .ok m) m) d = .ok d') :
    Triple (matAt (kind c pr) m R C d) (forM lo hi (fun i => forM 0 w (fun j => if i - lo = j - b - 1 then setSiCell (kind c pr) m i j (-1) else pure ())))
      (fun _ => matAt (kind c pr) m R C d') := by
  unfold loop at h
  unfold Mem.forM
  refine Triple.loopN (A := fun d => matAt (kind c pr) m R C d) ?_ _ _ _ _ h
  intro i d1 d2 h1
  unfold loop at h1
  refine Triple.loopN (A := fun d => matAt (kind c pr) m R C d) ?_ _ _ _ _ h1
  intro j e1 e2 h2
  by_cases hij : i - lo = j - b - 1
  · rw [if_pos hij] at h2 ⊢
    obtain ⟨v, hv, h2⟩ := Out.bind_eq_ok.mp h2
    have hk : kind c pr ≠ none := by
      intro hk; simp [OInt.set_si, hk] at hv
    have : v = -1 := by
      unfold OInt.set_si at hv
      split at hv
      · injection hv with e; exact e.symm
      · cases hv
    subst this
    exact setSiCell_spec hk h2
  · rw [if_neg hij] at h2 ⊢
    injection h2 with h2
    subst h2
    exact Triple.ret (fun _ h => h)

theorem extendPart_spec [Allocator] {c : Cfg} {dim pr : Int} (p : Ptr) (a : Part) (nx : Ptr) (a' : Part) (h : Rel.extendPart c pr a dim = .ok a') :
    Triple (partAt c p a nx) (relExtendPart c pr dim p) (fun q => partAt c p a nx ∗ partAt c q a' 0) := by
  unfold Rel.extendPart at h
  split at h
  · cases h
  rename_i hd
  obtain ⟨node, h1, h⟩ := Out.bind_eq_ok.mp h
  split at h
  · cases h
  rename_i hp
  have hp : pr = a.precision := by simpa using hp
  subst hp
  obtain ⟨m1, h2, h⟩ := Out.bind_eq_ok.mp h
  obtain ⟨m2, h3, h⟩ := Out.bind_eq_ok.mp h
  obtain ⟨m3, h4, h⟩ := Out.bind_eq_ok.mp h
  obtain ⟨_, _, _, _, rfl⟩ := Rel.pmalloc_fields h1
  injection h with h
  subst h
  unfold relExtendPart
  hopen partAt
  hstep loadRel_spec
  refine Triple.of_if_neg hd ?_
  simp only [hdr]
  hstep (pmalloc_spec h1)
  hopen partAt
  hstep loadRel_spec
  hstep Triple.store
  hstep (hcopy_spec h2)
  hstep (hcopy_spec h3)
  hstep (diagLoop_spec h4)
  hret

/-- C55: `osl_relation_extend_output` gives a relation in new memory and leaves its argument. -/
theorem relation_extend_output_memory [Allocator] {c : Cfg} {r r' : Rel} {dim : Int} (h : Rel.extend_output c r dim = .ok r') (p : Ptr) :
    Triple (relAt c p r) (relExtendOutput c p dim) (fun q => relAt c p r ∗ relAt c q r') := by
  unfold Rel.extend_output at h
  cases r with
  | nil => cases h
  | cons a l =>
    simp only at h
    unfold relExtendOutput
    have e : relAt c p (a :: l) = ex fun n => ex fun m => openAt c p a m n ∗ relAt c n l := relAt_open
    have back : ∀ n m h, (openAt c p a m n ∗ relAt c n l) h → relAt c p (a :: l) h := by
      intro n m h hh
      rw [e]
      exact ⟨n, m, hh⟩
    refine Triple.pre (P := ex fun n => ex fun m => openAt c p a m n ∗ relAt c n l) ?_ (fun h hh => by rw [← e]; exact hh)
    hnorm
    hopen openAt
    hstep loadRel_spec
    hconv (back n m)
    exact Chain.copyAll_spec (N := relChain c) extendPart_spec h p

variable {D : Type} [Allocator] {L : Lib D} {O : DataMem D L.toEnv} {c : Cfg}

theorem scattDims_spec {x : Ptr} {r : Rel} {m : Int} : Triple (relAt c x r) (scattDims m x)
    (fun v => pur (v = (match r with | [] => m | p :: _ => Rel.omax m p.nb_output_dims)) ∗ relAt c x r) := by
  unfold scattDims
  hfact (relAt_null' (p := x))
  intro hx
  cases r with
  | nil =>
    have hx := hx.mpr rfl
    rw [if_neg (by simp [hx])]
    hret
  | cons a l =>
    have hx : x ≠ 0 := by intro hh; cases hx.mp hh
    rw [if_pos hx]
    have e : relAt c x (a :: l) = ex fun n => ex fun m => openAt c x a m n ∗ relAt c n l := relAt_open
    rw [e]
    hnorm
    hopen openAt
    hstep loadRel_spec
    hret

theorem maxScattLoop_spec : ∀ (fuel : Nat) (l : Stmts D) (p : Ptr) (m : Int), l.length ≤ fuel →
    Triple (stmtsAt c O p l) (maxScattLoop fuel p m) (fun v => pur (v = Scops.maxScatt l m) ∗ stmtsAt c O p l)
  | fuel, [], p, m, _ => by
    hfact (stmtsAt_null (O := O) (p := p) (l := []))
    intro h0
    have h0 := h0.mpr rfl
    have e : maxScattLoop fuel p m = pure m := by cases fuel <;> (unfold maxScattLoop; rw [if_pos h0])
    rw [e]
    hret
  | 0, s :: l, p, m, hl => by simp at hl
  | fuel + 1, s :: l, p, m, hl => by
    hfact (stmtsAt_null (O := O) (p := p) (l := s :: l))
    intro h0
    have hp : ¬ p = 0 := by intro hh; cases h0.mp hh
    unfold maxScattLoop stmtNext
    rw [if_neg hp, stmtsAt_cons]
    hopen stmtAt
    hnorm
    hopen stmtAt
    hstep getField_spec
    hstep scattDims_spec
    hstep getField_spec
    hlast (maxScattLoop_spec fuel l n _ (by simpa using hl))
    hret

theorem normalizeStmt_spec {dim : Int} (p : Ptr) (s : Stmt D) (n : Ptr) (s' : Stmt D) (h : Scops.normalizeOne c dim s = .ok s') :
    Triple (stmtAt c O p s n) (normalizeStmt c dim p) (fun _ => stmtAt c O p s' n) := by
  unfold normalizeStmt
  hopen stmtAt
  hstep getField_spec
  unfold replaceScatt
  hfact (relAt_null' (p := sc))
  intro hx
  unfold Scops.normalizeOne at h
  cases hs : s.scattering with
  | nil =>
    rw [hs] at hx h
    injection h with h
    subst h
    have hx := hx.mpr rfl
    rw [if_neg (by simp [hx]), ← hs]
    hret
  | cons b r =>
    rw [hs] at hx h
    obtain ⟨e', he, h⟩ := Out.bind_eq_ok.mp h
    injection h with h
    subst h
    have hx : sc ≠ 0 := by intro hh; cases hx.mp hh
    rw [if_pos hx]
    hstep (relation_extend_output_memory he)
    hstep getField_spec
    hstep relation_free_memory
    hlast setField_spec
    hret

/-- A loop which updates the structures with a partial function. -/
theorem eachNode_out {α : Type} {N : Chain α} {g : α → Out α} {act : Ptr → M Unit}
    (ht : ∀ p a n a', g a = .ok a' → Triple (N.at_ p a n) (act p) (fun _ => N.at_ p a' n)) {l l' : List α} (h : Out.mapOut g l = .ok l') (p : Ptr) :
    Triple (N.list p l) (eachNode N.toNext act p) (fun _ => N.list p l') := by
  have key : ∀ (fuel : Nat) (l l' : List α) (p : Ptr), l.length ≤ fuel → Out.mapOut g l = .ok l' →
      Triple (N.list p l) (eachLoop N.toNext act fuel p) (fun _ => N.list p l') := by
    intro fuel
    induction fuel with
    | zero =>
      intro l l' p hl hm
      have : l = [] := List.length_eq_zero_iff.mp (by omega)
      subst this
      injection hm with hm
      subst hm
      refine Triple.of_fact (φ := p = 0) (fun h hh => hh.1) (fun hp => ?_)
      unfold eachLoop
      rw [if_pos hp]
      hret
    | succ fuel ih =>
      intro l l' p hl hm
      cases l with
      | nil =>
        injection hm with hm
        subst hm
        refine Triple.of_fact (φ := p = 0) (fun h hh => hh.1) (fun hp => ?_)
        unfold eachLoop
        rw [if_pos hp]
        hret
      | cons a l =>
        obtain ⟨a', l2, ha, hm2, rfl⟩ := Out.mapOut_cons_eq_ok.mp hm
        refine Triple.of_fact (φ := p ≠ 0) (fun h hh => Chain.list_cons_ne hh) (fun hp => ?_)
        unfold eachLoop
        rw [if_neg hp, Chain.list_cons, Chain.list_cons]
        hnorm
        hstep (ht p a _ a' ha)
        hstep (N.get_spec p a' _)
        hlast (ih l l2 _ (by simpa using hl) hm2)
        hret
  unfold eachNode
  hstep (Triple.heapSize (Chain.seg_big (N := N) l p 0))
  rename_i hf
  hlast (key f l l' p hf h)
  hret

/-- C55: `osl_scop_normalize_scattering` replaces the scattering relations, and frees the old ones. -/
theorem scop_normalize_scattering_memory {l l' : Scops D} (h : Scops.normalize_scattering c l = .ok l') (p : Ptr) :
    Triple (scopsAt c O p l) (scopNormalize c p) (fun _ => scopsAt c O p l') := by
  unfold Scops.normalize_scattering at h
  unfold scopNormalize
  cases l with
  | nil =>
    injection h with h
    subst h
    refine Triple.of_fact (φ := p = 0) (fun h hh => hh.1) (fun hp => ?_)
    rw [if_neg (by simp [hp])]
    hret
  | cons s l =>
    obtain ⟨sts, hm, h⟩ := Out.bind_eq_ok.mp h
    injection h with h
    subst h
    refine Triple.of_fact (φ := p ≠ 0) (fun h hh => Chain.list_cons_ne hh) (fun hp => ?_)
    rw [if_pos hp]
    show Triple (ex fun n => scopAt c O p s n ∗ scopsAt c O n l) _ (fun _ => ex fun n => scopAt c O p { s with statement := sts } n ∗ scopsAt c O n l)
    hnorm
    hopen scopAt
    hstep getPtr_spec
    unfold normalizeStmts
    hstep (Triple.heapSize (Chain.seg_big (N := stmtChain c O) s.statement st 0))
    rename_i hf
    hstep (maxScattLoop_spec (O := O) f s.statement st 0 hf)
    hlast (eachNode_out (N := stmtChain c O) normalizeStmt_spec hm st)
    hret

end Osl.Mem
