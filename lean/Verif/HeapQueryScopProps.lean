import Verif.HeapQueryStmtProps
/-!
# Functions which only read scops in memory (C75)
-/

set_option linter.unusedSectionVars false

namespace Osl.Mem

variable {D : Type} [Allocator] {L : Lib D} {O : DataMem D L.toEnv} {c : Cfg} {Q : EqMem O}

theorem scop_next (p : Ptr) (s : Scop D) (n : Ptr) : Query ((scopChain c O).at_ p s n) ((scopChain c O).get p) n := by
  refine Query.ex (fun l => Query.ex (fun x => Query.ex (fun g => Query.ex (fun st => Query.ex (fun r => Query.ex (fun e => ?_))))))
  show Query _ (getPtr p 6) n
  exact (getPtr_query rfl).left

/-- C75: `osl_scop_number` only reads. -/
theorem scop_number_query {p : Ptr} {l : Scops D} : Query (scopsAt c O p l) (scopNumber p) l.length := countAll_query (N := scopChain c O) scop_next

theorem scop_attrs_until : ∀ (l : Scops D) (loc a : Rel.Attrs), Scops.attrsLoop c l loc a =
    until_ (fun (s : Scop D) (_ : List (Scop D)) (st : Rel.Attrs × Rel.Attrs) => do
      let loc ← Rel.get_attributes c s.context st.1
      let loc ← Stmts.get_attributes c s.statement loc
      return (.inl (loc, attrsMax st.2 loc) : (Rel.Attrs × Rel.Attrs) ⊕ Rel.Attrs)) (fun s => s.2) l (loc, a)
  | [], _, _ => rfl
  | s :: l, loc, a => by
    simp only [Scops.attrsLoop, until_]
    cases h1 : Rel.get_attributes c s.context loc with
    | err => rfl
    | ub => rfl
    | ok x =>
      simp only [Out.ok_bind]
      cases h2 : Stmts.get_attributes c s.statement x with
      | err => rfl
      | ub => rfl
      | ok y =>
        simp only [Out.ok_bind, Out.pure_eq]
        exact scop_attrs_until l y _

/-- C75: `osl_scop_get_attributes` only reads. -/
theorem scop_get_attributes_query {p : Ptr} {l : Scops D} {a v : Rel.Attrs} (h : Scops.get_attributes c l a = .ok v) :
    Query (scopsAt c O p l) (scopAttributes c p a) v := by
  unfold Scops.get_attributes at h
  rw [scop_attrs_until] at h
  refine chase_query (N := scopChain c O) scop_next (fun s k l1 _ p st x hx => ?_) h
  unfold scopAttrsStep
  rw [Chain.list_cons]
  refine Query.ex (fun n => ?_)
  refine Query.left ?_
  refine Query.ex (fun l => Query.ex (fun x => Query.ex (fun g => Query.ex (fun sp => Query.ex (fun r => Query.ex (fun e => ?_))))))
  obtain ⟨u, hu, hx⟩ := Out.bind_eq_ok.mp hx
  obtain ⟨w, hw, hx⟩ := Out.bind_eq_ok.mp hx
  cases hx
  qstep (getPtr_query (p := p) (i := 1) rfl)
  qstep (relation_get_attributes_query hu)
  qstep (getPtr_query (p := p) (i := 3) rfl)
  qstep (statement_get_attributes_query hw)
  exact Query.ret _

/-- C75: `osl_scop_get_nb_parameters` only reads. -/
theorem scop_get_nb_parameters_query {p n : Ptr} {s : Scop D} : Query (scopAt c O p s n) (scopNbParameters p) (Scops.get_nb_parameters s) := by
  refine Query.ex (fun l => Query.ex (fun x => Query.ex (fun g => Query.ex (fun st => Query.ex (fun r => Query.ex (fun e => ?_))))))
  unfold scopNbParameters
  qstep (getPtr_query (p := p) (i := 1) rfl)
  have : Scops.get_nb_parameters s = (match s.context with | [] => 0 | a :: _ => a.nb_parameters) := by
    unfold Scops.get_nb_parameters
    cases s.context <;> rfl
  rw [this]
  qfind paramDims_query

/-- One turn of the integrity check, on values. -/
def scopCheckOne (c : Cfg) (L : Lib D) (s : Scop D) : Out Bool :=
  match Rel.integrity_check c s.context TYPE_CONTEXT UNDEFINED UNDEFINED UNDEFINED with
  | .ok true => Stmts.integrity_check c L (Scops.expectedParams s.context) s.statement
  | r => r

theorem scop_integrity_until : ∀ l : Scops D, Scops.integrity_check c L l =
    until_ (fun (s : Scop D) (_ : List (Scop D)) (_ : Unit) => match scopCheckOne c L s with
      | .ok true => Out.ok (.inl ()) | .ok false => .ok (.inr false) | .err => .err | .ub => .ub) (fun _ => true) l ()
  | [] => rfl
  | s :: l => by
    simp only [Scops.integrity_check, until_, scopCheckOne]
    cases Rel.integrity_check c s.context TYPE_CONTEXT UNDEFINED UNDEFINED UNDEFINED with
    | err => rfl
    | ub => rfl
    | ok x => cases x with
      | false => rfl
      | true =>
        dsimp only
        cases Stmts.integrity_check c L (Scops.expectedParams s.context) s.statement with
        | err => rfl
        | ub => rfl
        | ok x => cases x with
          | true => exact scop_integrity_until l
          | false => rfl

/-- C75: `osl_scop_integrity_check` only reads. -/
theorem scop_integrity_check_query (V : BodyView O) {p : Ptr} {l : Scops D} {b : Bool} (h : Scops.integrity_check c L l = .ok b) :
    Query (scopsAt c O p l) (scopIntegrity c p) b := by
  rw [scop_integrity_until] at h
  refine chase_query (N := scopChain c O) scop_next (fun s k l1 _ p st y hy => ?_) h
  unfold scopIntegrityStep
  rw [Chain.list_cons]
  refine Query.ex (fun n => ?_)
  refine Query.left ?_
  refine Query.ex (fun l => Query.ex (fun x => Query.ex (fun g => Query.ex (fun sp => Query.ex (fun r => Query.ex (fun e => ?_))))))
  qstep (getPtr_query (p := p) (i := 1) rfl)
  simp only [scopCheckOne] at hy
  cases h1 : Rel.integrity_check c s.context TYPE_CONTEXT UNDEFINED UNDEFINED UNDEFINED with
  | err => rw [h1] at hy; cases hy
  | ub => rw [h1] at hy; cases hy
  | ok b1 =>
    rw [h1] at hy
    qstep (relation_integrity_check_query h1)
    cases b1 with
    | false => cases hy; exact Query.ret _
    | true =>
      rw [if_pos rfl]
      dsimp only at hy
      have hd : Query (relAt c x s.context) (paramDims UNDEFINED x) (Scops.expectedParams s.context) := by
        have : Scops.expectedParams s.context = (match s.context with | [] => UNDEFINED | a :: _ => a.nb_parameters) := by
          unfold Scops.expectedParams
          cases s.context <;> rfl
        rw [this]
        exact paramDims_query
      qstep hd
      qstep (getPtr_query (p := p) (i := 3) rfl)
      cases h2 : Stmts.integrity_check c L (Scops.expectedParams s.context) s.statement with
      | err => rw [h2] at hy; cases hy
      | ub => rw [h2] at hy; cases hy
      | ok b2 =>
        rw [h2] at hy
        qstep (statement_integrity_check_query V h2)
        cases b2 <;> (cases hy; exact Query.ret _)

theorem scopEqualOne_query {p q n o : Ptr} {s t : Scop D} {b : Bool} (h : Scops.equalOne c L s t = .ok b) :
    Query (scopAt c O p s n ∗ scopAt c O q t o) (scopEqualOne c Q.equal p q) b := by
  unfold scopAt
  rw [ex_sep]; refine Query.ex (fun l1 => ?_)
  rw [ex_sep]; refine Query.ex (fun x1 => ?_)
  rw [ex_sep]; refine Query.ex (fun g1 => ?_)
  rw [ex_sep]; refine Query.ex (fun s1 => ?_)
  rw [ex_sep]; refine Query.ex (fun r1 => ?_)
  rw [ex_sep]; refine Query.ex (fun e1 => ?_)
  rw [sep_ex]; refine Query.ex (fun l2 => ?_)
  rw [sep_ex]; refine Query.ex (fun x2 => ?_)
  rw [sep_ex]; refine Query.ex (fun g2 => ?_)
  rw [sep_ex]; refine Query.ex (fun s2 => ?_)
  rw [sep_ex]; refine Query.ex (fun r2 => ?_)
  rw [sep_ex]; refine Query.ex (fun e2 => ?_)
  rw [show ((p ↦ .node [s.version] [l1, x1, g1, s1, r1, e1, n] ∗ uriAt l1 s.language ∗ relAt c x1 s.context ∗ glistAt O g1 s.parameters ∗ stmtsAt c O s1 s.statement ∗
      ifacesAt r1 s.registry ∗ glistAt O e1 s.extension) ∗ q ↦ .node [t.version] [l2, x2, g2, s2, r2, e2, o] ∗ uriAt l2 t.language ∗ relAt c x2 t.context ∗
      glistAt O g2 t.parameters ∗ stmtsAt c O s2 t.statement ∗ ifacesAt r2 t.registry ∗ glistAt O e2 t.extension) =
    (p ↦ .node [s.version] [l1, x1, g1, s1, r1, e1, n] ∗ q ↦ .node [t.version] [l2, x2, g2, s2, r2, e2, o] ∗ (uriAt l1 s.language ∗ uriAt l2 t.language) ∗
      (relAt c x1 s.context ∗ relAt c x2 t.context) ∗ (glistAt O g1 s.parameters ∗ glistAt O g2 t.parameters) ∗ (stmtsAt c O s1 s.statement ∗ stmtsAt c O s2 t.statement) ∗
      (ifacesAt r1 s.registry ∗ ifacesAt r2 t.registry) ∗ (glistAt O e1 s.extension ∗ glistAt O e2 t.extension)) by ac_rfl]
  unfold scopEqualOne
  unfold Scops.equalOne at h
  qstep (getInt_query (p := p) (i := 0) rfl)
  qstep (getInt_query (p := q) (i := 0) rfl)
  by_cases hv : s.version ≠ t.version
  · rw [if_pos hv] at h ⊢
    cases h
    exact Query.ret _
  rw [if_neg hv] at h ⊢
  qstep (getPtr_query (p := p) (i := 0) rfl)
  qstep (getPtr_query (p := q) (i := 0) rfl)
  cases hl1 : s.language with
  | none => rw [hl1] at h; cases h
  | some u =>
  cases hl2 : t.language with
  | none => rw [hl1, hl2] at h; cases h
  | some w =>
  rw [hl1, hl2] at h
  dsimp only at h
  have hs : Query (uriAt l1 (some u) ∗ uriAt l2 (some w)) (strEq l1 l2) (decide (u = w)) := strEq_query
  qstep hs
  by_cases huw : u = w
  · rw [if_neg (by simp [huw])] at h
    rw [decide_eq_true huw, if_pos rfl]
    unfold scopEqualRest
    unfold Scops.equalRest at h
    qstep (getPtr_query (p := p) (i := 1) rfl)
    qstep (getPtr_query (p := q) (i := 1) rfl)
    cases h1 : Rel.equal c s.context t.context with
    | err => rw [h1] at h; cases h
    | ub => rw [h1] at h; cases h
    | ok b1 =>
      rw [h1] at h
      qstep (relation_equal_query h1)
      cases b1 with
      | false => cases h; exact Query.ret _
      | true =>
        rw [if_pos rfl]
        dsimp only at h
        qstep (getPtr_query (p := p) (i := 2) rfl)
        qstep (getPtr_query (p := q) (i := 2) rfl)
        cases h2 : GList.equal L.toEnv s.parameters t.parameters with
        | err => rw [h2] at h; cases h
        | ub => rw [h2] at h; cases h
        | ok b2 =>
          rw [h2] at h
          qstep (generic_equal_query h2)
          cases b2 with
          | false => cases h; exact Query.ret _
          | true =>
            rw [if_pos rfl]
            dsimp only at h
            qstep (getPtr_query (p := p) (i := 3) rfl)
            qstep (getPtr_query (p := q) (i := 3) rfl)
            cases h3 : Stmts.equal c L s.statement t.statement with
            | err => rw [h3] at h; cases h
            | ub => rw [h3] at h; cases h
            | ok b3 =>
              rw [h3] at h
              qstep (statement_equal_query h3)
              cases b3 with
              | false => cases h; exact Query.ret _
              | true =>
                rw [if_pos rfl]
                dsimp only at h
                qstep (getPtr_query (p := p) (i := 4) rfl)
                qstep (getPtr_query (p := q) (i := 4) rfl)
                cases h4 : Ifaces.equal s.registry.head? t.registry.head? with
                | err => rw [h4] at h; cases h
                | ub => rw [h4] at h; cases h
                | ok b4 =>
                  rw [h4] at h
                  qstep (interface_equal_query h4)
                  cases b4 with
                  | false => cases h; exact Query.ret _
                  | true =>
                    rw [if_pos rfl]
                    dsimp only at h
                    qstep (getPtr_query (p := p) (i := 5) rfl)
                    qstep (getPtr_query (p := q) (i := 5) rfl)
                    qfind (generic_equal_query h)
  · rw [if_pos huw] at h
    cases h
    rw [decide_eq_false huw, if_neg (by simp)]
    exact Query.ret _

theorem scop_sameAll : ∀ (l k : Scops D), Scops.equal c L l k = sameAll (Scops.equalOne c L) l k
  | [], [] => rfl
  | [], _ :: _ => rfl
  | _ :: _, [] => rfl
  | x :: l, y :: k => by
    simp only [Scops.equal, sameAll]
    cases Scops.equalOne c L x y with
    | ok b => cases b with
      | true => exact scop_sameAll l k
      | false => rfl
    | err => rfl
    | ub => rfl

/-- C75: `osl_scop_equal` on two lists of scops only reads them. -/
theorem scop_equal_query {p q : Ptr} {l k : Scops D} {b : Bool} (h : Scops.equal c L l k = .ok b) : Query (scopsAt c O p l ∗ scopsAt c O q k) (scopEqual c Q.equal p q) b := by
  rw [scop_sameAll] at h
  exact sharedAll_query (N := scopChain c O) scop_next (fun x _ y _ p q n o v hv => scopEqualOne_query hv) h

/-- C75: `osl_scop_equal` of a list with itself. -/
theorem scop_equal_self_query {p : Ptr} {l : Scops D} {eqf : Nat → Ptr → Ptr → M Bool} : Query (scopsAt c O p l) (scopEqual c eqf p p) true := sharedAll_self (N := scopChain c O)

/-! ## Compatibility with SCoPLib -/

theorem until_ok {α σ : Type} {g : α → List α → σ → Out (σ ⊕ Unit)} {l : List α} {s : σ} (h : ∀ a ∈ l, ∀ k s, ∃ s', g a k s = .ok (.inl s')) :
    until_ g (fun _ => ()) l s = .ok () := by
  induction l generalizing s with
  | nil => rfl
  | cons a l ih =>
    obtain ⟨s', e⟩ := h a (by simp) l s
    simp only [until_, e]
    exact ih (fun b hb => h b (by simp [hb]))

theorem noLocals_query {p : Ptr} {r : Rel} (h : r.any (fun q => decide (q.nb_local_dims ≠ 0)) = false) : Query (relAt c p r) (noLocals p) () := by
  refine chase_query (N := relChain c) (g := fun a _ _ => if a.nb_local_dims ≠ 0 then .err else .ok (.inl ())) part_next (fun a k l1 e p s x hx => ?_) (until_ok (fun a ha k s => ?_))
  · have hx : (if a.nb_local_dims ≠ 0 then Out.err else .ok (.inl ())) = .ok x := hx
    rw [show (relChain c).list p (a :: k) = relAt c p (a :: k) from rfl, relAt_open]
    refine Query.ex (fun n => Query.ex (fun m => ?_))
    unfold openAt
    qstep loadRel_query
    by_cases hl : a.nb_local_dims ≠ 0
    · rw [if_pos hl] at hx; cases hx
    · rw [if_neg hl] at hx
      cases hx
      have hl : ¬ (hdr a).nb_local_dims ≠ 0 := hl
      rw [if_neg hl]
      exact Query.ret _
  · have : ¬ a.nb_local_dims ≠ 0 := by
      intro hc
      have := List.any_eq_false.mp h a ha
      simp [hc] at this
    exact ⟨(), by rw [if_neg this]⟩

theorem loopN_row {precision : Int} {p : Part} {i : Int} : ∀ (n : Nat) (j : Int), Scops.identRow c precision p i n j = .ok () →
    Osl.loopN (fun j (_ : Unit) => do
      let v ← get2 p.m i (j + 1)
      if precision ≠ p.precision then Out.ub
      else do
        let ok ← (if i = j then OInt.mone c precision v else OInt.zero c precision v)
        if ok then .ok () else .err) n j () = .ok ()
  | 0, j, _ => rfl
  | n + 1, j, h => by
    simp only [Scops.identRow] at h
    simp only [Osl.loopN]
    obtain ⟨v, hv, h⟩ := Out.bind_eq_ok.mp h
    rw [hv]
    simp only [Out.ok_bind]
    by_cases hp : precision ≠ p.precision
    · rw [if_pos hp] at h; cases h
    · rw [if_neg hp] at h ⊢
      obtain ⟨ok, hk, h⟩ := Out.bind_eq_ok.mp h
      rw [hk]
      simp only [Out.ok_bind]
      cases ok with
      | false => cases h
      | true =>
        rw [if_pos rfl] at h ⊢
        exact loopN_row n (j + 1) h

theorem loopN_rows {precision : Int} {p : Part} : ∀ (n : Nat) (i : Int), Scops.identRows c precision p n i = .ok () →
    Osl.loopN (fun i (_ : Unit) => Scops.identRow c precision p i p.nb_output_dims.toNat 0) n i () = .ok ()
  | 0, i, _ => rfl
  | n + 1, i, h => by
    simp only [Scops.identRows] at h
    simp only [Osl.loopN]
    obtain ⟨v, hv, h⟩ := Out.bind_eq_ok.mp h
    rw [hv]
    exact loopN_rows n (i + 1) h

theorem identMatrix_query {precision : Int} {m : Ptr} {a : Part} (h : Scops.identRows c precision a a.nb_rows.toNat 0 = .ok ()) :
    Query (matAt (kind c a.precision) m a.nb_rows a.nb_columns a.m) (identMatrix c precision (hdr a) m) () := by
  unfold identMatrix forS
  have e1 : (hdr a).nb_rows - 0 = a.nb_rows := Int.sub_zero _
  have e2 : (hdr a).nb_output_dims - 0 = a.nb_output_dims := Int.sub_zero _
  rw [e1, e2]
  refine forNS_query (f := fun i (_ : Unit) => Scops.identRow c precision a i a.nb_output_dims.toNat 0) (fun i s s' hs => ?_) _ _ _ _ (loopN_rows _ _ h)
  refine forNS_query (fun j s s' hs => ?_) _ _ _ _ (loopN_row _ _ hs)
  obtain ⟨v, hv, hs⟩ := Out.bind_eq_ok.mp hs
  by_cases hp : precision ≠ a.precision
  · rw [if_pos hp] at hs; cases hs
  · rw [if_neg hp] at hs
    have hp : precision = a.precision := Classical.byContradiction hp
    obtain ⟨ok, hk, hs⟩ := Out.bind_eq_ok.mp hs
    unfold identCell
    rw [hp] at hk ⊢
    qstep (mat_query hv)
    refine Query.bind (Query.lift hk) ?_
    cases ok with
    | false => cases hs
    | true =>
      rw [if_pos rfl]
      exact Query.ret _

/-- One turn on the statements, on values. -/
def scoplibOne (c : Cfg) (precision : Int) (s : Stmt D) : Out (Unit ⊕ Bool) :=
  match s.scattering with
  | [] => .ub
  | p :: _ =>
    if p.nb_local_dims ≠ 0 then .err
    else if s.domain.any (fun q => decide (q.nb_local_dims ≠ 0)) then .err
    else Scops.identRows c precision p p.nb_rows.toNat 0 >>= fun _ => .ok (.inl ())

theorem scoplib_until {precision : Int} : ∀ l : Stmts D, Scops.scoplibLoop c precision l = .ok () →
    until_ (fun (s : Stmt D) (_ : List (Stmt D)) (_ : Unit) => scoplibOne c precision s) (fun _ => true) l () = .ok true
  | [], _ => rfl
  | s :: l, h => by
    simp only [Scops.scoplibLoop] at h
    simp only [until_, scoplibOne]
    cases hs : s.scattering with
    | nil => rw [hs] at h; cases h
    | cons p r =>
      rw [hs] at h
      dsimp only at h ⊢
      split at h
      · cases h
      rename_i h1
      rw [if_neg h1]
      split at h
      · cases h
      rename_i h2
      rw [if_neg h2]
      obtain ⟨u, hu, h⟩ := Out.bind_eq_ok.mp h
      rw [hu]
      simp only [Out.ok_bind]
      exact scoplib_until l h

theorem scoplibStep_query {precision : Int} {p n : Ptr} {s : Stmt D} {x : Unit ⊕ Bool} (h : scoplibOne c precision s = .ok x) :
    Query (stmtAt c O p s n) (scoplibStep c precision p ()) x := by
  refine Query.ex (fun d => Query.ex (fun sc => Query.ex (fun ac => Query.ex (fun e => ?_))))
  unfold scoplibStep
  qstep (getField_query (p := p) (i := 1) rfl)
  simp only [scoplibOne] at h
  cases hs : s.scattering with
  | nil => rw [hs] at h; cases h
  | cons a r =>
    rw [hs] at h
    dsimp only at h
    split at h
    · cases h
    rename_i h1
    split at h
    · cases h
    rename_i h2
    obtain ⟨u, hu, h⟩ := Out.bind_eq_ok.mp h
    cases h
    rw [relAt_open]
    rw [show ∀ (P P' R : Assn) (A : Ptr → Ptr → Assn), (P ∗ P' ∗ (ex fun n => ex fun m => A n m) ∗ R) = (ex fun n => ex fun m => P ∗ P' ∗ A n m ∗ R) by
      intro P P' R A
      rw [ex_sep]
      rw [sep_ex, sep_ex]
      congr 1; funext n
      rw [ex_sep, sep_ex, sep_ex]]
    refine Query.ex (fun n2 => Query.ex (fun m => ?_))
    unfold openAt
    qstep loadRel_query
    have h1 : ¬ (hdr a).nb_local_dims ≠ 0 := h1
    rw [if_neg h1]
    qstep (getField_query (p := p) (i := 0) rfl)
    qstep (noLocals_query (by simpa using h2))
    qstep (identMatrix_query hu)
    exact Query.ret _

/-- C75: `osl_scop_check_compatible_scoplib` only reads. -/
theorem scop_check_compatible_scoplib_query (V : BodyView O) {p : Ptr} {l : Scops D} {b : Bool} (h : Scops.check_compatible_scoplib c L l = .ok b) :
    Query (scopsAt c O p l) (scopCheckScoplib c p) b := by
  unfold scopCheckScoplib
  unfold Scops.check_compatible_scoplib at h
  cases h1 : Scops.integrity_check c L l with
  | err => rw [h1] at h; cases h
  | ub => rw [h1] at h; cases h
  | ok b1 =>
    rw [h1] at h
    refine Query.bind (scop_integrity_check_query V h1) ?_
    cases b1 with
    | false => cases h; exact Query.ret _
    | true =>
      rw [if_pos rfl]
      cases l with
      | nil => cases h
      | cons x l =>
        show Query ((scopChain c O).list p (x :: l)) _ _
        rw [Chain.list_cons]
        refine Query.ex (fun n => ?_)
        refine Query.bind ((scop_next (c := c) (O := O) p x n).left) ?_
        cases l with
        | cons y l =>
          cases h
          refine Query.of_fact (φ := n ≠ 0) (fun _ hh => ?_) (fun hn => ?_)
          · obtain ⟨_, _, _, _, _, h2⟩ := hh
            exact Chain.list_cons_ne h2
          rw [if_pos hn]
          exact Query.ret _
        | nil =>
          rw [sep_comm, Chain.list_null]
          refine Query.fact (fun hn => ?_)
          rw [if_neg (by simp [hn])]
          refine Query.ex (fun l => Query.ex (fun cx => Query.ex (fun g => Query.ex (fun sp => Query.ex (fun r => Query.ex (fun e => ?_))))))
          qstep (getPtr_query (p := p) (i := 3) rfl)
          refine Query.right (Query.right (Query.right (Query.right (Query.left ?_))))
          dsimp only at h
          unfold scoplibStmts
          cases hs : x.statement with
          | nil =>
            rw [hs] at h
            cases h
            refine Query.of_fact (φ := sp = 0) (fun _ hh => hh.1) (fun hp => ?_)
            rw [if_pos hp]
            exact Query.ret _
          | cons st sts =>
            rw [hs] at h
            dsimp only at h
            refine Query.of_fact (fun _ hh => Chain.list_cons_ne hh) (fun hp => ?_)
            rw [if_neg hp]
            cases hsc : st.scattering with
            | nil => rw [hsc] at h; cases h
            | cons a rr =>
              rw [hsc] at h
              dsimp only at h
              have fin : Query (stmtsAt c O sp (st :: sts)) (chase stmtNext (scoplibStep c a.precision) (fun _ => true) sp ()) b := by
                cases hl : Scops.scoplibLoop c a.precision (st :: sts) with
                | err => rw [hl] at h; cases h
                | ub => rw [hl] at h; cases h
                | ok u =>
                  rw [hl] at h
                  cases h
                  refine chase_query (N := stmtChain c O) stmt_next (fun s k l1 _ p st x hx => ?_) (scoplib_until _ hl)
                  rw [Chain.list_cons]
                  refine Query.ex (fun n => ?_)
                  exact (scoplibStep_query hx).left
              show Query ((stmtChain c O).list sp (st :: sts)) _ _
              rw [Chain.list_cons]
              refine Query.ex (fun n2 => ?_)
              show Query (stmtAt c O sp st n2 ∗ stmtsAt c O n2 sts) _ _
              have stmt_eq : stmtAt c O sp st n2 = ex fun d => ex fun sc => ex fun a2 => ex fun e => sp ↦ .ptrs [d, sc, a2, e, n2] ∗ relAt c d st.domain ∗
                  relAt c sc (a :: rr) ∗ rlistAt c a2 st.access ∗ glistAt O e st.extension := by
                unfold stmtAt
                rw [hsc]
              rw [stmt_eq]
              rw [ex_sep]; refine Query.ex (fun d => ?_)
              rw [ex_sep]; refine Query.ex (fun sc => ?_)
              rw [ex_sep]; refine Query.ex (fun a2 => ?_)
              rw [ex_sep]; refine Query.ex (fun e2 => ?_)
              qstep (getField_query (p := sp) (i := 1) rfl)
              rw [show ((sp ↦ .ptrs [d, sc, a2, e2, n2] ∗ relAt c d st.domain ∗ relAt c sc (a :: rr) ∗ rlistAt c a2 st.access ∗ glistAt O e2 st.extension) ∗ stmtsAt c O n2 sts) =
                (relAt c sc (a :: rr) ∗ (sp ↦ .ptrs [d, sc, a2, e2, n2] ∗ relAt c d st.domain ∗ rlistAt c a2 st.access ∗ glistAt O e2 st.extension ∗ stmtsAt c O n2 sts)) by ac_rfl,
                relAt_open, ex_sep]
              refine Query.ex (fun n3 => ?_)
              rw [ex_sep]
              refine Query.ex (fun m => ?_)
              have ld : Query (openAt c sc a m n3 ∗ relAt c n3 rr) (loadRel sc) (hdr a, m, n3) := by
                unfold openAt
                qfind loadRel_query
              refine Query.bind ld.left ?_
              refine fin.mono (fun h hh => sep_anything ⟨n2, ?_⟩)
              have h1 : (relAt c sc (a :: rr) ∗ (sp ↦ .ptrs [d, sc, a2, e2, n2] ∗ relAt c d st.domain ∗ rlistAt c a2 st.access ∗ glistAt O e2 st.extension ∗ stmtsAt c O n2 sts)) h :=
                sep_mono (fun _ hx => by rw [relAt_open]; exact ⟨n3, m, hx⟩) (fun _ h => h) hh
              have h2 : ((sp ↦ .ptrs [d, sc, a2, e2, n2] ∗ relAt c d st.domain ∗ relAt c sc (a :: rr) ∗ rlistAt c a2 st.access ∗ glistAt O e2 st.extension) ∗ stmtsAt c O n2 sts) h :=
                h1.perm (by ac_rfl)
              exact sep_mono (fun _ hx => by
                show stmtAt c O sp st n2 _
                rw [stmt_eq]
                exact ⟨d, sc, a2, e2, hx⟩) (fun _ h => h) h2

end Osl.Mem
