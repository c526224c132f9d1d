import Verif.HeapQueryGenProps
import Verif.HeapExtProps2
/-!
# Functions which only read statements and scops in memory (C75)
-/

set_option linter.unusedSectionVars false

namespace Osl.Mem

open Osl.Ext

/-! ## Strings -/

theorem strSizeLoop_query {arr : Ptr} : ∀ (ps : List Ptr) (f i : Nat) (done : List Ptr), (∀ p ∈ ps, p ≠ 0) → done.length = i → ps.length < f →
    Query (arr ↦ .ptrs (done ++ (ps ++ [0]))) (strSizeLoop arr f i) (i + ps.length)
  | ps, 0, _, _, _, _, hf => absurd hf (by omega)
  | [], f + 1, i, done, _, hi, _ => by
    unfold strSizeLoop
    qstep (getField_query (l := done ++ ([] ++ [0])) (x := 0) (nth_mid (by omega)))
    rw [if_pos rfl]
    exact Query.ret _
  | p :: ps, f + 1, i, done, hn, hi, hf => by
    show Query (arr ↦ .ptrs (done ++ (p :: (ps ++ [0])))) _ _
    unfold strSizeLoop
    qstep (getField_query (l := done ++ (p :: (ps ++ [0]))) (x := p) (nth_mid (by omega)))
    rw [if_neg (hn p (by simp))]
    have := strSizeLoop_query (arr := arr) ps f (i + 1) (done ++ [p]) (fun q hq => hn q (by simp [hq])) (by simp [hi]) (by simpa using hf)
    rw [show i + 1 + ps.length = i + (p :: ps).length by simp; omega] at this
    simpa using this

/-- C75: `osl_strings_size` only reads. -/
theorem strings_size_query {p : Ptr} {s : Option Strings} : Query (stringsAt p s) (strSize p) (Strings.size s) := by
  unfold strSize
  cases s with
  | none =>
    refine Query.of_fact (φ := p = 0) (fun _ hh => hh.1) (fun hp => ?_)
    rw [if_neg (by simp [hp])]
    exact Query.ret _
  | some s =>
    refine Query.ex (fun a => ?_)
    refine Query.of_fact (fun h hh => pto_ne_sep h hh) (fun hp => ?_)
    rw [if_pos hp]
    qstep (getField_query rfl)
    refine Query.right ?_
    rw [strings_size_eq]
    unfold strSizeArray
    cases s.string with
    | none =>
      refine Query.of_fact (φ := a = 0) (fun _ hh => hh.1) (fun hp => ?_)
      rw [if_neg (by simp [hp])]
      exact Query.ret _
    | some ws =>
      refine Query.ex (fun ps => ?_)
      refine Query.of_fact (φ := a ≠ 0 ∧ (∀ p ∈ ps, p ≠ 0) ∧ ps.length = ws.length) (fun h hh => ?_) (fun ha => ?_)
      · refine ⟨pto_ne_sep h hh, ?_⟩
        obtain ⟨_, _, _, _, _, h2⟩ := hh
        exact ⟨wordsAt_ne h2, wordsAt_length h2⟩
      rw [if_pos ha.1]
      qstep loadPtrs_query
      have := strSizeLoop_query (arr := a) ps (ps ++ [0]).length 0 [] ha.2.1 rfl (by simp)
      rw [Nat.zero_add, ha.2.2] at this
      exact this.left

variable {D : Type} [Allocator] {L : Lib D} {O : DataMem D L.toEnv} {c : Cfg} {Q : EqMem O}

/-! ## Statements -/

theorem stmt_next (p : Ptr) (s : Stmt D) (n : Ptr) : Query ((stmtChain c O).at_ p s n) ((stmtChain c O).get p) n := by
  refine Query.ex (fun d => Query.ex (fun sc => Query.ex (fun a => Query.ex (fun e => ?_))))
  show Query _ (getField p 4) n
  exact (getField_query rfl).left

/-- C75: `osl_statement_number` only reads. -/
theorem statement_number_query {p : Ptr} {l : Stmts D} : Query (stmtsAt c O p l) (stmtNumber p) l.length := countAll_query (N := stmtChain c O) stmt_next

theorem stmt_attrs_until : ∀ (l : Stmts D) (loc a : Rel.Attrs), Stmts.attrsLoop c l loc a =
    until_ (fun (s : Stmt D) (_ : List (Stmt D)) (st : Rel.Attrs × Rel.Attrs) => do
      let loc ← Rel.get_attributes c s.domain st.1
      let loc ← Rel.get_attributes c s.scattering loc
      let loc ← RList.get_attributes c s.access loc
      return (.inl (loc, attrsMax st.2 loc) : (Rel.Attrs × Rel.Attrs) ⊕ Rel.Attrs)) (fun s => s.2) l (loc, a)
  | [], _, _ => rfl
  | s :: l, loc, a => by
    simp only [Stmts.attrsLoop, until_]
    cases h1 : Rel.get_attributes c s.domain loc with
    | err => rfl
    | ub => rfl
    | ok x =>
      simp only [Out.ok_bind]
      cases h2 : Rel.get_attributes c s.scattering x with
      | err => rfl
      | ub => rfl
      | ok y =>
        simp only [Out.ok_bind]
        cases h3 : RList.get_attributes c s.access y with
        | err => rfl
        | ub => rfl
        | ok z =>
          simp only [Out.ok_bind, Out.pure_eq]
          exact stmt_attrs_until l z _

/-- C75: `osl_statement_get_attributes` only reads. -/
theorem statement_get_attributes_query {p : Ptr} {l : Stmts D} {a v : Rel.Attrs} (h : Stmts.get_attributes c l a = .ok v) :
    Query (stmtsAt c O p l) (stmtAttributes c p a) v := by
  unfold Stmts.get_attributes at h
  rw [stmt_attrs_until] at h
  refine chase_query (N := stmtChain c O) stmt_next (fun s k l1 _ p st x hx => ?_) h
  unfold stmtAttrsStep
  rw [Chain.list_cons]
  refine Query.ex (fun n => ?_)
  refine Query.left ?_
  refine Query.ex (fun d => Query.ex (fun sc => Query.ex (fun ac => Query.ex (fun e => ?_))))
  obtain ⟨u, hu, hx⟩ := Out.bind_eq_ok.mp hx
  obtain ⟨w, hw, hx⟩ := Out.bind_eq_ok.mp hx
  obtain ⟨z, hz, hx⟩ := Out.bind_eq_ok.mp hx
  cases hx
  qstep (getField_query (p := p) (i := 0) rfl)
  qstep (relation_get_attributes_query hu)
  qstep (getField_query (p := p) (i := 1) rfl)
  qstep (relation_get_attributes_query hw)
  qstep (getField_query (p := p) (i := 2) rfl)
  qstep (list_get_attributes_query hz)
  exact Query.ret _

theorem outputDims_query {d : Int} {p : Ptr} {r : Rel} : Query (relAt c p r) (outputDims d p) (match r with | [] => d | a :: _ => a.nb_output_dims) := by
  unfold outputDims
  cases r with
  | nil =>
    refine rel_nil (fun hp => ?_)
    rw [if_pos hp]
    exact Query.ret _
  | cons a l =>
    refine rel_ne (fun hp => ?_)
    rw [if_neg hp, relAt_open]
    refine Query.ex (fun n => Query.ex (fun m => ?_))
    unfold openAt
    qstep loadRel_query
    exact Query.ret _

theorem paramDims_query {d : Int} {p : Ptr} {r : Rel} : Query (relAt c p r) (paramDims d p) (match r with | [] => d | a :: _ => a.nb_parameters) := by
  unfold paramDims
  cases r with
  | nil =>
    refine rel_nil (fun hp => ?_)
    rw [if_pos hp]
    exact Query.ret _
  | cons a l =>
    refine rel_ne (fun hp => ?_)
    rw [if_neg hp, relAt_open]
    refine Query.ex (fun n => Query.ex (fun m => ?_))
    unfold openAt
    qstep loadRel_query
    exact Query.ret _

/-- C75: `osl_statement_get_nb_iterators` only reads. -/
theorem statement_get_nb_iterators_query {p n : Ptr} {s : Stmt D} : Query (stmtAt c O p s n) (stmtNbIterators p) (Stmts.get_nb_iterators s) := by
  refine Query.ex (fun d => Query.ex (fun sc => Query.ex (fun ac => Query.ex (fun e => ?_))))
  unfold stmtNbIterators
  qstep (getField_query (p := p) (i := 0) rfl)
  have : Stmts.get_nb_iterators s = (match s.domain with | [] => 0 | a :: _ => a.nb_output_dims) := by
    unfold Stmts.get_nb_iterators
    cases s.domain <;> rfl
  rw [this]
  qfind outputDims_query

/-- How the bodies are seen by the functions on statements (specification): the casts of source/statement.c:752, 848-855. -/
structure BodyView (O : DataMem D L.toEnv) : Prop where
  body : ∀ {d b p h}, L.body d = some b → O.at_ p d h → bodyAt p b h
  extbody : ∀ {d o p h}, L.extbody d = some o → O.at_ p d h → ∃ x : Extbody, x.body = o ∧ extbodyAt p x h

theorem stmtBodyBad_query {its : Int} {p : Ptr} {b : Option Body} : Query (optAt bodyAt p b) (stmtBodyBad its p) (Stmts.bodyBad its b) := by
  unfold stmtBodyBad
  by_cases hu : its = UNDEFINED
  · rw [if_pos hu]
    have : Stmts.bodyBad its b = false := by
      cases b <;> simp [Stmts.bodyBad, hu]
    rw [this]
    exact Query.ret _
  · rw [if_neg hu]
    cases b with
    | none =>
      refine Query.of_fact (φ := p = 0) (fun _ hh => hh.1) (fun hp => ?_)
      rw [if_pos hp]
      exact Query.ret _
    | some b =>
      refine Query.ex (fun x => Query.ex (fun y => ?_))
      refine Query.of_fact (fun h hh => pto_ne_sep h hh) (fun hp => ?_)
      rw [if_neg hp]
      qstep (getField_query rfl)
      refine Query.right (Query.left ?_)
      unfold itersBad Stmts.bodyBad
      cases hi : b.iterators with
      | none =>
        refine Query.of_fact (φ := x = 0) (fun _ hh => hh.1) (fun hx => ?_)
        rw [if_pos hx]
        dsimp only
        rw [hi, Option.isSome_none, Bool.and_false, Bool.false_and]
        exact Query.ret _
      | some s =>
        refine Query.of_fact (φ := x ≠ 0) (fun h hh => ?_) (fun hx => ?_)
        · obtain ⟨a, hh⟩ := hh
          exact pto_ne_sep h hh
        rw [if_neg hx]
        dsimp only
        rw [hi, Option.isSome_some, Bool.and_true, decide_eq_true hu, Bool.true_and]
        qstep strings_size_query
        exact Query.ret _

theorem findBody_finds (V : BodyView O) {p : Ptr} {l : GList D} {b : Option Body} (h : Stmts.lookupBody L l = .ok b) :
    Finds (glistAt O p l) (genFind URI_BODY p) (fun q => optAt bodyAt q b) := by
  intro h0 hh
  obtain ⟨q, h1, h2⟩ := generic_lookup_finds (O := O) (t := URI_BODY) h0 hh
  refine ⟨q, h1, sep_mono (fun h' hx => ?_) (fun _ h => h) h2⟩
  unfold Stmts.lookupBody at h
  dsimp only at hx
  cases hl : GList.lookup l URI_BODY with
  | none =>
    rw [hl] at h hx
    cases h
    exact hx
  | some d =>
    rw [hl] at h hx
    dsimp only at h
    cases hb : L.body d with
    | none => rw [hb] at h; cases h
    | some b1 =>
      rw [hb] at h
      cases h
      exact V.body hb hx

theorem stmtIntegrityOne_query (V : BodyView O) {p n : Ptr} {s : Stmt D} {np : Int} {b : Bool} (h : Stmts.integrityOne c L np s = .ok b) :
    Query (stmtAt c O p s n) (stmtIntegrityOne c np p) b := by
  refine Query.ex (fun d => Query.ex (fun sc => Query.ex (fun ac => Query.ex (fun e => ?_))))
  unfold stmtIntegrityOne
  unfold Stmts.integrityOne at h
  qstep (getField_query (p := p) (i := 0) rfl)
  cases h1 : Rel.integrity_check c s.domain TYPE_DOMAIN UNDEFINED 0 np with
  | err => rw [h1] at h; cases h
  | ub => rw [h1] at h; cases h
  | ok b1 =>
    rw [h1] at h
    qstep (relation_integrity_check_query h1)
    cases b1 with
    | false => cases h; exact Query.ret _
    | true =>
      rw [if_pos rfl]
      dsimp only at h
      have hd : Query (relAt c d s.domain) (outputDims UNDEFINED d) (Stmts.expectedIters s.domain) := by
        have : Stmts.expectedIters s.domain = (match s.domain with | [] => UNDEFINED | a :: _ => a.nb_output_dims) := by
          unfold Stmts.expectedIters
          cases s.domain <;> rfl
        rw [this]
        exact outputDims_query
      qstep hd
      generalize Stmts.expectedIters s.domain = its at h
      unfold stmtIntegrityRest
      qstep (getField_query (p := p) (i := 1) rfl)
      cases h2 : Rel.integrity_check c s.scattering TYPE_SCATTERING UNDEFINED its np with
      | err => rw [h2] at h; cases h
      | ub => rw [h2] at h; cases h
      | ok b2 =>
        rw [h2] at h
        qstep (relation_integrity_check_query h2)
        cases b2 with
        | false => cases h; exact Query.ret _
        | true =>
          rw [if_pos rfl]
          dsimp only at h
          qstep (getField_query (p := p) (i := 2) rfl)
          cases h3 : RList.integrity_check c TYPE_ACCESS UNDEFINED its np s.access with
          | err => rw [h3] at h; cases h
          | ub => rw [h3] at h; cases h
          | ok b3 =>
            rw [h3] at h
            qstep (list_integrity_check_query h3)
            cases b3 with
            | false => cases h; exact Query.ret _
            | true =>
              rw [if_pos rfl]
              dsimp only at h
              qstep (getField_query (p := p) (i := 3) rfl)
              cases h4 : Stmts.lookupBody L s.extension with
              | err => rw [h4] at h; cases h
              | ub => rw [h4] at h; cases h
              | ok b4 =>
                rw [h4] at h
                cases h
                refine Finds.query ((findBody_finds V h4).right.right.right.right) (fun q => ?_)
                qstep stmtBodyBad_query
                exact Query.ret _

theorem stmt_integrity_until {np : Int} : ∀ l : Stmts D, Stmts.integrity_check c L np l =
    until_ (fun (s : Stmt D) (_ : List (Stmt D)) (_ : Unit) => match Stmts.integrityOne c L np s with
      | .ok true => Out.ok (.inl ()) | .ok false => .ok (.inr false) | .err => .err | .ub => .ub) (fun _ => true) l ()
  | [] => rfl
  | s :: l => by
    simp only [Stmts.integrity_check, until_]
    cases Stmts.integrityOne c L np s with
    | ok x => cases x with
      | true => exact stmt_integrity_until l
      | false => rfl
    | err => rfl
    | ub => rfl

/-- C75: `osl_statement_integrity_check` only reads. -/
theorem statement_integrity_check_query (V : BodyView O) {p : Ptr} {l : Stmts D} {np : Int} {b : Bool} (h : Stmts.integrity_check c L np l = .ok b) :
    Query (stmtsAt c O p l) (stmtIntegrity c p np) b := by
  rw [stmt_integrity_until] at h
  refine chase_query (N := stmtChain c O) stmt_next (fun s k l1 _ p st x hx => ?_) h
  unfold stmtIntegrityStep
  rw [Chain.list_cons]
  refine Query.ex (fun n => ?_)
  refine Query.left ?_
  cases ha : Stmts.integrityOne c L np s with
  | err => rw [ha] at hx; cases hx
  | ub => rw [ha] at hx; cases hx
  | ok b =>
    rw [ha] at hx
    refine Query.bind (stmtIntegrityOne_query V ha) ?_
    cases b <;> (cases hx; exact Query.ret _)

theorem stmtEqualOne_query {p q n o : Ptr} {s t : Stmt D} {b : Bool} (h : Stmts.equalOne c L s t = .ok b) :
    Query (stmtAt c O p s n ∗ stmtAt c O q t o) (stmtEqualOne c Q.equal p q) b := by
  unfold stmtAt
  rw [ex_sep]; refine Query.ex (fun d1 => ?_)
  rw [ex_sep]; refine Query.ex (fun s1 => ?_)
  rw [ex_sep]; refine Query.ex (fun a1 => ?_)
  rw [ex_sep]; refine Query.ex (fun e1 => ?_)
  rw [sep_ex]; refine Query.ex (fun d2 => ?_)
  rw [sep_ex]; refine Query.ex (fun s2 => ?_)
  rw [sep_ex]; refine Query.ex (fun a2 => ?_)
  rw [sep_ex]; refine Query.ex (fun e2 => ?_)
  rw [show ((p ↦ .ptrs [d1, s1, a1, e1, n] ∗ relAt c d1 s.domain ∗ relAt c s1 s.scattering ∗ rlistAt c a1 s.access ∗ glistAt O e1 s.extension) ∗
      q ↦ .ptrs [d2, s2, a2, e2, o] ∗ relAt c d2 t.domain ∗ relAt c s2 t.scattering ∗ rlistAt c a2 t.access ∗ glistAt O e2 t.extension) =
    (p ↦ .ptrs [d1, s1, a1, e1, n] ∗ q ↦ .ptrs [d2, s2, a2, e2, o] ∗ (relAt c d1 s.domain ∗ relAt c d2 t.domain) ∗ (relAt c s1 s.scattering ∗ relAt c s2 t.scattering) ∗
      (rlistAt c a1 s.access ∗ rlistAt c a2 t.access) ∗ (glistAt O e1 s.extension ∗ glistAt O e2 t.extension)) by ac_rfl]
  unfold stmtEqualOne
  unfold Stmts.equalOne at h
  qstep (getField_query (p := p) (i := 0) rfl)
  qstep (getField_query (p := q) (i := 0) rfl)
  cases h1 : Rel.equal c s.domain t.domain with
  | err => rw [h1] at h; cases h
  | ub => rw [h1] at h; cases h
  | ok b1 =>
    rw [h1] at h
    qstep (relation_equal_query h1)
    cases b1 with
    | false => cases h; exact Query.ret _
    | true =>
      rw [if_pos rfl]
      dsimp only at h
      qstep (getField_query (p := p) (i := 1) rfl)
      qstep (getField_query (p := q) (i := 1) rfl)
      cases h2 : Rel.equal c s.scattering t.scattering with
      | err => rw [h2] at h; cases h
      | ub => rw [h2] at h; cases h
      | ok b2 =>
        rw [h2] at h
        qstep (relation_equal_query h2)
        cases b2 with
        | false => cases h; exact Query.ret _
        | true =>
          rw [if_pos rfl]
          dsimp only at h
          qstep (getField_query (p := p) (i := 2) rfl)
          qstep (getField_query (p := q) (i := 2) rfl)
          cases h3 : RList.equal c s.access t.access with
          | err => rw [h3] at h; cases h
          | ub => rw [h3] at h; cases h
          | ok b3 =>
            rw [h3] at h
            qstep (list_equal_query h3)
            cases b3 with
            | false => cases h; exact Query.ret _
            | true =>
              rw [if_pos rfl]
              dsimp only at h
              qstep (getField_query (p := p) (i := 3) rfl)
              qstep (getField_query (p := q) (i := 3) rfl)
              qfind (generic_equal_query h)

theorem stmtNe {p q n o : Ptr} {s t : Stmt D} {F : Assn} : ∀ h, (stmtAt c O p s n ∗ stmtAt c O q t o ∗ F) h → p ≠ q := fun h hh =>
  Chain.at_ne (N := stmtChain c O) h hh

theorem stmtEqualRec_query : ∀ (f : Nat) (l k : Stmts D) (p q : Ptr) (b : Bool), l.length ≤ f → Stmts.equal c L l k = .ok b →
    Query (stmtsAt c O p l ∗ stmtsAt c O q k) (stmtEqualRec c Q.equal f p q) b
  | f, [], [], p, q, b, _, h => by
    cases h
    refine Query.of_fact (φ := p = 0 ∧ q = 0) (fun _ hh => ?_) (fun hp => ?_)
    · obtain ⟨_, _, _, _, h1, h2⟩ := hh
      exact ⟨h1.1, h2.1⟩
    obtain ⟨rfl, rfl⟩ := hp
    cases f <;> exact Query.ret _
  | f, [], _ :: _, p, q, b, _, h => by cases h
  | f, _ :: _, [], p, q, b, _, h => by cases h
  | 0, s :: l, t :: k, p, q, b, hf, h => by simp at hf
  | f + 1, s :: l, t :: k, p, q, b, hf, h => by
    show Query ((stmtChain c O).list p (s :: l) ∗ (stmtChain c O).list q (t :: k)) _ _
    rw [Chain.list_cons, Chain.list_cons, ex_sep]
    refine Query.ex (fun n => ?_)
    rw [sep_ex]
    refine Query.ex (fun o => ?_)
    rw [show (((stmtChain c O).at_ p s n ∗ (stmtChain c O).list n l) ∗ (stmtChain c O).at_ q t o ∗ (stmtChain c O).list o k) =
      ((stmtAt c O p s n ∗ stmtAt c O q t o) ∗ (stmtsAt c O n l ∗ stmtsAt c O o k)) by
        show ((stmtAt c O p s n ∗ stmtsAt c O n l) ∗ stmtAt c O q t o ∗ stmtsAt c O o k) = _
        ac_rfl]
    refine Query.of_fact (φ := p ≠ q) (fun h0 hh => stmtNe (c := c) (O := O) (s := s) (t := t) (n := n) (o := o) (F := stmtsAt c O n l ∗ stmtsAt c O o k) h0 (hh.perm (by ac_rfl))) (fun hp => ?_)
    unfold stmtEqualRec
    rw [if_neg hp]
    qstep (stmt_next (c := c) (O := O) p s n)
    qstep (stmt_next (c := c) (O := O) q t o)
    have nl : ∀ (n : Ptr) (l : Stmts D) (h : PHeap), stmtsAt c O n l h → (n = 0 ↔ l = []) := by
      intro n l h hh
      cases l with
      | nil => exact ⟨fun _ => rfl, fun _ => hh.1⟩
      | cons a l => exact ⟨fun e => absurd e (Chain.list_cons_ne hh), fun e => by cases e⟩
    refine Query.of_fact (φ := (n = 0 ↔ l = []) ∧ (o = 0 ↔ k = [])) (fun _ hh => ?_) (fun hn => ?_)
    · obtain ⟨_, _, _, _, _, ⟨_, _, _, _, h1, h2⟩⟩ := hh
      exact ⟨nl _ _ _ h1, nl _ _ _ h2⟩
    obtain ⟨hn, ho⟩ := hn
    cases l with
    | nil =>
      cases k with
      | nil =>
        have e1 := hn.mpr rfl
        have e2 := ho.mpr rfl
        rw [if_neg (by simp [e1, e2]), if_neg (by simp [e1])]
        exact (stmtEqualOne_query h).left
      | cons y k =>
        cases h
        have e1 := hn.mpr rfl
        have e2 : o ≠ 0 := fun e => by cases ho.mp e
        rw [if_pos (by simp [e1, e2])]
        exact Query.ret _
    | cons x l =>
      have e1 : n ≠ 0 := fun e => by cases hn.mp e
      cases k with
      | nil =>
        cases h
        have e2 := ho.mpr rfl
        rw [if_pos (by simp [e1, e2])]
        exact Query.ret _
      | cons y k =>
        have e2 : o ≠ 0 := fun e => by cases ho.mp e
        rw [if_neg (by simp [e1, e2]), if_pos ⟨e1, e2⟩]
        simp only [Stmts.equal] at h
        cases h1 : Stmts.equal c L (x :: l) (y :: k) with
        | err => rw [h1] at h; cases h
        | ub => rw [h1] at h; cases h
        | ok b1 =>
          rw [h1] at h
          refine Query.bind ((stmtEqualRec_query f (x :: l) (y :: k) n o b1 (by simpa using hf) h1).right) ?_
          cases b1 with
          | false => cases h; exact Query.ret _
          | true =>
            rw [if_pos rfl]
            exact (stmtEqualOne_query h).left

/-- C75: `osl_statement_equal` on two lists of statements only reads them. -/
theorem statement_equal_query {p q : Ptr} {l k : Stmts D} {b : Bool} (h : Stmts.equal c L l k = .ok b) : Query (stmtsAt c O p l ∗ stmtsAt c O q k) (stmtEqual c Q.equal p q) b := by
  unfold stmtEqual
  exact Query.heapSize ((Chain.seg_big (N := stmtChain c O) l p 0).sep (Big.zero _)) (fun f hf => stmtEqualRec_query f l k p q b (by simpa using hf) h)

/-- C75: `osl_statement_equal` of a list with itself. -/
theorem statement_equal_self_query {p : Ptr} {P : Assn} {eqf : Nat → Ptr → Ptr → M Bool} : Query P (stmtEqual c eqf p p) true := by
  unfold stmtEqual
  refine Query.heapSize (k := 0) (Big.zero _) (fun f _ => ?_)
  cases f <;> (unfold stmtEqualRec; rw [if_pos rfl]; exact Query.ret _)

theorem bodyOf_finds (V : BodyView O) {p : Ptr} {s : Stmt D} {b : Option Body} (h : Stmts.get_body L [s] = .ok b) :
    Finds (glistAt O p s.extension) (bodyOf p) (fun q => optAt bodyAt q b) := by
  unfold bodyOf
  refine Finds.both (generic_lookup_finds (O := O) (t := URI_BODY)) (fun q h0 hp hq => ?_)
  simp only [Stmts.get_body] at h
  cases hl : GList.lookup s.extension URI_BODY with
  | some d =>
    rw [hl] at h hq
    dsimp only at h
    have hq0 : q ≠ 0 := by
      obtain ⟨_, _, _, _, h1, _⟩ := hq
      exact O.nonnull h1
    rw [if_pos hq0]
    cases hb : L.body d with
    | none => rw [hb] at h; cases h
    | some b1 =>
      rw [hb] at h
      cases h
      exact ⟨q, rfl, sep_mono (fun _ hx => V.body hb hx) (fun _ h => h) hq⟩
  | none =>
    rw [hl] at h hq
    dsimp only at h
    have hq0 : q = 0 := by
      obtain ⟨_, _, _, _, h1, _⟩ := hq
      exact h1.1
    rw [if_neg (by simp [hq0])]
    refine Finds.seq (generic_lookup_finds (O := O) (t := URI_EXTBODY)) (fun e => ?_) h0 hp
    unfold extbodyBody
    cases hl2 : GList.lookup s.extension URI_EXTBODY with
    | none =>
      rw [hl2] at h
      cases h
      refine Finds.of_fact (φ := e = 0) (fun _ hh => hh.1) (fun he => ?_)
      subst he
      rw [if_neg (by simp)]
      refine Finds.ret (fun h hh => pur_sep_iff.mpr ⟨rfl, trivial⟩)
    | some d =>
      rw [hl2] at h
      dsimp only at h
      cases hb : L.extbody d with
      | none => rw [hb] at h; cases h
      | some o =>
        rw [hb] at h
        cases h
        intro h1 hh
        obtain ⟨u, v, hd, hj, hu, hv⟩ := hh
        obtain ⟨x, rfl, hx⟩ := V.extbody hb hu
        have hx : (extbodyAt e x ∗ anything) h1.get := ⟨u, v, hd, hj, hx, hv⟩
        have key : Finds (extbodyAt e x) (if e ≠ 0 then getPtr e 2 else pure 0) (fun q => optAt bodyAt q x.body) := by
          refine Finds.of_fact (fun h hh => extbodyAt_ne h hh) (fun he => ?_)
          rw [if_pos he]
          refine Finds.ex (fun s => Finds.ex (fun l => Finds.ex (fun b => ?_)))
          refine Finds.of_query (v := b) ((getPtr_query rfl).left) (fun h hh => ?_)
          have : (optAt bodyAt b x.body ∗ (e ↦ .node [(x.access.length : Int)] [s, l, b] ∗ intsAt s (x.access.map (·.1)) ∗ intsAt l (x.access.map (·.2)))) h := hh.perm (by ac_rfl)
          exact sep_mono (fun _ h => h) (fun _ _ => trivial) this
        exact key h1 hx

/-- C75: `osl_statement_get_body` only reads: it finds the body of the first statement. -/
theorem statement_get_body_finds (V : BodyView O) {p : Ptr} {l : Stmts D} {b : Option Body} (h : Stmts.get_body L l = .ok b) :
    Finds (stmtsAt c O p l) (stmtGetBody p) (fun q => optAt bodyAt q b) := by
  unfold stmtGetBody
  cases l with
  | nil =>
    cases h
    refine Finds.of_fact (φ := p = 0) (fun _ hh => hh.1) (fun hp => ?_)
    rw [if_pos hp]
    exact Finds.ret (fun h hh => pur_sep_iff.mpr ⟨rfl, trivial⟩)
  | cons s l =>
    refine Finds.of_fact (fun _ hh => Chain.list_cons_ne hh) (fun hp => ?_)
    rw [if_neg hp]
    show Finds ((stmtChain c O).list p (s :: l)) _ _
    rw [Chain.list_cons]
    refine Finds.ex (fun n => Finds.left ?_)
    refine Finds.ex (fun d => Finds.ex (fun sc => Finds.ex (fun ac => Finds.ex (fun e => ?_))))
    refine Finds.bind ((getField_query (x := e) rfl).left) ?_
    refine Finds.right (Finds.right (Finds.right (Finds.right ?_)))
    unfold bodyOrNull
    by_cases he : e = 0
    · rw [if_pos he]
      have hb : Stmts.get_body L [s] = .ok b := h
      refine Finds.of_fact (φ := s.extension = []) (fun _ hh => ?_) (fun hs => ?_)
      · cases hx : s.extension with
        | nil => rfl
        | cons g k =>
          rw [hx] at hh
          exact absurd he (Chain.list_cons_ne hh)
      have : b = none := by
        simp only [Stmts.get_body, hs, GList.lookup] at hb
        cases hb
        rfl
      subst this
      exact Finds.ret (fun h hh => pur_sep_iff.mpr ⟨rfl, trivial⟩)
    · rw [if_neg he]
      exact bodyOf_finds V h

end Osl.Mem
