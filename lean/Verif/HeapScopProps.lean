import Verif.HeapScop
import Verif.HeapStatementProps
import Verif.ScopProps
/-!
# Scops in memory: theorems (C55)
-/

namespace Osl.Mem

/-! ## Fields -/

theorem loadNode_spec {p : Ptr} {i : List Int} {l : List Ptr} : Triple (p ↦ .node i l) (loadNode p) (fun r => pur (r = (i, l)) ∗ p ↦ .node i l) := by
  unfold loadNode
  refine Triple.loadStep (F := emp) (by rw [sep_emp]) ?_
  exact Triple.liftLast rfl

theorem getPtr_spec {p : Ptr} {is : List Int} {l : List Ptr} {i : Nat} {x : Ptr} (h : nth l i = .ok x) :
    Triple (p ↦ .node is l) (getPtr p i) (fun r => pur (r = x) ∗ p ↦ .node is l) := by
  unfold getPtr
  refine Triple.stepEq (F := emp) loadNode_spec (by rw [sep_emp]) ?_
  exact Triple.liftLast h

theorem setPtr_spec {p : Ptr} {is : List Int} {l l' : List Ptr} {i : Nat} {x : Ptr} (h : setNth l i x = .ok l') :
    Triple (p ↦ .node is l) (setPtr p i x) (fun _ => p ↦ .node is l') := by
  unfold setPtr
  refine Triple.stepEq (F := emp) loadNode_spec (by rw [sep_emp]) ?_
  refine Triple.liftStep h ?_
  exact Triple.store p _ _

theorem getInt_spec {p : Ptr} {is : List Int} {l : List Ptr} {i : Nat} {x : Int} (h : nth is i = .ok x) :
    Triple (p ↦ .node is l) (getInt p i) (fun r => pur (r = x) ∗ p ↦ .node is l) := by
  unfold getInt
  refine Triple.stepEq (F := emp) loadNode_spec (by rw [sep_emp]) ?_
  exact Triple.liftLast h

theorem setInt_spec {p : Ptr} {is is' : List Int} {l : List Ptr} {i : Nat} {x : Int} (h : setNth is i x = .ok is') :
    Triple (p ↦ .node is l) (setInt p i x) (fun _ => p ↦ .node is' l) := by
  unfold setInt
  refine Triple.stepEq (F := emp) loadNode_spec (by rw [sep_emp]) ?_
  refine Triple.liftStep h ?_
  exact Triple.store p _ _

variable {D : Type} [Allocator] {L : Lib D} {O : DataMem D L.toEnv} {c : Cfg}

/-! ## Assertions (specification) -/

/-- The memory of one scop, with its `next` pointer: the structure, its language, context, parameters, statements, registry and extensions. -/
def scopAt (c : Cfg) (O : DataMem D L.toEnv) (p : Ptr) (s : Scop D) (n : Ptr) : Assn :=
  ex fun l => ex fun x => ex fun g => ex fun st => ex fun r => ex fun e => p ↦ .node [s.version] [l, x, g, st, r, e, n] ∗ uriAt l s.language ∗
    relAt c x s.context ∗ glistAt O g s.parameters ∗ stmtsAt c O st s.statement ∗ ifacesAt r s.registry ∗ glistAt O e s.extension

theorem scopAt_ne {p n : Ptr} {s : Scop D} : ∀ h, scopAt c O p s n h → p ≠ 0 := by
  rintro h ⟨l, x, g, st, r, e, hh⟩
  exact pto_ne_sep h hh

/-- The chain of the scops of a list. -/
def scopChain (c : Cfg) (O : DataMem D L.toEnv) : Chain (Scop D) where
  toNext := scopNext
  at_ := scopAt c O
  nonnull := fun h => scopAt_ne _ h
  own := by
    rintro p s n h ⟨l, x, g, st, r, e, hh⟩
    exact own_pto hh
  big := by
    intro p s n
    refine Big.ex (fun l => Big.ex (fun x => Big.ex (fun g => Big.ex (fun st => Big.ex (fun r => Big.ex (fun e => ?_))))))
    exact (Big.pto _ _).sep (Big.zero _)
  get_spec := by
    intro p s n
    unfold scopNext
    hopen scopAt
    hlast getPtr_spec
    hret
  set_spec := by
    intro p s n n'
    unfold scopNext
    hopen scopAt
    hlast setPtr_spec
    hret

/-- The memory of a list of scops. -/
def scopsAt (c : Cfg) (O : DataMem D L.toEnv) (p : Ptr) (l : Scops D) : Assn := (scopChain c O).list p l

theorem scopsAt_one {p : Ptr} {s : Scop D} : scopsAt c O p [s] = scopAt c O p s 0 := Chain.list_one

/-! ## Freeing, links -/

theorem scopFreeStep_spec (p : Ptr) (s : Scop D) (n : Ptr) : Triple (scopAt c O p s n) (scopFreeStep c O.toDataFns p) (fun r => pur (r = n)) := by
  unfold scopFreeStep scopNext
  hopen scopAt
  hstep getPtr_spec
  hstep freeUri_spec
  hstep getPtr_spec
  hstep generic_free_memory
  hstep getPtr_spec
  hstep relation_free_memory
  hstep getPtr_spec
  hstep statement_free_memory
  hstep getPtr_spec
  hstep interface_free_memory
  hstep getPtr_spec
  hstep generic_free_memory
  hstep getPtr_spec
  hstep Triple.free
  hret

/-- C55: `osl_scop_free` frees exactly the scops with everything they contain. -/
theorem scop_free_memory (p : Ptr) (l : Scops D) : Triple (scopsAt c O p l) (scopFree c O.toDataFns p) (fun _ => emp) :=
  Chain.freeAll_spec (N := scopChain c O) scopFreeStep_spec l p

/-- C55: `osl_scop_add` links the two lists. -/
theorem scop_add_memory (l1 l2 : Scops D) (p1 p2 : Ptr) :
    Triple (scopsAt c O p1 l1 ∗ scopsAt c O p2 l2) (scopAdd p1 p2) (fun p => scopsAt c O p (Scops.add l1 l2)) :=
  Chain.append_spec (N := scopChain c O) l1 l2 p1 p2

/-- C55: `osl_scop_number` only reads. -/
theorem scop_number_memory (p : Ptr) (l : Scops D) : Triple (scopsAt c O p l) (scopNumber p) (fun n => pur (n = Scops.number l) ∗ scopsAt c O p l) :=
  Chain.countAll_spec (N := scopChain c O) l p

/-! ## Copies -/

theorem scopCopy_spec (p : Ptr) (s : Scop D) (n : Ptr) (s' : Scop D) (h : Scops.cloneOne c L s = .ok s') :
    Triple (scopAt c O p s n) (scopCopy c O.toDataFns p) (fun q => scopAt c O p s n ∗ scopAt c O q s' 0) := by
  obtain ⟨ctx, h1, h⟩ := Out.bind_eq_ok.mp h
  obtain ⟨par, h2, h⟩ := Out.bind_eq_ok.mp h
  obtain ⟨sts, h3, h⟩ := Out.bind_eq_ok.mp h
  obtain ⟨reg, h4, h⟩ := Out.bind_eq_ok.mp h
  obtain ⟨exs, h5, h⟩ := Out.bind_eq_ok.mp h
  injection h with h
  subst h
  unfold scopCopy scopMalloc
  hopen scopAt
  hstep Triple.alloc
  hstep getInt_spec
  hstep setInt_spec
  hstep getPtr_spec
  hstep uriDup_spec
  hstep setPtr_spec
  hstep getPtr_spec
  hstep (relation_clone_memory h1)
  hstep setPtr_spec
  hstep getPtr_spec
  hstep (generic_clone_memory h2)
  hstep setPtr_spec
  hstep getPtr_spec
  hstep (statement_clone_memory h3)
  hstep setPtr_spec
  hstep getPtr_spec
  hstep (interface_clone_memory h4)
  hstep setPtr_spec
  hstep getPtr_spec
  hstep (generic_clone_memory h5)
  hstep setPtr_spec
  hret

/-- C55: `osl_scop_clone` gives a copy in new memory and leaves the list. -/
theorem scop_clone_memory {l l' : Scops D} (h : Scops.clone c L l = .ok l') (p : Ptr) :
    Triple (scopsAt c O p l) (scopClone c O.toDataFns p) (fun q => scopsAt c O p l ∗ scopsAt c O q l') :=
  Chain.copyAll_spec (N := scopChain c O) scopCopy_spec h p

/-! ## Unions -/

theorem unionInner_ne {s : Stmt D} {d : Rel} : ∀ {sc : Rel} {xs : Stmts D}, Stmts.unionInner c L s d sc = .ok xs → xs ≠ []
  | [], xs, h => by
    obtain ⟨x, _, h⟩ := Out.bind_eq_ok.mp h
    injection h with h
    subst h
    simp
  | [q], xs, h => by
    obtain ⟨x, _, h⟩ := Out.bind_eq_ok.mp h
    injection h with h
    subst h
    simp
  | q :: q' :: rest, xs, h => by
    obtain ⟨x, _, h⟩ := Out.bind_eq_ok.mp h
    obtain ⟨ys, _, h⟩ := Out.bind_eq_ok.mp h
    injection h with h
    subst h
    simp

theorem unionOuter_ne {s : Stmt D} : ∀ {d : Rel} {xs : Stmts D}, Stmts.unionOuter c L s d = .ok xs → xs ≠ []
  | [], xs, h => unionInner_ne h
  | [q], xs, h => unionInner_ne h
  | q :: q' :: rest, xs, h => by
    obtain ⟨x, h1, h⟩ := Out.bind_eq_ok.mp h
    obtain ⟨ys, _, h⟩ := Out.bind_eq_ok.mp h
    injection h with h
    subst h
    simp [unionInner_ne h1]

/-- What the loop loses of the expansions of the statements: all but the first statement of each, except for the last. -/
def lostOf : List (Stmts D) → List (Stmts D)
  | [] => []
  | [_] => []
  | e :: es => e.drop 1 :: lostOf es

/-- Memory which nothing points to: lists of statements. -/
def lostAt (c : Cfg) (O : DataMem D L.toEnv) : List (Stmts D) → Assn
  | [] => emp
  | l :: ls => (ex fun p => stmtsAt c O p l) ∗ lostAt c O ls

/-- The structure of the new scop, and its statements, `pre` and what is at `ptr`. -/
def newAt (c : Cfg) (O : DataMem D L.toEnv) (ns ptr : Ptr) (pre last : Stmts D) : Assn :=
  ex fun h => ns ↦ .node [1] [0, 0, 0, h, 0, 0, 0] ∗ (stmtChain c O).seg h pre ptr ∗ stmtsAt c O ptr last

theorem seg_stmt {p q r : Ptr} {l : Stmts D} {a : Stmt D} : ∀ h, ((stmtChain c O).seg p l q ∗ stmtAt c O q a r) h → (stmtChain c O).seg p (l ++ [a]) r h := Chain.seg_at

theorem seg_stmts {p q : Ptr} {l1 l2 : Stmts D} : ∀ h, ((stmtChain c O).seg p l1 q ∗ stmtsAt c O q l2) h → stmtsAt c O p (l1 ++ l2) h := Chain.seg_append

theorem stmtsAt_cons {p : Ptr} {s : Stmt D} {l : Stmts D} : stmtsAt c O p (s :: l) = ex fun n => stmtAt c O p s n ∗ stmtsAt c O n l := rfl

theorem stmtsAt_null {p : Ptr} {l : Stmts D} : ∀ h, stmtsAt c O p l h → (p = 0 ↔ l = []) := by
  intro h hh
  constructor
  · rintro rfl
    exact (Chain.seg_nil hh rfl).1
  · rintro rfl
    exact hh.1

theorem kept_cons {e : Stmts D} {es : List (Stmts D)} (h : es ≠ []) : Scops.keptOf (e :: es) = e.take 1 ++ Scops.keptOf es := by
  cases es with
  | nil => exact absurd rfl h
  | cons => rfl

theorem lost_cons {e : Stmts D} {es : List (Stmts D)} (h : es ≠ []) : lostOf (e :: es) = e.drop 1 :: lostOf es := by
  cases es with
  | nil => exact absurd rfl h
  | cons => rfl

theorem scopUnionsLoop_spec {ns : Ptr} : ∀ (fuel : Nat) (ss l0 : Stmts D) (st st0 ptr : Ptr) (pre last : Stmts D) (es : List (Stmts D)), ss.length ≤ fuel →
    Out.mapOut (fun s => Stmts.remove_unions c L [s]) ss = .ok es → last ≠ [] →
    Triple ((stmtChain c O).seg st0 l0 st ∗ stmtsAt c O st ss ∗ newAt c O ns ptr pre last) (scopUnionsLoop c O.toDataFns ns fuel st ptr)
      (fun r => stmtsAt c O st0 (l0 ++ ss) ∗ (ex fun pre' => ex fun last' => pur (pre' ++ last' = pre ++ Scops.keptOf (last :: es)) ∗ newAt c O ns r pre' last') ∗
        lostAt c O (lostOf (last :: es))) := by
  intro fuel
  induction fuel with
  | zero =>
    intro ss l0 st st0 ptr pre last es hl hm hne
    have : ss = [] := List.length_eq_zero_iff.mp (by omega)
    subst this
    injection hm with hm
    subst hm
    hfact (stmtsAt_null (O := O) (p := st) (l := []))
    intro h0
    have h0 := h0.mpr rfl
    unfold scopUnionsLoop
    rw [if_pos h0]
    hconv seg_stmts
    hret
  | succ fuel ih =>
    intro ss l0 st st0 ptr pre last es hl hm hne
    hfact (stmtsAt_null (O := O) (p := st) (l := ss))
    intro h0
    unfold scopUnionsLoop
    cases ss with
    | nil =>
      injection hm with hm
      subst hm
      have h0 := h0.mpr rfl
      rw [if_pos h0]
      hconv seg_stmts
      hret
    | cons s ss =>
      obtain ⟨e, es', he, hm', rfl⟩ := Out.mapOut_cons_eq_ok.mp hm
      have hst : ¬ st = 0 := by intro hh; cases h0.mp hh
      have hen : e ≠ [] := unionOuter_ne he
      rw [if_neg hst]
      rw [stmtsAt_cons]
      hnorm
      hstep (statement_remove_unions_memory (l := []) he)
      obtain ⟨b, last, rfl⟩ := List.exists_cons_of_ne_nil hne
      hopen newAt
      rw [stmtsAt_cons]
      hnorm
      hfact (stmtAt_ne (O := O) (p := ptr))
      intro hptr
      unfold unionsLink
      rw [if_neg hptr]
      hstep ((stmtChain c O).set_spec)
      hstep ((stmtChain c O).get_spec)
      hconv (seg_stmt (O := O) (p := st0))
      hconv (seg_stmt (O := O) (p := h))
      hlast (ih ss (l0 ++ [s]) _ st0 new (pre ++ [b]) e es' (by simpa using hl) hm' hen)
      rw [lost_cons (e := b :: last) (es := e :: es') (by simp), kept_cons (e := b :: last) (es := e :: es') (by simp)]
      rw [List.append_assoc]
      hret
      rename_i hx _
      simpa using hx

theorem walkLast_spec : ∀ (fuel : Nat) (l : Stmts D) (p : Ptr), l.length ≤ fuel → Triple (stmtsAt c O p l) (walkLast fuel p) (fun _ => stmtsAt c O p l)
  | fuel, [], p, _ => by
    hfact (stmtsAt_null (O := O) (p := p) (l := []))
    intro h0
    have h0 := h0.mpr rfl
    cases fuel with
    | zero =>
      unfold walkLast
      rw [if_pos h0]
      hret
    | succ =>
      unfold walkLast
      rw [if_pos h0]
      hret
  | 0, s :: l, p, hl => by simp at hl
  | fuel + 1, s :: l, p, hl => by
    hfact (stmtsAt_null (O := O) (p := p) (l := s :: l))
    intro h0
    have hp : ¬ p = 0 := by intro hh; cases h0.mp hh
    unfold walkLast
    rw [if_neg hp, stmtsAt_cons]
    hnorm
    hstep ((stmtChain c O).get_spec)
    by_cases hn : n = 0
    · rw [if_pos hn]
      hret
    · rw [if_neg hn]
      hlast (walkLast_spec fuel l n (by simpa using hl))
      hret

/-- The loop from its start. -/
theorem scopUnionsStart_spec {ns : Ptr} (fuel : Nat) (ss : Stmts D) (st : Ptr) (es : List (Stmts D)) (hl : ss.length ≤ fuel)
    (hm : Out.mapOut (fun s => Stmts.remove_unions c L [s]) ss = .ok es) :
    Triple (stmtsAt c O st ss ∗ ns ↦ .node [1] [0, 0, 0, 0, 0, 0, 0]) (scopUnionsLoop c O.toDataFns ns fuel st 0)
      (fun r => stmtsAt c O st ss ∗ (ex fun pre => ex fun last => pur (pre ++ last = Scops.keptOf es) ∗ newAt c O ns r pre last) ∗ lostAt c O (lostOf es)) := by
  hfact (stmtsAt_null (O := O) (p := st) (l := ss))
  intro h0
  cases ss with
  | nil =>
    injection hm with hm
    subst hm
    have h0 := h0.mpr rfl
    have e : scopUnionsLoop c O.toDataFns ns fuel st 0 = pure 0 := by cases fuel <;> (unfold scopUnionsLoop; rw [if_pos h0])
    rw [e]
    refine Triple.ret (fun h hh => sep_mono (fun _ h => h) (fun h hh => ?_) hh)
    show (_ ∗ emp) h
    rw [sep_emp]
    refine ⟨[], [], pur_sep_iff.mpr ⟨rfl, 0, ?_⟩⟩
    show (_ ∗ pur ((0 : Ptr) = 0) ∗ pur ((0 : Ptr) = 0)) h
    rw [pur_true rfl, sep_emp, sep_emp]
    exact hh
  | cons s ss =>
    cases fuel with
    | zero => simp at hl
    | succ fuel =>
      obtain ⟨e, es', he, hm', rfl⟩ := Out.mapOut_cons_eq_ok.mp hm
      have hst : ¬ st = 0 := by intro hh; cases h0.mp hh
      have hen : e ≠ [] := unionOuter_ne he
      unfold scopUnionsLoop
      rw [if_neg hst]
      rw [stmtsAt_cons]
      hnorm
      hstep (statement_remove_unions_memory (l := []) he)
      unfold unionsLink
      rw [if_pos rfl]
      hstep setPtr_spec
      hstep ((stmtChain c O).get_spec)
      have start : ∀ h, (stmtAt c O st s n ∗ ns ↦ .node [1] [0, 0, 0, new, 0, 0, 0] ∗ stmtsAt c O new e) h →
          ((stmtChain c O).seg st [s] n ∗ newAt c O ns new [] e) h := by
        intro h hh
        refine sep_mono (fun h hh => ?_) (fun h hh => ⟨new, ?_⟩) hh
        · refine ⟨n, ?_⟩
          show (_ ∗ pur (n = n)) h
          rw [pur_true rfl, sep_emp]
          exact hh
        · show (_ ∗ pur (new = new) ∗ _) h
          rw [pur_true rfl, emp_sep]
          exact hh
      hconv start
      hlast (scopUnionsLoop_spec (O := O) (ns := ns) fuel ss [s] n st new [] e es' (by simpa using hl) hm' hen)
      rw [← stmtsAt_cons]
      hret

/-- The values of the loop. -/
theorem unionsLoop_ok : ∀ {ss : Stmts D} {pre last r : Stmts D}, last ≠ [] → Scops.unionsLoop c L ss (pre ++ last) (some pre.length) = .ok r →
    ∃ es, Out.mapOut (fun s => Stmts.remove_unions c L [s]) ss = .ok es ∧ r = pre ++ Scops.keptOf (last :: es)
  | [], pre, last, r, _, h => by
    injection h with h
    exact ⟨[], rfl, h.symm⟩
  | s :: ss, pre, last, r, hne, h => by
    obtain ⟨e, he, h⟩ := Out.bind_eq_ok.mp h
    have hen : e ≠ [] := unionOuter_ne he
    obtain ⟨b, last, rfl⟩ := List.exists_cons_of_ne_nil hne
    have h' : Scops.unionsLoop c L ss ((pre ++ [b]) ++ e) (some (pre ++ [b]).length) = .ok r := by
      have e1 : (pre ++ b :: last).take (pre.length + 1) = pre ++ [b] := by
        rw [List.take_append, List.take_of_length_le (by omega)]
        simp
      have e2 : e.isEmpty = false := by cases e <;> simp_all
      simp only [e1, e2] at h
      simpa using h
    obtain ⟨es, h1, h2⟩ := unionsLoop_ok hen h'
    refine ⟨e :: es, Out.mapOut_cons_eq_ok.mpr ⟨e, es, he, h1, rfl⟩, ?_⟩
    rw [h2, kept_cons (e := b :: last) (es := e :: es) (by simp)]
    simp

theorem unionsLoop_start {ss : Stmts D} {r : Stmts D} (h : Scops.unionsLoop c L ss [] none = .ok r) :
    ∃ es, Out.mapOut (fun s => Stmts.remove_unions c L [s]) ss = .ok es ∧ r = Scops.keptOf es := by
  cases ss with
  | nil =>
    injection h with h
    exact ⟨[], rfl, h.symm⟩
  | cons s ss =>
    obtain ⟨e, he, h⟩ := Out.bind_eq_ok.mp h
    have hen : e ≠ [] := unionOuter_ne he
    have e2 : e.isEmpty = false := by cases e <;> simp_all
    simp only [e2] at h
    obtain ⟨es, h1, h2⟩ := unionsLoop_ok (pre := []) hen h
    exact ⟨e :: es, Out.mapOut_cons_eq_ok.mpr ⟨e, es, he, h1, rfl⟩, by simpa using h2⟩

theorem scopUnionsOne_spec (p : Ptr) (s : Scop D) (n : Ptr) (s' : Scop D) (h : Scops.unionsOne c L s = .ok s') :
    ∃ es, Out.mapOut (fun s => Stmts.remove_unions c L [s]) s.statement = .ok es ∧ s'.statement = Scops.keptOf es ∧
    Triple (scopAt c O p s n) (scopUnionsOne c O.toDataFns p) (fun q => scopAt c O p s n ∗ scopAt c O q s' 0 ∗ lostAt c O (lostOf es)) := by
  obtain ⟨sts, h3, h⟩ := Out.bind_eq_ok.mp h
  obtain ⟨ctx, h1, h⟩ := Out.bind_eq_ok.mp h
  obtain ⟨exs, h5, h⟩ := Out.bind_eq_ok.mp h
  obtain ⟨par, h2, h⟩ := Out.bind_eq_ok.mp h
  obtain ⟨reg, h4, h⟩ := Out.bind_eq_ok.mp h
  injection h with h
  subst h
  obtain ⟨es, hm, rfl⟩ := unionsLoop_start h3
  refine ⟨es, hm, rfl, ?_⟩
  unfold scopUnionsOne scopMalloc
  hopen scopAt
  hstep getPtr_spec
  hstep Triple.alloc
  hstep (Triple.heapSize (Chain.seg_big (N := stmtChain c O) s.statement st 0))
  rename_i hf
  hstep (scopUnionsStart_spec f s.statement st es hf hm)
  rename_i hkept
  hopen newAt
  rename_i hd
  hstep (Triple.heapSize (Chain.seg_big (N := stmtChain c O) last ptr 0))
  rename_i hg
  hstep (walkLast_spec f last ptr hg)
  hconv (seg_stmts (O := O))
  rw [hkept]
  hstep getPtr_spec
  hstep (relation_clone_memory h1)
  hstep setPtr_spec
  hstep getPtr_spec
  hstep (generic_clone_memory h5)
  hstep setPtr_spec
  hstep getPtr_spec
  hstep uriDup_spec
  hstep setPtr_spec
  hstep getPtr_spec
  hstep (generic_clone_memory h2)
  hstep setPtr_spec
  hstep getPtr_spec
  hstep (interface_clone_memory h4)
  hstep setPtr_spec
  hstep getInt_spec
  hstep setInt_spec
  hret

/-- The lists of statements which `osl_scop_remove_unions` loses for one scop. -/
def lostScop (c : Cfg) (L : Lib D) (s : Scop D) : List (Stmts D) :=
  match Out.mapOut (fun s => Stmts.remove_unions c L [s]) s.statement with
  | .ok es => lostOf es
  | _ => []

theorem lostAt_append {l1 l2 : List (Stmts D)} : lostAt c O (l1 ++ l2) = (lostAt c O l1 ∗ lostAt c O l2) := by
  induction l1 with
  | nil => exact (emp_sep _).symm
  | cons a l1 ih =>
    show (_ ∗ lostAt c O (l1 ++ l2)) = ((_ ∗ lostAt c O l1) ∗ lostAt c O l2)
    rw [ih, sep_assoc]

theorem scopUnionsOne_lost (p : Ptr) (s : Scop D) (n : Ptr) (s' : Scop D) (h : Scops.unionsOne c L s = .ok s') :
    Triple (scopAt c O p s n) (scopUnionsOne c O.toDataFns p) (fun q => scopAt c O p s n ∗ scopAt c O q s' 0 ∗ lostAt c O (lostScop c L s)) := by
  obtain ⟨es, h1, _, h3⟩ := scopUnionsOne_spec (O := O) p s n s' h
  unfold lostScop
  rw [h1]
  exact h3

theorem scopUnionsLoop_all : ∀ (fuel : Nat) (l l' : Scops D) (p p0 head previous : Ptr) (l0 d : Scops D), l.length ≤ fuel →
    Out.mapOut (Scops.unionsOne c L) l = .ok l' →
    Triple ((scopChain c O).seg p0 l0 p ∗ scopsAt c O p l ∗ (scopChain c O).done head previous d) (copyLoop scopNext (scopUnionsOne c O.toDataFns) fuel p head previous)
      (fun r => scopsAt c O p0 (l0 ++ l) ∗ scopsAt c O r (d ++ l') ∗ lostAt c O (l.flatMap (lostScop c L)))
  | fuel, [], l', p, p0, head, previous, l0, d, _, hm => by
    injection hm with hm
    subst hm
    refine Triple.of_fact (φ := p = 0) ?_ (fun hp => ?_)
    · rintro h ⟨_, _, _, _, _, ⟨_, _, _, _, hh, _⟩⟩
      exact hh.1
    have e2 : copyLoop scopNext (scopUnionsOne c O.toDataFns) fuel p head previous = pure head := by
      cases fuel <;> simp [copyLoop, hp]
    rw [e2, List.append_nil, List.append_nil]
    have join : ∀ h, ((scopChain c O).seg p0 l0 p ∗ scopsAt c O p []) h → scopsAt c O p0 l0 h := by
      intro h hh
      have := Chain.seg_append h hh
      rwa [List.append_nil] at this
    hconv join
    hconv (Chain.done_list (N := scopChain c O))
    refine Triple.ret (fun h hh => ?_)
    show (_ ∗ _ ∗ emp) h
    rw [sep_emp]
    exact hh.perm (sep_comm _ _)
  | 0, s :: l, l', p, p0, head, previous, l0, d, hl, _ => by simp at hl
  | fuel + 1, s :: l, l', p, p0, head, previous, l0, d, hl, hm => by
    obtain ⟨s', l2, hs, hm2, rfl⟩ := Out.mapOut_cons_eq_ok.mp hm
    have e : scopsAt c O p (s :: l) = ex fun n => scopAt c O p s n ∗ scopsAt c O n l := rfl
    rw [e]
    hnorm
    hfact (scopAt_ne (O := O) (p := p))
    intro hp
    unfold copyLoop
    rw [if_neg hp]
    hstep (scopUnionsOne_lost (O := O) p s n s' hs)
    hstep (Chain.linkNode_spec (N := scopChain c O))
    hstep ((scopChain c O).get_spec)
    have join : ∀ h, ((scopChain c O).seg p0 l0 p ∗ scopAt c O p s n) h → (scopChain c O).seg p0 (l0 ++ [s]) n h := Chain.seg_at
    hconv join
    hlast (scopUnionsLoop_all fuel l l2 n p0 _ node (l0 ++ [s]) (d ++ [s']) (by simpa using hl) hm2)
    rw [List.flatMap_cons, lostAt_append, List.append_assoc, List.append_assoc]
    hret

/-- C55: `osl_scop_remove_unions` gives new scops in new memory and leaves its argument, but the statements after the first one of each expansion but the last
remain allocated, with no pointer to them. -/
theorem scop_remove_unions_memory {l l' : Scops D} (h : Scops.remove_unions c L l = .ok l') (p : Ptr) :
    Triple (scopsAt c O p l) (scopRemoveUnions c O.toDataFns p)
      (fun q => scopsAt c O p l ∗ scopsAt c O q l' ∗ lostAt c O (l.flatMap (lostScop c L))) := by
  unfold scopRemoveUnions copyAll
  hstep (Triple.heapSize (Chain.seg_big (N := scopChain c O) l p 0))
  rename_i hf
  have := scopUnionsLoop_all (O := O) f l l' p p 0 0 [] [] hf h
  refine this.pre (fun h hh => ?_)
  show (pur (p = p) ∗ _ ∗ pur ((0 : Ptr) = 0 ∧ (0 : Ptr) = 0)) h
  rw [pur_true rfl, pur_true ⟨rfl, rfl⟩, sep_emp, emp_sep]
  exact hh

/-- C55: when all the statements of the scops but the last of each have one domain and one scattering at most, `osl_scop_remove_unions` loses no memory. -/
theorem scop_remove_unions_no_leak {l l' : Scops D} (h : Scops.remove_unions c L l = .ok l') (p : Ptr)
    (one : ∀ s ∈ l, ∀ a ∈ s.statement.dropLast, a.domain.length ≤ 1 ∧ a.scattering.length ≤ 1) :
    Triple (scopsAt c O p l) (scopRemoveUnions c O.toDataFns p) (fun q => scopsAt c O p l ∗ scopsAt c O q l') := by
  have single : ∀ {a : Stmt D} {e : Stmts D}, Stmts.remove_unions c L [a] = .ok e → a.domain.length ≤ 1 → a.scattering.length ≤ 1 → e.drop 1 = [] := by
    intro a e he h1 h2
    unfold Stmts.remove_unions at he
    simp only at he
    have inner : ∀ {d sc : Rel} {xs : Stmts D}, sc.length ≤ 1 → Stmts.unionInner c L a d sc = .ok xs → xs.drop 1 = [] := by
      intro d sc xs hl h
      match sc, hl, h with
      | [], _, h =>
        obtain ⟨x, _, h⟩ := Out.bind_eq_ok.mp h
        injection h with h
        subst h
        rfl
      | [q], _, h =>
        obtain ⟨x, _, h⟩ := Out.bind_eq_ok.mp h
        injection h with h
        subst h
        rfl
      | _ :: _ :: _, hl, _ => simp at hl
    revert he
    generalize a.domain = dm at *
    intro he
    match dm, h1, he with
    | [], _, he => exact inner h2 he
    | [q], _, he => exact inner h2 he
    | _ :: _ :: _, h1, _ => simp at h1
  have none : ∀ (ss : Stmts D) (es : List (Stmts D)), (∀ a ∈ ss.dropLast, a.domain.length ≤ 1 ∧ a.scattering.length ≤ 1) →
      Out.mapOut (fun s => Stmts.remove_unions c L [s]) ss = .ok es → lostAt c O (lostOf es) = emp := by
    intro ss
    induction ss with
    | nil =>
      intro es _ h
      injection h with h
      subst h
      rfl
    | cons a ss ih =>
      intro es ho h
      obtain ⟨e, es', he, hm, rfl⟩ := Out.mapOut_cons_eq_ok.mp h
      cases ss with
      | nil =>
        injection hm with hm
        subst hm
        rfl
      | cons b ss =>
        have ha := ho a (by simp)
        obtain ⟨e2, es2, _, _, rfl⟩ := Out.mapOut_cons_eq_ok.mp hm
        rw [lost_cons (by simp)]
        show ((ex fun p => stmtsAt c O p (e.drop 1)) ∗ lostAt c O (lostOf (e2 :: es2))) = emp
        rw [ih _ (fun x hx => ho x (by simp [List.dropLast, hx])) hm, single he ha.1 ha.2, sep_emp]
        funext h
        apply propext
        constructor
        · rintro ⟨p, hh⟩
          exact hh.2
        · intro hh
          exact ⟨0, rfl, hh⟩
  have all : lostAt c O (l.flatMap (lostScop c L)) = emp := by
    clear h
    induction l with
    | nil => rfl
    | cons s l ih =>
      rw [List.flatMap_cons, lostAt_append, ih (fun s hs => one s (by simp [hs])), sep_emp]
      unfold lostScop
      cases hm : Out.mapOut (fun s => Stmts.remove_unions c L [s]) s.statement with
      | ok es => exact none _ _ (one s (by simp)) hm
      | err => rfl
      | ub => rfl
  have := scop_remove_unions_memory (O := O) h p
  rw [all] at this
  simpa using this

end Osl.Mem
