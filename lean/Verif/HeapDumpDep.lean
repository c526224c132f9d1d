import Verif.HeapDumpProps4
/-!
# The display functions in memory (C80): dependences and the statements they point to
-/

set_option linter.unusedSectionVars false

namespace Osl.Mem

open Osl.Ext
open Osl.Dump (bars blank line)

variable [Allocator] {α : Type}

/-! ## The addresses of the nodes of a list (specification) -/

/-- The nodes of a list at known addresses. -/
def nodesAt (N : Chain α) : List Ptr → List α → Assn
  | [], [] => emp
  | q :: qs, a :: l => N.at_ q a (qs.headD 0) ∗ nodesAt N qs l
  | _, _ => pur False

/-- A list is the list of its nodes, at some addresses, the first of which is the address of the list. -/
theorem list_nodes {N : Chain α} : ∀ {l : List α} {p : Ptr}, N.list p l = ex fun qs => pur (qs.headD 0 = p) ∗ nodesAt N qs l
  | [], p => by
    rw [Chain.list_null]
    funext h
    refine propext ⟨fun hh => ⟨[], pur_sep_iff.mpr ⟨hh.1.symm, hh.2⟩⟩, ?_⟩
    rintro ⟨qs, hh⟩
    obtain ⟨h1, h2⟩ := pur_sep_iff.mp hh
    cases qs with
    | nil => exact ⟨h1.symm, h2⟩
    | cons q qs => exact h2.1.elim
  | a :: l, p => by
    rw [Chain.list_cons]
    funext h
    refine propext ⟨?_, ?_⟩
    · rintro ⟨n, hh⟩
      rw [list_nodes (l := l), sep_ex] at hh
      obtain ⟨qs, hh⟩ := hh
      have hh : (pur (qs.headD 0 = n) ∗ N.at_ p a n ∗ nodesAt N qs l) h := hh.perm (by ac_rfl)
      obtain ⟨h1, h2⟩ := pur_sep_iff.mp hh
      subst h1
      exact ⟨p :: qs, pur_sep_iff.mpr ⟨rfl, h2⟩⟩
    · rintro ⟨qs, hh⟩
      obtain ⟨h1, h2⟩ := pur_sep_iff.mp hh
      cases qs with
      | nil => exact h2.1.elim
      | cons q qs =>
        have h1 : q = p := h1
        subst h1
        refine ⟨qs.headD 0, ?_⟩
        refine sep_mono (fun _ h => h) (fun _ hx => ?_) h2
        rw [list_nodes]
        exact ⟨qs, pur_sep_iff.mpr ⟨rfl, hx⟩⟩

theorem nodesAt_take {N : Chain α} : ∀ {qs : List Ptr} {l : List α} {i : Nat} {q : Ptr} {a : α}, qs[i]? = some q → l[i]? = some a →
    ∃ n R, nodesAt N qs l = (N.at_ q a n ∗ R)
  | [], _, _, _, _, h, _ => by simp at h
  | _ :: _, [], _, _, _, _, h => by simp at h
  | q :: qs, a :: l, 0, _, _, h1, h2 => by
    cases h1; cases h2
    exact ⟨_, _, rfl⟩
  | q :: qs, a :: l, i + 1, q', a', h1, h2 => by
    obtain ⟨n, R, e⟩ := nodesAt_take (N := N) (qs := qs) (l := l) (i := i) h1 h2
    refine ⟨n, N.at_ q a (qs.headD 0) ∗ R, ?_⟩
    show (_ ∗ nodesAt N qs l) = _
    rw [e]
    ac_rfl

/-! ## One statement of a list -/

variable {D : Type} {F : Dump.Fn D} {fs : Nat → Ptr → Nat → M Str} {L : Lib D} {O : DataMem D L.toEnv} {c : Cfg}

/-- A statement of a list is displayed alone: the list is as before. -/
theorem depDumpStmt_spec (R : DataDumps O F fs) {q n : Ptr} {s : Stmt D} {level : Nat} {t : Str} (h : Dump.statement c F [s] level = .ok t) :
    Gives (stmtAt c O q s n) (depDumpStmt (stmtDump c fs) q level) t := by
  unfold depDumpStmt
  refine Gives.bind (v := n) ((stmtChain c O).get_spec q s n) ?_
  refine Triple.bind ((stmtChain c O).set_spec q s n 0) (fun _ => ?_)
  have hd := statement_idump_memory R (c := c) (p := q) h
  have hd : Gives (stmtAt c O q s 0) (stmtDump c fs q level) t := by
    rw [show stmtsAt c O q [s] = stmtAt c O q s 0 from Chain.list_one] at hd
    exact hd
  refine Triple.bind hd (fun r => Triple.fact (fun hr => ?_))
  subst hr
  refine Triple.bind ((stmtChain c O).set_spec q s 0 n) (fun _ => ?_)
  exact Gives.ret rfl

theorem depDumpAny_spec (R : DataDumps O F fs) {qs : List Ptr} {l : Stmts D} {q : Ptr} {i : Nat} (hq : qs[i]? = some q) {level : Nat} {t : Str} (h : Dump.depStmt c F l[i]? level = .ok t) :
    Gives (nodesAt (stmtChain c O) qs l) (depDumpStmt (stmtDump c fs) q level) t := by
  cases hi : l[i]? with
  | none => rw [hi] at h; cases h
  | some s =>
    rw [hi] at h
    obtain ⟨n, A, e⟩ := nodesAt_take (N := stmtChain c O) hq hi
    rw [e]
    exact Gives.left (depDumpStmt_spec R h)

/-! ## Dependences -/

/-- The memory of a dependence whose pointers are those of the statements number `x.2.1` (source) and `x.2.2` (target), the statements being at the addresses `qs` (specification). -/
def depRefAt (c : Cfg) (qs : List Ptr) (p : Ptr) (x : Dep × Nat × Nat) (n : Ptr) : Assn :=
  ex fun d => ex fun s => ex fun t => ex fun u => ex fun a => ex fun b => p ↦ .node [x.1.label_source, x.1.label_target, x.1.ref_source, x.1.ref_target, x.1.depth, x.1.type,
      x.1.src_out_dom, x.1.src_out_acc, x.1.tgt_out_dom, x.1.tgt_out_acc, x.1.src_loc_dom, x.1.src_loc_acc, x.1.tgt_loc_dom, x.1.tgt_loc_acc] [d, s, t, u, a, b, n] ∗
      pur (qs[x.2.1]? = some s ∧ qs[x.2.2]? = some t) ∗ relAt c d x.1.domain

theorem mid_fact {A B : Assn} {φ : Prop} {h : PHeap} (hh : (A ∗ pur φ ∗ B) h) : φ ∧ (A ∗ B) h := by
  have e : (A ∗ pur φ ∗ B) = (pur φ ∗ A ∗ B) := by ac_rfl
  rw [e] at hh
  exact pur_sep_iff.mp hh

theorem depRefAt_ne {qs : List Ptr} {p n : Ptr} {x : Dep × Nat × Nat} : ∀ h, depRefAt c qs p x n h → p ≠ 0 := by
  rintro h ⟨a, b, c, d, e, f, hh⟩
  exact pto_ne_sep h hh

/-- It is the memory of a dependence. -/
theorem depRefAt_dep {qs : List Ptr} {p n : Ptr} {x : Dep × Nat × Nat} : ∀ h, depRefAt c qs p x n h → depAt c p x.1 n h := by
  rintro h ⟨d, s, t, u, a, b, hh⟩
  exact ⟨d, s, t, u, a, b, (mid_fact hh).2⟩

/-- The chain of these dependences. -/
def depRefChain (c : Cfg) (qs : List Ptr) : Chain (Dep × Nat × Nat) where
  toNext := depNext
  at_ := depRefAt c qs
  nonnull := fun h => depRefAt_ne _ h
  own := by
    rintro p s n h ⟨a, b, c, d, e, f, hh⟩
    exact own_pto hh
  big := fun p s n => Big.ex (fun _ => Big.ex (fun _ => Big.ex (fun _ => Big.ex (fun _ => Big.ex (fun _ => Big.ex (fun _ => (Big.pto _ _).sep (Big.zero _)))))))
  get_spec := by
    intro p s n
    unfold depNext
    refine Gives.ex (fun d => Gives.ex (fun s => Gives.ex (fun t => Gives.ex (fun u => Gives.ex (fun a => Gives.ex (fun b => ?_))))))
    exact Gives.left (ptr_gives rfl)
  set_spec := by
    intro p s n n'
    unfold depNext
    refine Triple.exi (fun d => Triple.exi (fun s => Triple.exi (fun t => Triple.exi (fun u => Triple.exi (fun a => Triple.exi (fun b => ?_))))))
    refine (Triple.frame _ (setPtr_spec (l' := [d, s, t, u, a, b, n']) rfl)).post (fun _ h hh => ?_)
    exact ⟨d, s, t, u, a, b, hh⟩

/-- The dependences with the statements of the list `l` they point to. -/
def withStmts (l : Stmts D) (x : Dep × Nat × Nat) : Dump.DepPtrs D := ⟨x.1, l[x.2.1]?, l[x.2.2]?⟩

theorem nodes_map {β : Type} {f : α → β} {hd : Nat → β → Str} {g : β → Out Str} {sep : Str} : ∀ (l : List α) (k : Nat),
    Dump.nodes hd g sep k (l.map f) = Dump.nodes (fun k a => hd k (f a)) (fun a => g (f a)) sep k l
  | [], _ => rfl
  | a :: l, k => by
    rw [List.map_cons]
    unfold Dump.nodes
    rw [nodes_map l (k + 1)]
    cases l <;> rfl

/-- C80: `osl_dependence_idump` on dependences whose pointers are those of statements of a list: the statements are displayed one by one and the list is as before. -/
theorem dependence_idump_memory (R : DataDumps O F fs) {p : Ptr} {qs : List Ptr} {l : Stmts D} {deps : List (Dep × Nat × Nat)} {level : Nat} {t : Str}
    (h : Dump.dependence c F (deps.map (withStmts l)) level = .ok t) :
    Gives ((depRefChain c qs).list p deps ∗ nodesAt (stmtChain c O) qs l) (depDump c (stmtDump c fs) p level) t := by
  obtain ⟨u, h1, h⟩ := Out.bind_eq_ok.mp h
  simp only [Out.pure_eq, Out.ok.injEq] at h
  rw [nodes_map] at h1
  unfold depDump
  have := dumpFrame_spec (N := depRefChain c qs) (G := nodesAt (stmtChain c O) qs l) (l := deps) (p := p) (last := blank (level + 1))
    (head := oneHead level "|   osl_dependence_p".toList) (body := depDumpBody c (stmtDump c fs) level)
    (title_spec (N := depRefChain c qs) (l := deps) (p := p) (level := level) (a := "+-- osl_dependence_p".toList) (b := "+-- NULL dependence".toList)) ?_ ?_ h1
  · subst h
    cases deps <;> exact this
  · exact fun a _ k p n => Gives.ret rfl
  · intro x _ p n t ht
    obtain ⟨v1, g1, ht⟩ := Out.bind_eq_ok.mp ht
    obtain ⟨v2, g2, ht⟩ := Out.bind_eq_ok.mp ht
    obtain ⟨v3, g3, ht⟩ := Out.bind_eq_ok.mp ht
    simp only [Out.pure_eq, Out.ok.injEq] at ht
    show Gives (depRefAt c qs p x n ∗ _) _ _
    unfold depRefAt
    simp only [ex_sep]
    refine Gives.ex (fun d => Gives.ex (fun s => Gives.ex (fun t => Gives.ex (fun u => Gives.ex (fun a => Gives.ex (fun b => ?_))))))
    refine Gives.of_fact (φ := qs[x.2.1]? = some s ∧ qs[x.2.2]? = some t) (fun h hh => ?_) (fun hx => ?_)
    · obtain ⟨a, _, _, _, hh, _⟩ := hh
      exact (mid_fact hh).1
    unfold depDumpBody
    refine Gives.bind (Gives.left (Gives.left (show Gives (p ↦ .node _ _) _ _ from loadNode_spec))) ?_
    refine Gives.bind (Gives.lift rfl) ?_
    refine Gives.bind (Gives.left (Gives.left (ptr_gives (x := s) rfl))) ?_
    refine Gives.bind (Gives.right (depDumpAny_spec R hx.1 g1)) ?_
    refine Gives.bind (Gives.left (Gives.left (ptr_gives (x := t) rfl))) ?_
    refine Gives.bind (Gives.right (depDumpAny_spec R hx.2 g2)) ?_
    refine Gives.bind (Gives.left (Gives.left (ptr_gives (x := d) rfl))) ?_
    refine Gives.bind (Gives.left (Gives.right (Gives.right (relation_idump_memory g3)))) ?_
    exact Gives.ret ht

end Osl.Mem
