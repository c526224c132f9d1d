import Verif.HeapDumpProps3
/-!
# The display functions in memory (C80): the irregular extension, symbols, dependences and the statements they point to
-/

set_option linter.unusedSectionVars false

namespace Osl.Mem

open Osl.Ext
open Osl.Dump (bars blank line)

variable [Allocator] {α X : Type}

/-! ## The irregular extension -/

theorem Gives.table {f : Ptr → X → Assn} {a : Ptr} {l : List X} {i : Nat} {x : X} (hx : l[i]? = some x) {m : Ptr → M α} {v : α} (hm : ∀ q, Gives (f q x) (m q) v) :
    Gives (tableAt f a l) (slotPtr a i >>= m) v := by
  have := table_use (a := a) hx (m := m) (F := emp) (G := fun r => pur (r = v)) (fun q => by
    rw [sep_emp]
    exact (hm q).post (fun _ _ hh => by rwa [sep_comm]))
  rw [sep_emp] at this
  exact this.post (fun _ _ hh => by rwa [sep_comm])

theorem irrStmts_map : ∀ (l : List (List Int)) (k : Nat), Dump.irrStmts k l =
    ((l.zipIdx k).map fun x => "statement".toList ++ showNat x.2 ++ "'s predicats : ".toList ++ (x.1.map fun i => showInt i ++ [' ']).flatten ++ "\n".toList).flatten
  | [], _ => rfl
  | x :: l, k => by
    rw [List.zipIdx_cons, List.map_cons, List.flatten_cons, ← irrStmts_map l (k + 1)]
    rfl

theorem irrDumpStmt_spec {np pr : Ptr} {L : List (List Int)} {l : List Int} {i : Nat} (hl : L[i]? = some l) :
    Gives (stmtListsAt np pr L) (irrDumpStmt np pr i) ("statement".toList ++ showNat i ++ "'s predicats : ".toList ++ (l.map fun i => showInt i ++ [' ']).flatten ++ "\n".toList) := by
  unfold irrDumpStmt stmtListsAt
  refine Gives.bind (v := (l.length : Int)) (Gives.left (ints_slot (map_getQ hl))) ?_
  refine Gives.bind (Gives.right (texts_map (l := l) (g := fun i => showInt i ++ [' ']) (by simp) (fun j v hv => ?_))) (Gives.ret rfl)
  unfold irrDumpNum
  refine Gives.table hl (fun q => ?_)
  exact Gives.bind (ints_slot hv) (Gives.ret rfl)

theorem irrDumpPred_spec {what : Str} {o : Ptr × Ptr × Ptr} {x : Irregular} {i : Int} {t : Str} (h : Dump.irrPred what x i = .ok t) :
    Gives (predsAt o.1 o.2.1 o.2.2 x.preds) (irrDumpPred what o i) t := by
  obtain ⟨p, h1, h⟩ := Out.bind_eq_ok.mp h
  obtain ⟨its, h2, h⟩ := Out.bind_eq_ok.mp h
  obtain ⟨b, h3, h⟩ := Out.bind_eq_ok.mp h
  simp only [Out.pure_eq, Out.ok.injEq] at h
  have hi : 0 ≤ i := by
    unfold Irregular.atI at h1
    split at h1
    · cases h1
    · omega
  obtain ⟨k, rfl⟩ := Int.eq_ofNat_of_zero_le hi
  have hk := atI_nat rfl h1
  unfold irrDumpPred predsAt
  refine Gives.bind (v := (p.iters.length : Int)) (Gives.left (ints_slot (map_getQ hk))) ?_
  refine Gives.bind (v := its) (Gives.right (Gives.left (texts_cat (l := p.iters) (by simp) (fun j s u hs hu => ?_) h2))) ?_
  · obtain ⟨w, h4, hu⟩ := Out.bind_eq_ok.mp hu
    cases hu
    unfold irrDumpIter
    refine Gives.table (map_getQ hk) (fun q => Gives.table hs (fun r => ?_))
    exact Gives.bind (uri_chars h4) (Gives.ret rfl)
  · refine Gives.right (Gives.right (Gives.table (map_getQ hk) (fun q => ?_)))
    exact Gives.bind (uri_chars h3) (Gives.ret h)

theorem irrPreds_gives {p a b c d e : Ptr} {is : List Int} : Gives (p ↦ .node is [a, b, c, d, e]) (irrPreds p) (a, b, c) := by
  unfold irrPreds
  gstep (ptr_gives (x := a) rfl)
  gstep (ptr_gives (x := b) rfl)
  gstep (ptr_gives (x := c) rfl)
  exact Gives.ret rfl

theorem irrAt_nonnull {p : Ptr} {x : Irregular} : ∀ h, irrAt p x h → p ≠ 0 := by
  rintro h ⟨a, b, c, d, e, hh⟩
  exact pto_ne_sep h hh

/-- C80: `osl_irregular_idump`. -/
theorem irregular_idump_memory {p : Ptr} {x : Option Irregular} {level : Nat} {t : Str} (h : Dump.irregular x level = .ok t) : Gives (optAt irrAt p x) (irrDump p level) t := by
  unfold irrDump
  refine dumpOpt_spec (fun p x h hh => irrAt_nonnull h hh) (fun e => ?_) (fun x e _ => ?_)
  · subst e
    injection h with h
    exact Gives.ret h
  subst e
  obtain ⟨u, h1, h⟩ := Out.bind_eq_ok.mp h
  obtain ⟨v, h2, h⟩ := Out.bind_eq_ok.mp h
  simp only [Out.pure_eq, Out.ok.injEq] at h
  refine Gives.ex (fun q1 => Gives.ex (fun q2 => Gives.ex (fun q3 => Gives.ex (fun q4 => Gives.ex (fun q5 => ?_)))))
  gstep (int_gives (x := (x.stmts.length : Int)) rfl)
  gstep (ptr_gives (x := q4) rfl)
  gstep (ptr_gives (x := q5) rfl)
  refine Gives.bind (v := Dump.irrStmts 0 x.stmts) ?_ ?_
  · rw [irrStmts_map]
    refine Gives.right (Gives.right (texts_map (l := x.stmts.zipIdx) (by simp) (fun i y hi => ?_)))
    rw [List.getElem?_zipIdx] at hi
    cases hx : x.stmts[i]? with
    | none => rw [hx] at hi; cases hi
    | some l =>
      rw [hx] at hi
      simp only [Option.map_some, Nat.zero_add, Option.some.injEq] at hi
      subst hi
      exact irrDumpStmt_spec hx
  gstep (int_gives (x := x.nbControl) rfl)
  gstep (int_gives (x := x.nbExit) rfl)
  gstep irrPreds_gives
  refine Gives.bind (v := u) (Gives.right (Gives.left (texts_cat (l := List.range x.nbControl.toNat) (by simp) (fun i y w hi hw => ?_) h1))) ?_
  · obtain ⟨_, rfl⟩ := List.getElem?_eq_some_iff.mp hi
    rw [List.getElem_range] at hw
    exact irrDumpPred_spec (o := (q1, q2, q3)) hw
  refine Gives.bind (v := v) (Gives.right (Gives.left (texts_cat (l := List.range x.nbExit.toNat) (by simp) (fun i y w hi hw => ?_) h2))) ?_
  · obtain ⟨_, rfl⟩ := List.getElem?_eq_some_iff.mp hi
    rw [List.getElem_range] at hw
    exact irrDumpPred_spec (o := (q1, q2, q3)) hw
  exact Gives.ret h

/-! ## Symbols -/

variable {D : Type} {E : Env D} {O : DataMem D E} {F : Dump.Fn D} {fs : Nat → Ptr → Nat → M Str}

/-- C80: `osl_symbols_idump`. -/
theorem symbols_idump_memory (R : DataDumps O F fs) {p : Ptr} {l : List (Symbol D)} {level : Nat} {t : Str} (h : Dump.symbols F l level = .ok t) :
    Gives ((symChain O).list p l) (symDump fs p level) t := by
  obtain ⟨u, h1, h⟩ := Out.bind_eq_ok.mp h
  simp only [Out.pure_eq, Out.ok.injEq] at h
  unfold symDump
  refine dumpTitled_spec (N := symChain O) ?_ ?_ h1 (by cases l <;> exact h)
  · exact fun a _ k p n => Gives.ret rfl
  intro x _ p n t ht
  obtain ⟨v1, g1, ht⟩ := Out.bind_eq_ok.mp ht
  obtain ⟨v2, g2, ht⟩ := Out.bind_eq_ok.mp ht
  obtain ⟨v3, g3, ht⟩ := Out.bind_eq_ok.mp ht
  obtain ⟨v4, g4, ht⟩ := Out.bind_eq_ok.mp ht
  simp only [Out.pure_eq, Out.ok.injEq] at ht
  unfold symDumpBody
  refine Gives.ex (fun q1 => Gives.ex (fun q2 => Gives.ex (fun q3 => Gives.ex (fun q4 => ?_))))
  gstep (int_gives (x := x.type) rfl)
  gstep (int_gives (x := x.generated) rfl)
  gstep (int_gives (x := x.nb_dims) rfl)
  gstep (ptr_gives (x := q1) rfl)
  gcall (generic_idump_memory R (p := q1) g1)
  gstep (ptr_gives (x := q2) rfl)
  gcall (generic_idump_memory R (p := q2) g2)
  gstep (ptr_gives (x := q3) rfl)
  gcall (generic_idump_memory R (p := q3) g3)
  gstep (ptr_gives (x := q4) rfl)
  gcall (generic_idump_memory R (p := q4) g4)
  exact Gives.ret ht

end Osl.Mem
