import Verif.HeapHistoryTop
import Verif.HeapReadExample
import Verif.HeapScoplibLib
set_option linter.unusedSectionVars false
/-!
# Histories of calls: cases (C81)
-/

namespace Osl.Client

open Osl.Mem Osl.Ext

/-- What is seen of a history, and whether all the variables are NULL at the end. -/
def seen {n : Nat} (o : Out (State n × List Obs)) : Option (List Obs × Bool) :=
  match o with
  | .ok t => some (t.2, t.1.all (fun v => v.value.isEmpty))
  | _ => none

/-- A client which reads a scop, copies it, compares the two, takes the statements out of the copy, the domain of the first statement out of these, doubles it, puts all
back, compares again, and frees all. -/
def client : List Call :=
  [.scopRead 0 Data.handText, .scopClone 1 0, .scopEqual 0 1, .scopStatement 1 2, .stmtNumber 2, .stmtDomain 2 3, .relUnion 4 3 3, .relFree 3, .relRemoveRow 4 0,
   .relEqual 4 4, .stmtDomain 2 4, .scopStatement 1 2, .scopEqual 1 0, .relDump 4, .scopFree 1, .scopNumber 0, .scopFree 0]

/-- What the client sees. -/
def clientSees : List Obs :=
  [.none, .none, .answer true, .none, .number 1, .none, .none, .none, .none, .answer true, .none, .none, .answer false, .text "+-- NULL relation\n|\t\n".toList, .none,
   .number 1, .none]

set_option maxRecDepth 100000 in
theorem client_seen : seen (runs Cfg.std (some "64".toList) "0.9.7".toList 0 client (nulls 0 [.scop, .scop, .stmt, .rel, .rel])) = some (clientSees, true) := by
  decide +kernel

theorem seen_ok {n : Nat} {o : Out (State n × List Obs)} {obs : List Obs} (h : seen o = some (obs, true)) : ∃ σ, o = .ok (σ, obs) ∧ ∀ v ∈ σ, v.value = [] := by
  unfold seen at h
  split at h
  · next t =>
    simp only [Option.some.injEq, Prod.mk.injEq] at h
    refine ⟨t.1, ?_, fun v hv => List.isEmpty_iff.mp (List.all_eq_true.mp h.2 v hv)⟩
    rw [← h.1]
  · cases h

/-- This client, whatever the addresses the system gives, sees this and leaves the memory as it was. -/
example [Allocator] (m : Heap) : ∃ ps m',
    execs Cfg.std (some "64".toList) "0.9.7".toList 0 client [0, 0, 0, 0, 0] m = .ok ((ps, clientSees), m') ∧ m'.get = m.get := by
  obtain ⟨σ, h1, h2⟩ := seen_ok client_seen
  refine history_no_leak (by decide) client [.scop, .scop, .stmt, .rel, .rel] h1 h2 ?_ m
  have : lostAll Cfg.std (some "64".toList) 0 client = libTags Cfg.std (some "64".toList) 0 Data.handText := by
    simp only [lostAll, client, List.flatMap_cons, List.flatMap_nil, lost, List.append_nil]
  rw [this]
  exact hand_clean

/-- A client which makes an inequality of a vector, the relation of that row, adds and replaces a row, compares, subtracts vectors, makes the relation a domain and has the
relations of a statement made of it. -/
def vectors : List Call :=
  [.vecMalloc 0 64 4, .vecTagInequality 0, .vecAddScalar 1 0 7, .vecEqual 0 1, .vecIsScalar 1, .relFromVector 2 1, .relConcatVector 3 2 0, .relEqual 2 3,
   .relReplaceVector 3 1 1, .relRemoveRow 3 0, .relEqual 2 3, .relFree 3, .vecSub 6 1 0, .vecIsScalar 6, .vecFree 0, .vecFree 1, .vecFree 6, .relSetAttributes 2 2 0 0 0,
   .relSetType 2 TYPE_DOMAIN, .listNode 4 2, .relFree 2, .listCount 4, .stmtMalloc 5, .stmtDispatch 5 4, .stmtIntegrity 5 0, .stmtFree 5]

/-- What it sees. -/
def vectorsSee : List Obs :=
  [.none, .none, .none, .answer false, .answer false, .none, .none, .answer false, .none, .none, .answer true, .none, .none, .answer true, .none, .none, .none, .none, .none,
   .none, .none, .number 1, .none, .none, .answer true, .none]

theorem vectors_seen :
    seen (runs Cfg.std (some "64".toList) "0.9.7".toList 0 vectors (nulls 0 [.vec, .vec, .rel, .rel, .list, .stmt, .vec])) = some (vectorsSee, true) := by decide +kernel

/-- This client too leaves the memory as it was. -/
example [Allocator] (m : Heap) : ∃ ps m',
    execs Cfg.std (some "64".toList) "0.9.7".toList 0 vectors [0, 0, 0, 0, 0, 0, 0] m = .ok ((ps, vectorsSee), m') ∧ m'.get = m.get := by
  obtain ⟨σ, h1, h2⟩ := seen_ok vectors_seen
  exact history_no_leak (by decide) vectors [.vec, .vec, .rel, .rel, .list, .stmt, .vec] h1 h2 rfl m

theorem must_true {p : Prop} (h : p) : must p = .ok () := by unfold must; rw [if_pos h]

/-- A client which reads a scop and writes it in two formats. -/
def writer : List Call := [.scopRead 0 Data.handText, .scopPrint 0, .scopPrintScoplib 0, .scopFree 0]

theorem runs_cons {c : Cfg} {e : Option Str} {release : Str} {n : Nat} {a : Call} {l : List Call} {σ τ : State n} {o : Obs} {u : State n × List Obs}
    (h1 : run c e release n a σ = .ok (τ, o)) (h2 : runs c e release n l τ = .ok u) : runs c e release n (a :: l) σ = .ok (u.1, o :: u.2) := by
  simp only [runs, h1, h2, Out.ok_bind]
  rfl

theorem writer_runs {c : Cfg} {e : Option Str} {release : Str} {n : Nat} {file t u : Str} {l : Scops (DataAt n)}
    (h1 : Scops.read c (libAt c e n) e defaultRegistry file = .ok l) (h2 : ∀ s ∈ l, ScopFits c (goodAt c n) s) (h3 : Scops.print c (libAt c e n) release l = .ok t)
    (h4 : ∀ s ∈ l, ScopFitsScoplib c s) (h5 : Scops.print_scoplib c (scoplibAt c e n) release l = .ok u) :
    runs c e release n [.scopRead 0 file, .scopPrint 0, .scopPrintScoplib 0, .scopFree 0] (nulls n [.scop]) = .ok (nulls n [.scop], [.none, .text t, .text u, .none]) := by
  have g1 : run c e release n (.scopRead 0 file) (nulls n [.scop]) = .ok ([⟨.scop, l⟩], .none) := by
    show (do let r ← (do let r ← Scops.read c (libAt c e n) e defaultRegistry file; return (r, Obs.none))
             return ([(⟨.scop, r.1⟩ : Client.Var n)], r.2) : Out (State n × Obs)) = _
    rw [h1]
    rfl
  have g2 : run c e release n (.scopPrint 0) [⟨.scop, l⟩] = .ok ([⟨.scop, l⟩], .text t) := by
    show (do
      let r ← (do
        let o ← (do must (∀ s ∈ l, ScopFits c (goodAt c n) s); let t ← Scops.print c (libAt c e n) release l; return .text t)
        return (l, o))
      return ([(⟨.scop, r.1⟩ : Client.Var n)], r.2) : Out (State n × Obs)) = _
    rw [must_true h2, h3]
    rfl
  have g3 : run c e release n (.scopPrintScoplib 0) [⟨.scop, l⟩] = .ok ([⟨.scop, l⟩], .text u) := by
    show (do
      let r ← (do
        let o ← (do must (∀ s ∈ l, ScopFitsScoplib c s); let t ← Scops.print_scoplib c (scoplibAt c e n) release l; return .text t)
        return (l, o))
      return ([(⟨.scop, r.1⟩ : Client.Var n)], r.2) : Out (State n × Obs)) = _
    rw [must_true h4, h5]
    rfl
  have g4 : run c e release n (.scopFree 0) [⟨.scop, l⟩] = .ok (nulls n [.scop], .none) := rfl
  exact runs_cons g1 (runs_cons g2 (runs_cons g3 (runs_cons g4 (u := (nulls n [.scop], [])) rfl)))

set_option maxRecDepth 20000 in
/-- It meets the hypotheses of `history_memory` and `history_no_leak`: it sees the two texts. -/
example : ∃ t u, Scops.print Cfg.std (libAt Cfg.std (some "64".toList) 0) "0.9.7".toList [Data.handScop] = .ok t ∧
    Scops.print_scoplib Cfg.std (scoplibAt Cfg.std (some "64".toList) 0) "0.9.7".toList [Data.handScop] = .ok u ∧ t ≠ u ∧
    runs Cfg.std (some "64".toList) "0.9.7".toList 0 writer (nulls 0 [.scop]) = .ok (nulls 0 [.scop], [.none, .text t, .text u, .none]) ∧
    lostAll Cfg.std (some "64".toList) 0 writer = [] := by
  obtain ⟨t, ht⟩ : ∃ t, Scops.print Cfg.std (libAt Cfg.std (some "64".toList) 0) "0.9.7".toList [Data.handScop] = .ok t := Data.ok_of (p := fun _ => true) (by decide +kernel)
  obtain ⟨u, hu⟩ : ∃ t, Scops.print_scoplib Cfg.std (scoplibAt Cfg.std (some "64".toList) 0) "0.9.7".toList [Data.handScop] = .ok t :=
    Data.ok_of (p := fun _ => true) (by decide +kernel)
  refine ⟨t, u, ht, hu, ?_, ?_, ?_⟩
  · have : Scops.print Cfg.std (libAt Cfg.std (some "64".toList) 0) "0.9.7".toList [Data.handScop] ≠
      Scops.print_scoplib Cfg.std (scoplibAt Cfg.std (some "64".toList) 0) "0.9.7".toList [Data.handScop] := by decide +kernel
    intro e
    rw [ht, hu, e] at this
    exact this rfl
  · exact writer_runs (@hand_read bumpAlloc) (all_cons handScop_fits all_nil) ht (all_cons handScop_scoplib all_nil) hu
  · have : lostAll Cfg.std (some "64".toList) 0 writer = libTags Cfg.std (some "64".toList) 0 Data.handText := by
      simp only [lostAll, writer, List.flatMap_cons, List.flatMap_nil, lost, List.append_nil]
    rw [this]
    exact @hand_clean bumpAlloc

/-- A client which copies a relation, and empties it row by row as long as it is not equal to another. -/
def emptier : Nat → Client
  | 0 => .stop
  | f + 1 => .call (.relEqual 0 1) (fun o => if o = .answer true then .call (.relFree 0) (fun _ => .call (.relFree 1) (fun _ => .stop)) else
      .call (.relRemoveRow 0 0) (fun _ => emptier f))

/-- It makes five comparisons, because the relations have four rows and none. -/
example : Data.okAnd (runClient Cfg.std none [] 0 (.call (.relPmalloc 0 64 4 3) (fun _ => .call (.relPmalloc 1 64 0 3) (fun _ => emptier 10))) (nulls 0 [.rel, .rel]))
    (fun t => decide (t.2.2.length = 13) && t.1.all (fun v => v.value.isEmpty)) = true := by decide +kernel

/-- Two variables must not hold the same structure: a client which gives a structure to another one cannot use it again, and a client which frees it twice is not executed. -/
example : seen (runs Cfg.std (some "64".toList) "0.9.7".toList 0 [.relPmalloc 0 64 1 3, .relPmalloc 1 64 1 3, .relAdd 0 1, .relAdd 0 0] (nulls 0 [.rel, .rel])) = none := by decide +kernel

example : seen (runs Cfg.std (some "64".toList) "0.9.7".toList 0 [.relPmalloc 0 64 1 3, .relPmalloc 0 64 1 3] (nulls 0 [.rel])) = none := by decide +kernel

end Osl.Client
