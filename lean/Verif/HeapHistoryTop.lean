import Verif.HeapHistoryOps
set_option linter.unusedSectionVars false
/-!
# Histories of calls in memory (C81)
-/

namespace Osl.Client

open Osl.Mem Osl.Ext

section

variable [Allocator] {c : Cfg} {e : Option Str} {release : Str} {n : Nat}

/-- The strings which a history loses. -/
def lostAll (c : Cfg) (e : Option Str) (n : Nat) (l : List Call) : List Str := l.flatMap (lost c e n)

/-- C81: any history of calls which the rules of ownership allow is executed in memory: it is never undefined, what the client sees is what the run on values gives,
its variables hold the values of this run, in separate parts of the memory, and the rest of the memory is not changed: nothing else is left but the strings which
`osl_scop_read` loses. -/
theorem history_memory (hc : c.Valid) : ∀ (l : List Call) {ps : List Ptr} {σ : State n} {t : State n × List Obs}, runs c e release n l σ = .ok t →
    Triple (varsAt c e n ps σ) (execs c e release n l ps) (fun s => pur (s.2 = t.2) ∗ varsAt c e n s.1 t.1 ∗ looseAt (lostAll c e n l))
  | [], ps, σ, t, h => by
    cases h
    refine Triple.ret (fun h0 hh => pur_sep_iff.mpr ⟨rfl, ?_⟩)
    show (varsAt c e n ps σ ∗ looseAt []) h0
    rw [looseAt_nil, sep_emp]
    exact hh
  | a :: l, ps, σ, t, h => by
    obtain ⟨r, hr, h⟩ := Out.bind_eq_ok.mp h
    obtain ⟨u, hu, h⟩ := Out.bind_eq_ok.mp h
    cases h
    show Triple _ (exec c e release n a ps >>= fun r => execs c e release n l r.1 >>= fun t => pure (t.1, r.2 :: t.2)) _
    refine Triple.bind (call_memory hc a hr) (fun s => Triple.fact (fun hs => ?_))
    refine Triple.bind ((history_memory hc l hu).frame _) (fun w => ?_)
    rw [sep_assoc]
    refine Triple.fact (fun hw => Triple.ret (fun h0 hh => pur_sep_iff.mpr ⟨by rw [hs, hw], ?_⟩))
    show (varsAt c e n w.1 u.1 ∗ looseAt (lost c e n a ++ lostAll c e n l)) h0
    rw [looseAt_app]
    exact hh.perm (by ac_rfl)

/-- Variables of the given types, which are all NULL. -/
def nulls (n : Nat) (ks : List Ty) : State n := ks.map (fun k => ⟨k, []⟩)

theorem varsAt_nulls : ∀ ks : List Ty, varsAt c e n (List.replicate ks.length 0) (nulls n ks) = emp
  | [] => rfl
  | k :: ks => by
    show (valueAt c e n k 0 [] ∗ varsAt c e n (List.replicate ks.length 0) (nulls n ks)) = emp
    rw [valueAt_nil, varsAt_nulls ks, emp_sep]

/-- All the variables are NULL at the end: the memory holds nothing for them. -/
theorem varsAt_freed : ∀ {ps : List Ptr} {σ : State n}, (∀ v ∈ σ, v.value = []) → ∀ h, varsAt c e n ps σ h → emp h
  | [], [], _, _, hh => hh
  | [], _ :: _, _, _, hh => hh.1.elim
  | _ :: _, [], _, _, hh => hh.1.elim
  | p :: ps, ⟨k, v⟩ :: σ, hv, h, hh => by
    have h1 : v = [] := hv ⟨k, v⟩ (List.mem_cons_self ..)
    subst h1
    have hh : (valueAt c e n k p [] ∗ varsAt c e n ps σ) h := hh
    rw [valueAt_null] at hh
    exact varsAt_freed (fun w hw => hv w (List.mem_cons_of_mem _ hw)) h (pur_sep_iff.mp hh).2

/-- C81: a client which starts with NULL variables, frees or gives away all that it has obtained, and reads no file with something to lose, leaves the memory as it was
before, whatever it was: no memory is leaked, none is freed twice, none of the rest is touched. -/
theorem history_no_leak (hc : c.Valid) (l : List Call) (ks : List Ty) {σ : State n} {obs : List Obs} (h : runs c e release n l (nulls n ks) = .ok (σ, obs))
    (hv : ∀ v ∈ σ, v.value = []) (hl : lostAll c e n l = []) (m : Heap) :
    ∃ ps m', execs c e release n l (List.replicate ks.length 0) m = .ok ((ps, obs), m') ∧ m'.get = m.get := by
  have ht := history_memory hc l (ps := List.replicate ks.length 0) h
  rw [varsAt_nulls, hl, looseAt_nil] at ht
  obtain ⟨r, m', he, hr⟩ := ht (fun g => g = m.get) m (by rw [emp_sep])
  obtain ⟨a, b, hd, hab, ha, hb⟩ := hr
  obtain ⟨h1, h2⟩ := pur_sep_iff.mp ha
  rw [sep_emp] at h2
  have h3 := varsAt_freed hv a h2
  refine ⟨r.1, m', ?_, ?_⟩
  · have h1 : r.2 = obs := h1
    rw [he, ← h1]
  · have h4 : ((emp : Assn) ∗ fun g => g = m.get) m'.get := ⟨a, b, hd, hab, h3, hb⟩
    rwa [emp_sep] at h4

/-- C81: with strings lost: the memory is what it was, and these strings. -/
theorem history_leak (hc : c.Valid) (l : List Call) (ks : List Ty) {σ : State n} {obs : List Obs} (h : runs c e release n l (nulls n ks) = .ok (σ, obs))
    (hv : ∀ v ∈ σ, v.value = []) (m : Heap) :
    ∃ ps m', execs c e release n l (List.replicate ks.length 0) m = .ok ((ps, obs), m') ∧ (looseAt (lostAll c e n l) ∗ fun g => g = m.get) m'.get := by
  have ht := history_memory hc l (ps := List.replicate ks.length 0) h
  rw [varsAt_nulls] at ht
  obtain ⟨r, m', he, hr⟩ := ht (fun g => g = m.get) m (by rw [emp_sep])
  have hr : ((pur (r.2 = obs) ∗ varsAt c e n r.1 σ ∗ looseAt (lostAll c e n l)) ∗ fun g => g = m.get) m'.get := hr
  rw [sep_assoc] at hr
  obtain ⟨h1, h2⟩ := pur_sep_iff.mp hr
  rw [sep_assoc] at h2
  have h3 := sep_mono (varsAt_freed hv) (fun _ h => h) h2
  rw [emp_sep] at h3
  refine ⟨r.1, m', ?_, h3⟩
  have h1 : r.2 = obs := h1
  rw [he, ← h1]

end

/-- C81: what a client sees does not depend on the addresses which the system gives. -/
theorem history_allocator {c : Cfg} {e : Option Str} {release : Str} {n : Nat} (hc : c.Valid) (A B : Allocator) (l : List Call) (ks : List Ty) {t : State n × List Obs}
    (h : runs c e release n l (nulls n ks) = .ok t) (m m' : Heap) :
    ∃ ps qs o o', @execs A c e release n l (List.replicate ks.length 0) m = .ok ((ps, t.2), o) ∧
      @execs B c e release n l (List.replicate ks.length 0) m' = .ok ((qs, t.2), o') := by
  have g : ∀ (A : Allocator) (m : Heap), ∃ ps o, @execs A c e release n l (List.replicate ks.length 0) m = .ok ((ps, t.2), o) := by
    intro A m
    have ht := @history_memory A c e release n hc l (List.replicate ks.length 0) _ _ h
    rw [varsAt_nulls] at ht
    obtain ⟨r, o, he, hr⟩ := ht (fun g => g = m.get) m (by rw [emp_sep])
    rw [sep_assoc] at hr
    obtain ⟨h1, _⟩ := pur_sep_iff.mp hr
    exact ⟨r.1, o, by rw [he, ← h1]⟩
  obtain ⟨ps, o, h1⟩ := g A m
  obtain ⟨qs, o', h2⟩ := g B m'
  exact ⟨ps, qs, o, o', h1, h2⟩

/-! ## Clients which choose their calls -/

/-- A client which chooses each call after what it has seen of the calls before. -/
inductive Client where
  | stop
  | call (a : Call) (next : Obs → Client)

section

variable {c : Cfg} {e : Option Str} {release : Str} {n : Nat}

/-- A client on values: the values of its variables at the end, what it has seen, the calls it has made. -/
noncomputable def runClient (c : Cfg) (e : Option Str) (release : Str) (n : Nat) : Client → State n → Out (State n × List Obs × List Call)
  | .stop, σ => .ok (σ, [], [])
  | .call a next, σ => do
    let r ← run c e release n a σ
    let t ← runClient c e release n (next r.2) r.1
    return (t.1, r.2 :: t.2.1, a :: t.2.2)

/-- A client in memory. -/
def execClient [Allocator] (c : Cfg) (e : Option Str) (release : Str) (n : Nat) : Client → List Ptr → M (List Ptr × List Obs × List Call)
  | .stop, ps => pure (ps, [], [])
  | .call a next, ps => do
    let r ← exec c e release n a ps
    let t ← execClient c e release n (next r.2) r.1
    pure (t.1, r.2 :: t.2.1, a :: t.2.2)

/-- C81: a client which chooses its calls after what it sees makes the same calls in memory and on values, sees the same, and its variables hold the same values. -/
theorem client_memory [Allocator] (hc : c.Valid) : ∀ (p : Client) {ps : List Ptr} {σ : State n} {t : State n × List Obs × List Call}, runClient c e release n p σ = .ok t →
    Triple (varsAt c e n ps σ) (execClient c e release n p ps) (fun s => pur (s.2 = t.2) ∗ varsAt c e n s.1 t.1 ∗ looseAt (lostAll c e n t.2.2))
  | .stop, ps, σ, t, h => by
    cases h
    refine Triple.ret (fun h0 hh => pur_sep_iff.mpr ⟨rfl, ?_⟩)
    show (varsAt c e n ps σ ∗ looseAt []) h0
    rw [looseAt_nil, sep_emp]
    exact hh
  | .call a next, ps, σ, t, h => by
    obtain ⟨r, hr, h⟩ := Out.bind_eq_ok.mp h
    obtain ⟨u, hu, h⟩ := Out.bind_eq_ok.mp h
    cases h
    show Triple _ (exec c e release n a ps >>= fun r => execClient c e release n (next r.2) r.1 >>= fun t => pure (t.1, r.2 :: t.2.1, a :: t.2.2)) _
    refine Triple.bind (call_memory hc a hr) (fun s => Triple.fact (fun hs => ?_))
    rw [hs]
    refine Triple.bind ((client_memory hc (next r.2) hu).frame _) (fun w => ?_)
    rw [sep_assoc]
    refine Triple.fact (fun hw => Triple.ret (fun h0 hh => pur_sep_iff.mpr ⟨by rw [hw], ?_⟩))
    show (varsAt c e n w.1 u.1 ∗ looseAt (lost c e n a ++ lostAll c e n u.2.2)) h0
    rw [looseAt_app]
    exact hh.perm (by ac_rfl)

/-- C81: such a client, which starts with NULL variables and has only NULL variables at the end, leaves the memory as it was before, with the strings which reading loses. -/
theorem client_leak [Allocator] (hc : c.Valid) (p : Client) (ks : List Ty) {σ : State n} {obs : List Obs} {l : List Call}
    (h : runClient c e release n p (nulls n ks) = .ok (σ, obs, l)) (hv : ∀ v ∈ σ, v.value = []) (m : Heap) :
    ∃ ps m', execClient c e release n p (List.replicate ks.length 0) m = .ok ((ps, obs, l), m') ∧ (looseAt (lostAll c e n l) ∗ fun g => g = m.get) m'.get := by
  have ht := client_memory hc p (ps := List.replicate ks.length 0) h
  rw [varsAt_nulls] at ht
  obtain ⟨r, m', he, hr⟩ := ht (fun g => g = m.get) m (by rw [emp_sep])
  have hr : ((pur (r.2 = (obs, l)) ∗ varsAt c e n r.1 σ ∗ looseAt (lostAll c e n l)) ∗ fun g => g = m.get) m'.get := hr
  rw [sep_assoc] at hr
  obtain ⟨h1, h2⟩ := pur_sep_iff.mp hr
  rw [sep_assoc] at h2
  have h3 := sep_mono (varsAt_freed hv) (fun _ h => h) h2
  rw [emp_sep] at h3
  refine ⟨r.1, m', ?_, h3⟩
  rw [he, ← h1]

end

end Osl.Client
