import Verif.HeapUpdate
import Verif.HeapScopProps
/-!
# The registration of an extension in memory (C76)
-/

set_option linter.unusedSectionVars false

namespace Osl.Mem

namespace Chain

variable {α : Type} {N : Chain α}

/-- After the last node of a list is linked to another one, the second list is still where it was. -/
theorem setLast_keep (l2 : List α) (p2 : Ptr) : ∀ (f : Nat) (l : List α) (p : Ptr), l ≠ [] → l.length ≤ f →
    Triple (N.list p l ∗ N.list p2 l2) (setLast N.toNext p2 f p) (fun _ => N.seg p l p2 ∗ N.list p2 l2)
  | 0, l, p, hn, hl => absurd (List.length_eq_zero_iff.mp (by omega)) hn
  | f + 1, [], _, hn, _ => absurd rfl hn
  | f + 1, a :: l, p, _, hl => by
    unfold setLast
    rw [list_cons, ex_sep]
    refine Triple.exi (fun n => ?_)
    refine Triple.stepEq (F := N.list n l ∗ N.list p2 l2) (N.get_spec p a n) (by ac_rfl) ?_
    cases l with
    | nil =>
      rw [list_null]
      have e : ((N.at_ p a n ∗ pur (n = 0)) ∗ N.list p2 l2) = (pur (n = 0) ∗ N.at_ p a n ∗ N.list p2 l2) := by ac_rfl
      rw [e]
      refine Triple.fact (fun hn => ?_)
      rw [if_pos hn]
      refine Triple.last (N.set_spec p a n p2) rfl ?_
      intro _ h hh
      refine sep_mono (P := N.at_ p a p2) (fun h0 h1 => ⟨p2, ?_⟩) (fun _ h => h) hh
      show (N.at_ p a p2 ∗ pur (p2 = p2)) h0
      rw [pur_true rfl, sep_emp]
      exact h1
    | cons b l =>
      refine Triple.of_fact (φ := n ≠ 0) ?_ (fun hn => ?_)
      · rintro h ⟨_, _, _, _, ⟨_, _, _, _, _, hh⟩, _⟩
        exact list_cons_ne hh
      · rw [if_neg hn]
        refine Triple.last (F := N.at_ p a n) (setLast_keep l2 p2 f (b :: l) n (by simp) (by simpa using hl)) (by ac_rfl) ?_
        intro _ h hh
        refine sep_mono (P := N.at_ p a n ∗ N.seg n (b :: l) p2) (fun h0 h1 => ⟨n, h1⟩) (fun _ h => h) ?_
        exact hh.perm (by ac_rfl)

theorem append_keep (l1 l2 : List α) (p1 p2 : Ptr) :
    Triple (N.list p1 l1 ∗ N.list p2 l2) (append N.toNext p1 p2) (fun p => N.seg p l1 p2 ∗ N.list p2 l2) := by
  unfold append
  cases l1 with
  | nil =>
    rw [list_null]
    refine Triple.fact (fun hp => ?_)
    rw [if_pos hp]
    refine Triple.ret (fun h hh => ?_)
    show (pur (p2 = p2) ∗ _) h
    rw [pur_true rfl, emp_sep]
    exact hh
  | cons a l1 =>
    refine Triple.of_fact (φ := p1 ≠ 0) ?_ (fun hp => ?_)
    · rintro h ⟨_, _, _, _, hh, _⟩
      exact list_cons_ne hh
    · rw [if_neg hp]
      refine Triple.step (F := N.list p2 l2) (Triple.heapSize (seg_big (a :: l1) p1 0)) rfl (fun f => ?_)
      rw [sep_assoc]
      refine Triple.fact (fun hf => ?_)
      refine Triple.bind (setLast_keep l2 p2 f (a :: l1) p1 (by simp) hf) (fun _ => ?_)
      exact Triple.ret (fun _ h => h)

end Chain

/-- `osl_interface_add`: the second list is still where it was, and follows the first one. -/
theorem interface_add_keep {l1 l2 l : Ifaces} (h : Ifaces.add l1 l2 = .ok l) (hn : l2 ≠ []) (p1 p2 : Ptr) :
    Triple (ifacesAt p1 l1 ∗ ifacesAt p2 l2) (ifaceAdd p1 p2) (fun q => ifaceChain.seg q l1 p2 ∗ ifacesAt p2 l2) := by
  obtain ⟨u, hc, h⟩ := Out.bind_eq_ok.mp h
  cases u
  injection h with h
  subst h
  unfold ifaceAdd
  cases l2 with
  | nil => exact absurd rfl hn
  | cons i l2 =>
    refine Triple.of_fact ifacesAt_cons_ne (fun hp => ?_)
    rw [if_pos hp]
    have := Chain.eachNode_spec (N := ifaceChain) (g := id) (X := ifacesAt p1 l1) (ok := fun i => ∃ u, i.URI = some u ∧ Ifaces.lookup l1 (some u) = none)
      (act := ifaceCheck p1) ifaceCheck_spec (i :: l2) (checkLoop_ok hc) p2
    rw [List.map_id] at this
    refine Triple.step (F := emp) this (by rw [sep_emp]; exact sep_comm _ _) (fun _ => ?_)
    rw [sep_emp, sep_comm]
    exact Chain.append_keep (N := ifaceChain) l1 (i :: l2) p1 p2

variable {D : Type} [Allocator] {L : Lib D} {O : DataMem D L.toEnv} {c : Cfg}

/-- The reading of `interface->URI` and the search (source/scop.c:886-891), when nothing is found. -/
theorem lookupURI_spec {g i u : Ptr} {f : Fns} {n : Ptr} {l : GList D} {t : Str} (hx : GList.lookup l t = none) :
    Triple (i ↦ .iface u f n ∗ u ↦ .chars t ∗ glistAt O g l) (do let i ← loadIface i; let q ← genLookup g i.uri; if q ≠ 0 then undef else pure ())
      (fun _ => i ↦ .iface u f n ∗ u ↦ .chars t ∗ glistAt O g l) := by
  refine Triple.stepEq (F := u ↦ .chars t ∗ glistAt O g l) loadIface_spec rfl ?_
  refine Triple.step (F := i ↦ .iface u f n) (generic_lookup_null (O := O) g u l t) (by ac_rfl) (fun q => ?_)
  rw [sep_assoc]
  refine Triple.fact (fun hq => ?_)
  rw [if_neg (by simp [hq.mpr hx])]
  exact Triple.ret (fun h hh => hh.perm (by ac_rfl))

theorem registerLookup_spec {g i : Ptr} {x : Iface} {l : Ifaces} {el : GList D} {t : Str} (hu : x.URI = some t) (hx : GList.lookup el t = none) :
    Triple (ifacesAt i (x :: l) ∗ glistAt O g el) (do let i ← loadIface i; let q ← genLookup g i.uri; if q ≠ 0 then undef else pure ())
      (fun _ => ifacesAt i (x :: l) ∗ glistAt O g el) := by
  have hi : ifacesAt i (x :: l) = ex fun m => (ex fun u => i ↦ .iface u x.fns m ∗ u ↦ .chars t) ∗ ifacesAt m l := by
    show (ex fun m => (ex fun u => i ↦ .iface u x.fns m ∗ uriAt u x.URI) ∗ _) = _
    rw [hu]
    rfl
  rw [hi, ex_sep]
  refine Triple.exi (fun m => ?_)
  refine Triple.pre (P := (ex fun u => i ↦ .iface u x.fns m ∗ u ↦ .chars t) ∗ ifacesAt m l ∗ glistAt O g el) ?_ (fun h hh => hh.perm (by ac_rfl))
  rw [ex_sep]
  refine Triple.exi (fun u => ?_)
  refine Triple.last (F := ifacesAt m l) (lookupURI_spec (O := O) (g := g) (i := i) (u := u) (f := x.fns) (n := m) hx) (by ac_rfl) (fun _ h hh => ?_)
  refine ⟨m, ?_⟩
  show (((ex fun u => i ↦ .iface u x.fns m ∗ u ↦ .chars t) ∗ ifacesAt m l) ∗ glistAt O g el) h
  rw [sep_assoc]
  refine sep_mono (P := i ↦ .iface u x.fns m ∗ u ↦ .chars t) (fun h0 h1 => ⟨u, h1⟩) (fun _ h => h) ?_
  exact hh.perm (by ac_rfl)

/-- C76: `osl_scop_register_extension`, when it is defined, links the interfaces, without a copy, at the end of the registry of the scop: nothing else changes. -/
theorem scop_register_extension_memory {s s' : Scop D} {l : Ifaces} (h : Scops.register_extension s l = .ok s') (p n i : Ptr) :
    Triple (scopAt c O p s n ∗ ifacesAt i l) (scopRegister p i) (fun _ => scopAt c O p s' n) := by
  unfold scopRegister
  refine Triple.of_fact (φ := p ≠ 0) ?_ (fun hp => ?_)
  · rintro h0 ⟨_, _, _, _, hh, _⟩
    exact scopAt_ne _ hh
  cases l with
  | nil =>
    cases h
    have e : (scopAt c O p s n ∗ ifacesAt i []) = (pur (i = 0) ∗ scopAt c O p s n) := by
      show _ ∗ pur (i = 0) = _
      ac_rfl
    rw [e]
    refine Triple.fact (fun hi => ?_)
    rw [if_neg (by simp [hi])]
    exact Triple.ret (fun h hh => hh)
  | cons x l =>
    refine Triple.of_fact ifacesAt_cons_ne (fun hi => ?_)
    rw [if_pos ⟨hi, hp⟩]
    have h : (Ifaces.add s.registry (x :: l) >>= fun r => match x.URI with
      | none => .ub
      | some u => match GList.lookup s.extension u with
        | none => .ok { s with registry := r }
        | some _ => .ub) = .ok s' := h
    obtain ⟨r', hr, h⟩ := Out.bind_eq_ok.mp h
    cases hu : x.URI with
    | none => rw [hu] at h; cases h
    | some t =>
      rw [hu] at h
      dsimp only at h
      cases hx : GList.lookup s.extension t with
      | some _ => rw [hx] at h; cases h
      | none =>
        rw [hx] at h
        cases h
        unfold scopAt
        rw [ex_sep]; refine Triple.exi (fun la => ?_)
        rw [ex_sep]; refine Triple.exi (fun xa => ?_)
        rw [ex_sep]; refine Triple.exi (fun g => ?_)
        rw [ex_sep]; refine Triple.exi (fun st => ?_)
        rw [ex_sep]; refine Triple.exi (fun r => ?_)
        rw [ex_sep]; refine Triple.exi (fun e => ?_)
        generalize hF : (uriAt la s.language ∗ relAt c xa s.context ∗ glistAt O g s.parameters ∗ stmtsAt c O st s.statement) = F
        refine Triple.pre (P := p ↦ .node [s.version] [la, xa, g, st, r, e, n] ∗ ifacesAt r s.registry ∗ glistAt O e s.extension ∗ ifacesAt i (x :: l) ∗ F) ?_
          (fun h hh => by subst hF; exact hh.perm (by ac_rfl))
        hstep (getPtr_spec (p := p) (i := 4) (x := r) rfl)
        hstep (interface_add_keep (p1 := r) (p2 := i) hr (by simp))
        hstep (setPtr_spec (p := p) (i := 4) (x := registry) rfl)
        hstep (getPtr_spec (p := p) (i := 5) (x := e) rfl)
        hlast (registerLookup_spec (O := O) (g := e) (i := i) (x := x) (l := l) (el := s.extension) hu hx)
        refine Triple.ret (fun h0 hh => ?_)
        subst hF
        have er : r' = s.registry ++ x :: l := by
          obtain ⟨_, _, hr⟩ := Out.bind_eq_ok.mp hr
          injection hr with hr
          exact hr.symm
        refine ⟨la, xa, g, st, registry, e, ?_⟩
        have hh : ((p ↦ .node [s.version] [la, xa, g, st, registry, e, n] ∗ uriAt la s.language ∗ relAt c xa s.context ∗ glistAt O g s.parameters ∗ stmtsAt c O st s.statement ∗
          glistAt O e s.extension) ∗ (ifaceChain.seg registry s.registry i ∗ ifacesAt i (x :: l))) h0 := hh.perm (by ac_rfl)
        have hh := sep_mono (fun _ h => h) (fun h1 h2 => Chain.seg_append (N := ifaceChain) (l2 := x :: l) (r := 0) h1 h2) hh
        rw [← er] at hh
        have hh : ((p ↦ .node [s.version] [la, xa, g, st, registry, e, n] ∗ uriAt la s.language ∗ relAt c xa s.context ∗ glistAt O g s.parameters ∗ stmtsAt c O st s.statement ∗
          glistAt O e s.extension) ∗ ifacesAt registry r') h0 := hh
        show (p ↦ .node [s.version] [la, xa, g, st, registry, e, n] ∗ uriAt la s.language ∗ relAt c xa s.context ∗ glistAt O g s.parameters ∗ stmtsAt c O st s.statement ∗
          ifacesAt registry r' ∗ glistAt O e s.extension) h0
        exact hh.perm (by ac_rfl)

end Osl.Mem
