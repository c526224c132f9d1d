import Verif.ScoplibAccess
import Verif.ScopProps
/-!
# What `osl_scop_check_compatible_scoplib` accepts (C66)
-/

namespace Osl
namespace Scops

variable {D : Type}

/-- Specification: the output columns of a part hold the opposite of the identity: -1 on the diagonal, 0 elsewhere. -/
def NegIdentity (p : Part) : Prop :=
  ∀ i (hi : i < p.m.length) (j : Nat), (j : Int) < p.nb_output_dims → p.m[i][j + 1]? = some (if i = j then -1 else 0)

/-- Specification: what is asked of a statement. -/
structure ScoplibStmt (s : Stmt D) : Prop where
  scatteringLocal : ∀ p ∈ s.scattering.head?, p.nb_local_dims = 0
  domainLocal : ∀ q ∈ s.domain, q.nb_local_dims = 0
  identity : ∀ p ∈ s.scattering.head?, NegIdentity p

/-- A statement whose scattering is there, in precision `k`, well formed. -/
structure Scattered (c : Cfg) (k : Int) (s : Stmt D) (p : Part) : Prop where
  first : s.scattering.head? = some p
  prec : p.precision = k
  valid : p.Valid c
  dims : p.Dims

theorem identRow_spec {c : Cfg} {k : Int} (hk : kind c k ≠ none) {p : Part} (hp : p.precision = k) {i : Nat} (hi : i < p.m.length) :
    ∀ (n j : Nat), j + n + 1 ≤ p.m[i].length →
      (identRow c k p i n j = .ok () ∧ ∀ x, j ≤ x → x < j + n → p.m[i][x + 1]? = some (if i = x then -1 else 0)) ∨
      (identRow c k p i n j = .err ∧ ∃ x, j ≤ x ∧ x < j + n ∧ p.m[i][x + 1]? ≠ some (if i = x then -1 else 0))
  | 0, j, _ => .inl ⟨rfl, by intro x h1 h2; omega⟩
  | n + 1, j, h => by
    have hj : j + 1 < p.m[i].length := by omega
    have hg : get2 p.m i ((j : Int) + 1) = .ok p.m[i][j + 1] := Rel.get2_nat (j := j + 1) hi hj
    obtain ⟨kk, hkk⟩ := Option.ne_none_iff_exists'.mp hk
    have htest : (if (i : Int) = (j : Int) then OInt.mone c k p.m[i][j + 1] else OInt.zero c k p.m[i][j + 1]) = .ok (decide (p.m[i][j + 1] = if i = j then -1 else 0)) := by
      by_cases e : i = j
      · rw [if_pos (by omega)]; simp [OInt.mone, hkk, e]
      · rw [if_neg (by omega)]; simp [OInt.zero, hkk, e]
    have hget : p.m[i][j + 1]? = some p.m[i][j + 1] := List.getElem?_eq_getElem hj
    simp only [identRow, hg, Out.ok_bind, hp, ne_eq, not_true_eq_false, if_false, htest]
    by_cases hv : p.m[i][j + 1] = if i = j then -1 else 0
    · simp only [hv, decide_true, if_true]
      rcases identRow_spec hk hp hi n (j + 1) (by omega) with ⟨e, h1⟩ | ⟨e, x, h1, h2, h3⟩
      · refine .inl ⟨e, ?_⟩
        intro x hx1 hx2
        by_cases hxj : x = j
        · subst hxj; rw [hget, hv]
        · exact h1 x (by omega) (by omega)
      · exact .inr ⟨e, x, by omega, by omega, h3⟩
    · simp only [hv, decide_false, Bool.false_eq_true, if_false]
      refine .inr ⟨by trivial, j, by omega, by omega, ?_⟩
      rw [hget]
      intro e; injection e with e; exact hv e

theorem identRows_spec {c : Cfg} {k : Int} (hk : kind c k ≠ none) {p : Part} (hp : p.precision = k) (hv : p.Valid c) (hd : p.Dims) :
    ∀ (n i : Nat), i + n = p.m.length →
      (identRows c k p n i = .ok () ∧ ∀ x (hx : x < p.m.length), i ≤ x → ∀ j : Nat, (j : Int) < p.nb_output_dims → p.m[x][j + 1]? = some (if x = j then -1 else 0)) ∨
      (identRows c k p n i = .err ∧ ¬ NegIdentity p)
  | 0, i, h => .inl ⟨rfl, by intro x hx h1; omega⟩
  | n + 1, i, h => by
    have hi : i < p.m.length := by omega
    have hc := hv.cols p.m[i] (List.getElem_mem hi)
    unfold Part.Dims at hd
    unfold identRows
    rcases identRow_spec hk hp hi p.nb_output_dims.toNat 0 (by omega) with ⟨e, h1⟩ | ⟨e, x, h1, h2, h3⟩
    · rw [show identRow c k p i p.nb_output_dims.toNat 0 = .ok () from e]
      rcases identRows_spec hk hp hv hd n (i + 1) (by omega) with ⟨e', h2⟩ | ⟨e', h2⟩
      · refine .inl ⟨e', ?_⟩
        intro x hx hix j hj
        by_cases hxi : x = i
        · subst hxi; exact h1 j (by omega) (by omega)
        · exact h2 x hx (by omega) j hj
      · exact .inr ⟨e', h2⟩
    · rw [show identRow c k p i p.nb_output_dims.toNat 0 = .err from e]
      exact .inr ⟨rfl, fun hn => h3 (hn i hi x (by omega))⟩

theorem scoplibLoop_spec {c : Cfg} {k : Int} : ∀ {ss : Stmts D}, (∀ s ∈ ss, ∃ p, Scattered c k s p) →
    (scoplibLoop c k ss = .ok () ∧ ∀ s ∈ ss, ScoplibStmt s) ∨ (scoplibLoop c k ss = .err ∧ ∃ s ∈ ss, ¬ ScoplibStmt s)
  | [], _ => .inl ⟨rfl, by simp⟩
  | s :: ss, h => by
    obtain ⟨p, hp⟩ := h s (by simp)
    have hprec := hp.valid.prec
    obtain ⟨sp, hsp⟩ : ∃ sp, s.scattering = p :: sp := by
      have := hp.first
      cases hs : s.scattering with
      | nil => rw [hs] at this; simp at this
      | cons a b => rw [hs] at this; simp at this; exact ⟨b, by rw [this]⟩
    simp only [scoplibLoop, hsp]
    by_cases h1 : p.nb_local_dims = 0
    · rw [if_neg (by simp [h1])]
      by_cases h2 : ∀ q ∈ s.domain, q.nb_local_dims = 0
      · rw [if_neg (by simp only [List.any_eq_true, decide_eq_true_eq]; rintro ⟨q, hq, hne⟩; exact hne (h2 q hq))]
        have hn : p.nb_rows.toNat = p.m.length := by rw [← hp.valid.rows]; simp
        rw [hn]
        rcases identRows_spec (k := k) (by rw [← hp.prec]; exact hprec) hp.prec hp.valid hp.dims p.m.length 0 (by omega) with ⟨e, h3⟩ | ⟨e, h3⟩
        · rw [show identRows c k p p.m.length 0 = .ok () from e]
          have hs : ScoplibStmt s := by
            refine ⟨?_, h2, ?_⟩
            · intro q hq; rw [hsp] at hq; simp at hq; subst hq; exact h1
            · intro q hq; rw [hsp] at hq; simp at hq; subst hq; exact fun i hi j hj => h3 i hi (Nat.zero_le _) j hj
          rcases scoplibLoop_spec (ss := ss) (fun s hs => h s (by simp [hs])) with ⟨e', h4⟩ | ⟨e', s', h4, h5⟩
          · refine .inl ⟨e', ?_⟩
            intro s' hs'
            rcases List.mem_cons.mp hs' with rfl | hs'
            · exact hs
            · exact h4 s' hs'
          · exact .inr ⟨e', s', by simp [h4], h5⟩
        · rw [show identRows c k p p.m.length 0 = .err from e]
          exact .inr ⟨rfl, s, by simp, fun hs => h3 (hs.identity p (by rw [hsp]; rfl))⟩
      · rw [if_pos (by
          simp only [List.any_eq_true, decide_eq_true_eq]
          exact Classical.byContradiction fun hn => h2 fun q hq => Classical.byContradiction fun hq' => hn ⟨q, hq, hq'⟩)]
        exact .inr ⟨rfl, s, by simp, fun hs => h2 hs.domainLocal⟩
    · rw [if_pos h1]
      exact .inr ⟨rfl, s, by simp, fun hs => h1 (hs.scatteringLocal p (by rw [hsp]; rfl))⟩

/-- C66: on one scop accepted by the integrity check, the statements of which have scatterings of the same precision, the check of compatibility answers 1 if all
statements are as the SCoPLib format needs them, and reports an error (the program exits) if one is not. -/
theorem scoplib_check_iff {c : Cfg} {L : Lib D} {x : Scop D} {k : Int} (hi : integrity_check c L [x] = .ok true) (h : ∀ s ∈ x.statement, ∃ p, Scattered c k s p) :
    (check_compatible_scoplib c L [x] = .ok true ↔ ∀ s ∈ x.statement, ScoplibStmt s) ∧
    (check_compatible_scoplib c L [x] = .err ↔ ∃ s ∈ x.statement, ¬ ScoplibStmt s) := by
  unfold check_compatible_scoplib
  simp only [hi]
  cases hs : x.statement with
  | nil => simp
  | cons st sts =>
    obtain ⟨p, hp⟩ := h st (by rw [hs]; simp)
    have := hp.first
    cases hsc : st.scattering with
    | nil => rw [hsc] at this; simp at this
    | cons a b =>
      rw [hsc] at this
      simp only [List.head?_cons, Option.some.injEq] at this
      subst this
      simp only [hsc]
      rw [hp.prec]
      rcases scoplibLoop_spec (c := c) (k := k) (ss := st :: sts) (by rw [← hs]; exact h) with ⟨e, h1⟩ | ⟨e, s, h1, h2⟩
      · simp only [e]
        exact ⟨by simpa using h1, by simp only [reduceCtorEq, false_iff]; rintro ⟨s, hs', hn⟩; exact hn (h1 s hs')⟩
      · simp only [e]
        exact ⟨by simp only [reduceCtorEq, false_iff]; intro hall; exact h2 (hall s h1), by simp only [true_iff]; exact ⟨s, h1, h2⟩⟩

/-- C66: several scops, or a scop the integrity check refuses, are refused. -/
theorem scoplib_check_refuses {c : Cfg} {L : Lib D} {x : Scops D} {b : Bool} (hi : integrity_check c L x = .ok b) (h : b = false ∨ 1 < x.length) :
    check_compatible_scoplib c L x = .ok false := by
  unfold check_compatible_scoplib
  rw [hi]
  cases b with
  | false => rfl
  | true =>
    match x, h with
    | [], h => simp at h
    | [_], h => simp at h
    | _ :: _ :: _, _ => rfl

/-- C66: when the check answers 1, there is one scop, accepted by the integrity check, and its statements are as the SCoPLib format needs them. -/
theorem scoplib_check_sound {c : Cfg} {L : Lib D} {x : Scops D} (hc : check_compatible_scoplib c L x = .ok true)
    (h : ∀ z ∈ x, ∀ s ∈ z.statement, ∀ p ∈ s.scattering.head?, p.Valid c ∧ p.Dims) :
    integrity_check c L x = .ok true ∧ ∃ z, x = [z] ∧ ∀ s ∈ z.statement, ScoplibStmt s := by
  have hi : integrity_check c L x = .ok true := by
    unfold check_compatible_scoplib at hc
    split at hc
    · assumption
    · exact hc
  refine ⟨hi, ?_⟩
  match x, hc with
  | [], hc => simp [check_compatible_scoplib, integrity_check] at hc
  | _ :: _ :: _, hc => simp [check_compatible_scoplib, hi] at hc
  | [z], hc =>
    refine ⟨z, rfl, ?_⟩
    have loop : ∀ (k : Int) (ss : Stmts D), (∀ s ∈ ss, ∀ p ∈ s.scattering.head?, p.Valid c ∧ p.Dims) → scoplibLoop c k ss = .ok () → ∀ s ∈ ss, ScoplibStmt s := by
      intro k ss
      induction ss with
      | nil => intros; rename_i hs; simp at hs
      | cons s ss ih =>
        intro h e
        cases hsc : s.scattering with
        | nil => simp [scoplibLoop, hsc] at e
        | cons p sp =>
          have hp := h s (by simp) p (by rw [hsc]; rfl)
          have hd := hp.2
          unfold Part.Dims at hd
          simp only [scoplibLoop, hsc] at e
          split at e
          · cases e
          · rename_i h1
            split at e
            · cases e
            · rename_i h2
              obtain ⟨_, e1, e2⟩ := Out.bind_eq_ok.mp e
              have hdom : ∀ q ∈ s.domain, q.nb_local_dims = 0 := by
                intro q hq
                exact Classical.byContradiction fun hne => h2 (by simp only [List.any_eq_true, decide_eq_true_eq]; exact ⟨q, hq, hne⟩)
              have hn : p.nb_rows.toNat = p.m.length := by rw [← hp.1.rows]; simp
              have hid : NegIdentity p := by
                by_cases hkp : p.precision = k
                · rw [hn] at e1
                  rcases identRows_spec (k := k) (by rw [← hkp]; exact hp.1.prec) hkp hp.1 hp.2 p.m.length 0 (by omega) with ⟨_, h3⟩ | ⟨e', _⟩
                  · exact fun i hi j hj => h3 i hi (Nat.zero_le _) j hj
                  · rw [show identRows c k p p.m.length 0 = .err from e'] at e1; cases e1
                · intro i hi j hj
                  exfalso
                  rw [hn] at e1
                  have hr0 := hp.1.cols p.m[0] (List.getElem_mem (by omega))
                  obtain ⟨n, hn'⟩ : ∃ n, p.m.length = n + 1 := ⟨p.m.length - 1, by omega⟩
                  obtain ⟨o, ho⟩ : ∃ o, p.nb_output_dims.toNat = o + 1 := ⟨p.nb_output_dims.toNat - 1, by omega⟩
                  rw [hn', identRows, ho, identRow] at e1
                  have hg : get2 p.m 0 (0 + 1) = .ok p.m[0][1] := Rel.get2_nat (i := 0) (j := 1) (by omega) (by omega)
                  rw [hg, Out.ok_bind, if_pos (fun e => hkp e.symm)] at e1
                  cases e1
              intro s' hs'
              rcases List.mem_cons.mp hs' with rfl | hs'
              · refine ⟨?_, hdom, ?_⟩
                · intro q hq; rw [hsc] at hq; simp at hq; subst hq; exact Classical.byContradiction h1
                · intro q hq; rw [hsc] at hq; simp at hq; subst hq; exact hid
              · exact ih (fun s hs => h s (by simp [hs])) e2 s' hs'
    cases hs : z.statement with
    | nil => simp
    | cons st sts =>
      simp only [check_compatible_scoplib, hi, hs] at hc
      cases hsc : st.scattering with
      | nil => simp [hsc] at hc
      | cons p sp =>
        simp only [hsc] at hc
        split at hc
        · rename_i u e
          exact loop p.precision (st :: sts) (by rw [← hs]; exact h z (by simp)) e
        · cases hc
        · cases hc

end Scops
end Osl
