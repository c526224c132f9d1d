import Lean
import Verif.HeapSep
/-!
# Tactics for the separation logic of `Verif/Heap.lean`

`hstep t` runs one call with the triple `t`: it finds in the precondition what `t` needs (opening definitions of assertions when needed) and frames the rest.
`hret` ends a run, `hopen d` opens an assertion, `hfact t` extracts a fact, `hnorm` takes the existential quantifiers and the facts out of the
precondition.
-/

namespace Osl.Mem

variable {α β : Type}

theorem sep_mono' {P P' Q Q' : Assn} (hp : ∀ h, P h → P' h) (hq : ∀ h, Q h → Q' h) : ∀ h, (P ∗ Q) h → (P' ∗ Q') h := fun _ hh => sep_mono hp hq hh

theorem pur_intro {φ : Prop} (hf : φ) : ∀ h, emp h → pur φ h := fun _ hh => ⟨hf, hh⟩

theorem ex_intro {γ : Type} {P : Assn} {Q : γ → Assn} (w : γ) (hp : ∀ h, P h → Q w h) : ∀ h, P h → ex Q h := fun h hh => ⟨w, hp h hh⟩

theorem entail_of_eq {P P' Q F : Assn} (e : P = (P' ∗ F)) (hp : ∀ h, P' h → Q h) : ∀ h, P h → (Q ∗ F) h := by
  intro h hh
  rw [e] at hh
  exact sep_mono hp (fun _ h => h) hh

theorem entail_all {P P' Q : Assn} (e : P = P') (hp : ∀ h, P' h → Q h) : ∀ h, P h → Q h := by
  intro h hh
  rw [e] at hh
  exact hp h hh

theorem Triple.stepE {P P0 F : Assn} {m : M α} {Q : α → Assn} {f : α → M β} {S : β → Assn} (h1 : Triple P0 m Q)
    (e : ∀ h, P h → (P0 ∗ F) h) (h2 : ∀ a, Triple (Q a ∗ F) (f a) S) : Triple P (m >>= f) S :=
  ((h1.frame F).bind h2).pre e

theorem Triple.lastB {P : Assn} {m : M α} {S : α → Assn} (h : Triple P (m >>= fun a => pure a) S) : Triple P m S := by
  intro R h0 hr
  obtain ⟨a, h', e, hh⟩ := h R h0 hr
  refine ⟨a, h', ?_, hh⟩
  rw [← e]
  show m h0 = (match m h0 with | .ok (a, h') => .ok (a, h') | .err => .err | .ub => .ub)
  cases m h0 <;> rfl

theorem Triple.rearr {P P' : Assn} {m : M α} {S : α → Assn} (e : P = P') (h : Triple P' m S) : Triple P m S := by rw [e]; exact h

theorem Triple.fact1 {φ : Prop} {m : M α} {S : α → Assn} (h : φ → Triple emp m S) : Triple (pur φ) m S := by
  rw [← sep_emp (pur φ)]
  exact Triple.fact h

theorem Triple.exi_sep {γ : Type} {P : γ → Assn} {F : Assn} {m : M α} {S : α → Assn} (h : ∀ x, Triple (P x ∗ F) m S) : Triple (ex P ∗ F) m S := by
  rw [ex_sep]
  exact Triple.exi h

theorem Triple.factE {P P0 F : Assn} {φ : Prop} {m : M α} {S : α → Assn} (hf : ∀ h, P0 h → φ) (e : ∀ h, P h → (P0 ∗ F) h) (h : φ → Triple P m S) : Triple P m S := by
  refine Triple.of_fact (φ := φ) (fun h0 hh => ?_) h
  obtain ⟨a, b, _, _, hp, _⟩ := e h0 hh
  exact hf a hp

theorem Triple.convE {P P0 P1 F : Assn} {m : M α} {S : α → Assn} (hf : ∀ h, P0 h → P1 h) (e : ∀ h, P h → (P0 ∗ F) h) (h : Triple (P1 ∗ F) m S) : Triple P m S :=
  h.pre (fun h0 hh => sep_mono hf (fun _ h => h) (e h0 hh))

theorem lift_spec {x : Out α} {a : α} (h : x = .ok a) : Triple emp (lift x) (fun r => pur (r = a)) := by
  subst h
  intro R h0 hr
  refine ⟨a, h0, rfl, ?_⟩
  show (pur (a = a) ∗ R) h0.get
  rw [pur_true rfl]
  exact hr

end Osl.Mem

namespace Osl.Mem.Tac

open Lean Meta Elab Tactic

/-- The members of a separating conjunction. -/
partial def conjs (e : Expr) : MetaM (List Expr) := do
  let e := (← instantiateMVars e).headBeta.eta
  match e.getAppFnArgs with
  | (``Osl.Mem.sep, #[a, b]) => return (← conjs a) ++ (← conjs b)
  | (``Osl.Mem.emp, #[]) => return []
  | _ => return [e]

def mkSep : List Expr → Expr
  | [] => mkConst ``Osl.Mem.emp
  | [a] => a
  | a :: l => mkApp2 (mkConst ``Osl.Mem.sep) a (mkSep l)

/-- A proof of the equality of two separating conjunctions with the same members. -/
def proveAC (a b : Expr) : TacticM Expr := do
  let g ← mkFreshExprMVar (← mkEq a b)
  let gs ← Tactic.run g.mvarId! (do evalTactic (← `(tactic| first | rfl | ac_rfl | (simp only [Osl.Mem.emp_sep, Osl.Mem.sep_emp]; done) | (simp only [Osl.Mem.emp_sep, Osl.Mem.sep_emp]; ac_rfl))))
  unless gs.isEmpty do throwError "cannot rearrange {a} into {b}"
  instantiateMVars g

structure St where
  avail : List Expr
  goals : List MVarId := []

abbrev BuildM := StateT St TacticM

def idProof (a tgt : Expr) : MetaM Expr := do
  let ty := mkConst ``Osl.Mem.PHeap
  withLocalDeclD `h ty fun h => do
    withLocalDeclD `hh (mkApp a h).headBeta fun hh => do
      let body ← mkExpectedTypeHint hh (mkApp tgt h).headBeta
      mkLambdaFVars #[h, hh] body

def findMatch (tgt : Expr) (mode : TransparencyMode) : BuildM (Option Expr) := do
  let st ← get
  let rec go : List Expr → List Expr → BuildM (Option Expr)
    | _, [] => return none
    | pre, a :: l => do
      if ← withTransparency mode (isDefEq tgt a) then
        set { st with avail := pre.reverse ++ l }
        return some a
      else go (a :: pre) l
  go [] st.avail

/-- Try to close a side goal. -/
partial def closeSide (g : MVarId) : TacticM Bool := do
  if ← g.isAssigned then return true
  let ty ← instantiateMVars (← g.getType)
  if ty.isTrue then
    g.assign (mkConst ``True.intro)
    return true
  if let some (_, a, b) := ty.eq? then
    if ← isDefEq a b then
      g.assign (← mkEqRefl a)
      return true
  if ← g.assumptionCore then return true
  if ty.isAppOfArity ``And 2 then
    let st ← saveState
    let gs ← g.apply (mkConst ``And.intro)
    let mut ok := true
    for g in gs do
      unless ← closeSide g do ok := false
    unless ok do st.restore
    return ok
  return false

/-- `build tgt` finds, in the available members, what `tgt` is made of: `(S, proof of ∀ h, S h → tgt h)`. -/
partial def build (tgt : Expr) : BuildM (Expr × Expr) := do
  let tgt := (← instantiateMVars tgt).headBeta
  match tgt.getAppFnArgs with
  | (``Osl.Mem.sep, #[a, b]) => do
    let (a', pa) ← build a
    let (b', pb) ← build b
    return (mkApp2 (mkConst ``Osl.Mem.sep) a' b', ← mkAppOptM ``Osl.Mem.sep_mono' #[a', a, b', b, pa, pb])
  | (``Osl.Mem.emp, #[]) => return (tgt, ← idProof tgt tgt)
  | (``Osl.Mem.pur, #[φ]) => do
    let g ← mkFreshExprMVar φ
    let φ ← instantiateMVars φ
    unless ← (if φ.hasExprMVar then pure false else closeSide g.mvarId!) do modify fun st => { st with goals := st.goals ++ [g.mvarId!] }
    return (mkConst ``Osl.Mem.emp, ← mkAppOptM ``Osl.Mem.pur_intro #[φ, g])
  | (``Osl.Mem.ex, #[γ, f]) => do
    let w ← mkFreshExprMVar γ
    let (b', pb) ← build (mkApp f w).headBeta
    return (b', ← mkAppOptM ``Osl.Mem.ex_intro #[γ, b', f, w, pb])
  | _ => do
    if let some a ← findMatch tgt .reducible then return (a, ← idProof a tgt)
    if let some a ← findMatch tgt .default then return (a, ← idProof a tgt)
    let next? ← (do
      match ← unfoldDefinition? tgt with
      | some e => return some (← whnfCore e)
      | none =>
        let e ← whnfCore tgt
        return if e == tgt then none else some e : MetaM (Option Expr))
    match next? with
    | some e =>
      if e.isLambda then throwError "no memory for {tgt} in {mkSep (← get).avail}"
      let (s, p) ← build e
      return (s, p)
    | none => throwError "no memory for {tgt} in {mkSep (← get).avail}"

/-- The goal as a triple. -/
def getTriple (g : MVarId) : MetaM (Expr × Expr × Expr × Expr) := do
  let tgt ← instantiateMVars (← g.getType)
  let tgt := tgt.consumeMData
  match tgt.getAppFnArgs with
  | (``Osl.Mem.Triple, #[a, p, m, s]) => return (a, p, m.headBeta, s)
  | _ => throwError "the goal is not a triple: {tgt}"

/-- Replace the precondition by an equal one. -/
def setPre (g : MVarId) (p' : Expr) : TacticM MVarId := do
  let (a, p, m, s) ← getTriple g
  if p == p' then return g
  let e ← proveAC p p'
  let g' ← mkFreshExprSyntheticOpaqueMVar (← mkAppOptM ``Osl.Mem.Triple #[a, p', m, s])
  g.assign (← mkAppOptM ``Osl.Mem.Triple.rearr #[a, p, p', m, s, e, g'])
  return g'.mvarId!

/-- Take the facts and the existential quantifiers out of the precondition. -/
partial def normPre (g : MVarId) : TacticM MVarId := g.withContext do
  let (a, p, m, s) ← getTriple g
  let cs ← conjs p
  let isPur (e : Expr) := e.isAppOfArity ``Osl.Mem.pur 1
  let isEx (e : Expr) := e.isAppOfArity ``Osl.Mem.ex 2
  match cs.find? isPur with
  | some c => do
    let rest := cs.erase c
    let φ := c.appArg!
    let f := mkSep rest
    let g ← setPre g (mkApp2 (mkConst ``Osl.Mem.sep) c f)
    let g' ← mkFreshExprSyntheticOpaqueMVar (← mkArrow φ (← mkAppOptM ``Osl.Mem.Triple #[a, f, m, s]))
    g.assign (← mkAppOptM ``Osl.Mem.Triple.fact #[a, φ, f, m, s, g'])
    let (h, g) ← g'.mvarId!.intro1
    let g ← (do
      match ← g.withContext (do let ty ← instantiateMVars (← h.getType); return ty.eq?) with
      | some (_, x, y) =>
        if x.isFVar || y.isFVar then
          match ← observing? (do if x.isFVar then return (← substCore g h (symm := false)).2 else throwError "no") with
          | some g => return g
          | none =>
            match ← observing? (subst g h) with
            | some g => return g
            | none => return g
        else return g
      | none => return g)
    normPre g
  | none =>
    match cs.find? isEx with
    | some c => do
      let rest := cs.erase c
      let f := mkSep rest
      let γ := c.appFn!.appArg!
      let q := c.appArg!
      let g ← setPre g (mkApp2 (mkConst ``Osl.Mem.sep) c f)
      let name := match q with | .lam n _ _ _ => n | _ => `x
      let ty ← withLocalDeclD name γ fun x => do
        let t ← mkAppOptM ``Osl.Mem.Triple #[a, mkApp2 (mkConst ``Osl.Mem.sep) (mkApp q x).headBeta f, m, s]
        mkForallFVars #[x] t
      let g' ← mkFreshExprSyntheticOpaqueMVar ty
      g.assign (← mkAppOptM ``Osl.Mem.Triple.exi_sep #[a, γ, q, f, m, s, g'])
      let (_, g) ← g'.mvarId!.intro1P
      normPre g
    | none =>
      let p' := mkSep cs
      let g ← setPre g p'
      return g

/-- The side conditions which are left. -/
def leftGoals (gs : List MVarId) : TacticM (List MVarId) := do
  let mut r := []
  for g in gs do
    unless ← g.isAssigned do
      unless ← closeSide g do r := r ++ [g]
  return r

/-- Elaborate a specification and instantiate its parameters. -/
def elabSpec (t : Term) : TacticM (Expr × Expr × Array Expr) := do
  let e ← Term.withSynthesize (postpone := .partial) (Tactic.elabTerm t none (mayPostpone := true))
  let ty ← instantiateMVars (← inferType e)
  let (xs, bis, ty) ← forallMetaTelescope ty
  for x in xs, bi in bis do
    if bi.isInstImplicit then
      let i ← synthInstance (← inferType x)
      discard <| isDefEq x i
  return (mkAppN e xs, ty, xs)

def sideGoals (xs : Array Expr) : MetaM (List MVarId) := do
  let mut r := []
  for x in xs do
    let x ← instantiateMVars x
    if x.isMVar then r := r ++ [x.mvarId!]
  return r

elab "hnorm" : tactic => withMainContext do
  let g ← normPre (← getMainGoal)
  replaceMainGoal [g]

/-- One call. -/
elab "hstep " t:term : tactic => withMainContext do
  let g ← getMainGoal
  let (b, p, m, s) ← getTriple g
  let (f, m1, a) ← (match m.getAppFnArgs with
    | (``Bind.bind, #[_, _, a, _, m1, f]) => pure (f, m1, a)
    | _ => throwError "not a sequence: {m}")
  let (spec, ty, xs) ← elabSpec t
  let (p0, m0, q0) ← (match ty.getAppFnArgs with
    | (``Osl.Mem.Triple, #[_, p0, m0, q0]) => pure (p0, m0, q0)
    | _ => throwError "not a triple: {ty}")
  unless ← isDefEq m0 m1 do throwError "the call is {m1}, not {m0}"
  let avail ← conjs p
  let ((s', pr), st) ← (build p0).run { avail }
  for x in ← sideGoals xs do
    if ← isProp (← x.getType) then discard <| closeSide x
  let p0 ← instantiateMVars p0
  let s' ← instantiateMVars s'
  let pr ← instantiateMVars pr
  let fr := mkSep st.avail
  let e ← proveAC p (mkApp2 (mkConst ``Osl.Mem.sep) s' fr)
  let ent ← mkAppOptM ``Osl.Mem.entail_of_eq #[p, s', p0, fr, e, pr]
  let q0 ← instantiateMVars q0
  let name := match f with | .lam n _ _ _ => n | _ => `x
  let ty ← withLocalDeclD name a fun x => do
    let t ← mkAppOptM ``Osl.Mem.Triple #[b, mkApp2 (mkConst ``Osl.Mem.sep) (mkApp q0 x).headBeta fr, (mkApp f x).headBeta, s]
    mkForallFVars #[x] t
  let g' ← mkFreshExprSyntheticOpaqueMVar ty
  g.assign (← mkAppOptM ``Osl.Mem.Triple.stepE #[a, b, p, p0, fr, m1, q0, f, s, spec, ent, g'])
  let (_, g') ← g'.mvarId!.intro1P
  let g' ← normPre g'
  let side ← leftGoals (st.goals ++ (← sideGoals xs))
  replaceMainGoal (g' :: side)

/-- End of a run. -/
elab "hret" : tactic => withMainContext do
  let g ← getMainGoal
  let gs ← g.apply (← mkConstWithFreshMVarLevels ``Osl.Mem.Triple.ret)
  let [g] := gs | throwError "hret"
  let (_, g) ← g.introNP 1
  let (hh, g) ← g.intro1P
  g.withContext do
    let ty ← instantiateMVars (← hh.getType)
    let tgt ← instantiateMVars (← g.getType)
    let .app p h := ty | throwError "hret: {ty}"
    let .app q _ := tgt | throwError "hret: {tgt}"
    let avail ← conjs p
    let ((s', pr), st) ← (build q).run { avail }
    unless st.avail.isEmpty do throwError "not used: {mkSep st.avail}"
    let s' ← instantiateMVars s'
    let pr ← instantiateMVars pr
    let e ← proveAC p s'
    g.assign (mkApp2 (← mkAppOptM ``Osl.Mem.entail_all #[p, s', q, e, pr]) h (mkFVar hh))
    replaceMainGoal (← leftGoals st.goals)

/-- The last call. -/
macro "hlast " t:term : tactic => `(tactic| (apply Osl.Mem.Triple.lastB; hstep $t))

/-- Open an assertion. -/
elab "hopen " ids:ident,+ : tactic => withMainContext do
  let g ← getMainGoal
  let names ← ids.getElems.mapM fun i => realizeGlobalConstNoOverloadWithInfo i
  let (a, p, m, s) ← getTriple g
  let cs ← conjs p
  let cs' ← cs.mapM fun c => do
    match c.getAppFn.constName? with
    | some n =>
      if names.contains n then
        match ← unfoldDefinition? c with
        | some e => whnfCore e
        | none => throwError "cannot open {c}"
      else return c
    | none => return c
  let p1 := mkSep cs
  let g1 ← setPre g p1
  let g2 ← mkFreshExprSyntheticOpaqueMVar (← mkAppOptM ``Osl.Mem.Triple #[a, mkSep cs', m, s])
  g1.assign g2
  let g ← normPre g2.mvarId!
  replaceMainGoal [g]

/-- The entailment of the premise `∀ h, P0 h → φ h` of an implication, with its parameters. -/
def elabEntail (t : Term) : TacticM (Expr × Expr × Expr × Array Expr) := do
  let e ← Term.withSynthesize (postpone := .partial) (Tactic.elabTerm t none (mayPostpone := true))
  let ty ← instantiateMVars (← inferType e)
  -- the last two parameters are the memory and its description
  let (xs, _, _) ← forallMetaTelescope ty
  let n := xs.size - 2
  let (xs, bis, ty) ← forallMetaBoundedTelescope ty n
  for x in xs, bi in bis do
    if bi.isInstImplicit then
      let i ← synthInstance (← inferType x)
      discard <| isDefEq x i
  let spec := mkAppN e xs
  let .forallE _ dom body _ := ty | throwError "not an implication: {ty}"
  withLocalDeclD `h dom fun h => do
    let b := body.instantiate1 h
    let .forallE _ ph c _ := b | throwError "not an implication: {b}"
    let .app p0 h' := ph | throwError "not an assertion: {ph}"
    unless h' == h do throwError "not an assertion: {ph}"
    return (spec, p0, ← mkLambdaFVars #[h] c, xs)

/-- A fact which the precondition implies. -/
elab "hfact " t:term : tactic => withMainContext do
  let g ← getMainGoal
  let (a, p, m, s) ← getTriple g
  let (spec, p0, φ, xs) ← elabEntail t
  let avail ← conjs p
  let ((s', pr), st) ← (build p0).run { avail }
  for x in ← sideGoals xs do
    if ← isProp (← x.getType) then discard <| closeSide x
  let p0 ← instantiateMVars p0
  let s' ← instantiateMVars s'
  let pr ← instantiateMVars pr
  let φ ← instantiateMVars φ
  let .lam _ _ φ _ := φ | throwError "hfact"
  let fr := mkSep st.avail
  let eq ← proveAC p (mkApp2 (mkConst ``Osl.Mem.sep) s' fr)
  let ent ← mkAppOptM ``Osl.Mem.entail_of_eq #[p, s', p0, fr, eq, pr]
  let g' ← mkFreshExprSyntheticOpaqueMVar (← mkArrow φ (← g.getType))
  g.assign (← mkAppOptM ``Osl.Mem.Triple.factE #[a, p, p0, fr, φ, m, s, spec, ent, g'])
  let side ← leftGoals (st.goals ++ (← sideGoals xs))
  replaceMainGoal (g'.mvarId! :: side)

/-- Replace a part of the precondition by what it implies. -/
elab "hconv " t:term : tactic => withMainContext do
  let g ← getMainGoal
  let (a, p, m, s) ← getTriple g
  let (spec, p0, p1, xs) ← elabEntail t
  let avail ← conjs p
  let ((s', pr), st) ← (build p0).run { avail }
  for x in ← sideGoals xs do
    if ← isProp (← x.getType) then discard <| closeSide x
  let p0 ← instantiateMVars p0
  let s' ← instantiateMVars s'
  let pr ← instantiateMVars pr
  let p1 := (← instantiateMVars p1).eta
  let fr := mkSep st.avail
  let eq ← proveAC p (mkApp2 (mkConst ``Osl.Mem.sep) s' fr)
  let ent ← mkAppOptM ``Osl.Mem.entail_of_eq #[p, s', p0, fr, eq, pr]
  let g' ← mkFreshExprSyntheticOpaqueMVar (← mkAppOptM ``Osl.Mem.Triple #[a, mkApp2 (mkConst ``Osl.Mem.sep) p1 fr, m, s])
  g.assign (← mkAppOptM ``Osl.Mem.Triple.convE #[a, p, p0, p1, fr, m, s, spec, ent, g'])
  let g' ← normPre g'.mvarId!
  let side ← leftGoals (st.goals ++ (← sideGoals xs))
  replaceMainGoal (g' :: side)

end Osl.Mem.Tac
