import Verif.HeapTac
import Verif.HeapQueryProps
/-!
# Tactics for the queries of `Verif/HeapQueryProps.lean`

`quse t` ends with the query `t` on a part of the memory, `qnext t` runs one call with it, `qopen d` opens an assertion.
-/

namespace Osl.Mem

variable {α β : Type}

theorem Query.useE {P P0 F : Assn} {m : M α} {v : α} (q : Query P0 m v) (e : ∀ h, P h → (P0 ∗ F) h) : Query P m v := q.left.mono (fun h hh => sep_anything (e h hh))

theorem Query.nextE {P P0 F : Assn} {m : M α} {f : α → M β} {v : α} {w : β} (q : Query P0 m v) (e : ∀ h, P h → (P0 ∗ F) h) (k : Query P (f v) w) : Query P (m >>= f) w :=
  (q.useE e).bind k

theorem Query.rearr {P P' : Assn} {m : M α} {v : α} (e : P = P') (h : Query P' m v) : Query P m v := by rw [e]; exact h

theorem Query.exi_sep {γ : Type} {P : γ → Assn} {F : Assn} {m : M α} {v : α} (h : ∀ x, Query (P x ∗ F) m v) : Query (Mem.ex P ∗ F) m v := by
  rw [ex_sep]
  exact Query.ex h

end Osl.Mem

namespace Osl.Mem.Tac

open Lean Meta Elab Tactic

/-- The goal as a query. -/
def getQuery (g : MVarId) : MetaM (Expr × Expr × Expr × Expr) := do
  let tgt ← instantiateMVars (← g.getType)
  let tgt := tgt.consumeMData
  match tgt.getAppFnArgs with
  | (``Osl.Mem.Query, #[a, p, m, v]) => return (a, p, m.headBeta, v)
  | _ => throwError "the goal is not a query: {tgt}"

/-- Replace the precondition by an equal one. -/
def setQuery (g : MVarId) (p' : Expr) : TacticM MVarId := do
  let (a, p, m, s) ← getQuery g
  if p == p' then return g
  let e ← proveAC p p'
  let g' ← mkFreshExprSyntheticOpaqueMVar (← mkAppOptM ``Osl.Mem.Query #[a, p', m, s])
  g.assign (← mkAppOptM ``Osl.Mem.Query.rearr #[a, p, p', m, s, e, g'])
  return g'.mvarId!

/-- Take the facts and the existential quantifiers out of the precondition. -/
partial def normQuery (g : MVarId) : TacticM MVarId := g.withContext do
  let (a, p, m, s) ← getQuery g
  let cs ← conjs p
  let isPur (e : Expr) := e.isAppOfArity ``Osl.Mem.pur 1
  let isEx (e : Expr) := e.isAppOfArity ``Osl.Mem.ex 2
  match cs.find? isPur with
  | some c => do
    let rest := cs.erase c
    let φ := c.appArg!
    let f := mkSep rest
    let g ← setQuery g (mkApp2 (mkConst ``Osl.Mem.sep) c f)
    let g' ← mkFreshExprSyntheticOpaqueMVar (← mkArrow φ (← mkAppOptM ``Osl.Mem.Query #[a, f, m, s]))
    g.assign (← mkAppOptM ``Osl.Mem.Query.fact #[a, φ, f, m, s, g'])
    let (_, g) ← g'.mvarId!.intro1
    normQuery g
  | none =>
    match cs.find? isEx with
    | some c => do
      let rest := cs.erase c
      let f := mkSep rest
      let γ := c.appFn!.appArg!
      let q := c.appArg!
      let g ← setQuery g (mkApp2 (mkConst ``Osl.Mem.sep) c f)
      let name := match q with | .lam n _ _ _ => n | _ => `x
      let ty ← withLocalDeclD name γ fun x => do
        let t ← mkAppOptM ``Osl.Mem.Query #[a, mkApp2 (mkConst ``Osl.Mem.sep) (mkApp q x).headBeta f, m, s]
        mkForallFVars #[x] t
      let g' ← mkFreshExprSyntheticOpaqueMVar ty
      g.assign (← mkAppOptM ``Osl.Mem.Query.exi_sep #[a, γ, q, f, m, s, g'])
      let (_, g) ← g'.mvarId!.intro1
      normQuery g
    | none => setQuery g (mkSep cs)

elab "qnorm" : tactic => withMainContext do
  let g ← normQuery (← getMainGoal)
  replaceMainGoal [g]

/-- Open an assertion. -/
elab "qopen " ids:ident,+ : tactic => withMainContext do
  let g ← getMainGoal
  let names ← ids.getElems.mapM fun i => realizeGlobalConstNoOverloadWithInfo i
  let (a, p, m, s) ← getQuery g
  let cs ← conjs p
  let cs' ← cs.mapM fun c => do
    match c.getAppFn.constName? with
    | some n =>
      if names.contains n then
        match ← unfoldDefinition? c with
        | some e => whnfCore e
        | none => throwError "cannot open {c}"
      else return c
    | none => return c
  let p1 := mkSep cs
  let g1 ← setQuery g p1
  let g2 ← mkFreshExprSyntheticOpaqueMVar (← mkAppOptM ``Osl.Mem.Query #[a, mkSep cs', m, s])
  g1.assign g2
  let g ← normQuery g2.mvarId!
  replaceMainGoal [g]

/-- What a query needs, found in the memory: the entailment and the frame. -/
def matchQuery (p : Expr) (spec ty : Expr) (xs : Array Expr) : TacticM (Expr × Expr × Expr × List MVarId) := do
  let (p0, _) ← (match ty.getAppFnArgs with
    | (``Osl.Mem.Query, #[_, p0, m0, _]) => pure (p0, m0)
    | _ => throwError "not a query: {ty}")
  let avail ← conjs p
  let ((s', pr), st) ← (build p0).run { avail }
  for x in ← sideGoals xs do
    if ← isProp (← x.getType) then discard <| closeSide x
  let p0 ← instantiateMVars p0
  let s' ← instantiateMVars s'
  let pr ← instantiateMVars pr
  let fr := mkSep st.avail
  let e ← proveAC p (mkApp2 (mkConst ``Osl.Mem.sep) s' fr)
  let ent ← mkAppOptM ``Osl.Mem.entail_of_eq #[p, s', p0, fr, e, pr]
  let _ := spec
  return (p0, fr, ent, st.goals)

/-- The last call. -/
elab "quse " t:term : tactic => withMainContext do
  let g ← getMainGoal
  let (a, p, m, v) ← getQuery g
  let (spec, ty, xs) ← elabSpec t
  let (m0, v0) ← (match ty.getAppFnArgs with
    | (``Osl.Mem.Query, #[_, _, m0, v0]) => pure (m0, v0)
    | _ => throwError "not a query: {ty}")
  unless ← isDefEq m0 m do throwError "the call is {m}, not {m0}"
  unless ← isDefEq v0 v do throwError "the value is {v}, not {v0}"
  let (p0, fr, ent, gs) ← matchQuery p spec ty xs
  g.assign (← mkAppOptM ``Osl.Mem.Query.useE #[a, p, p0, fr, m, v, spec, ent])
  replaceMainGoal (← leftGoals (gs ++ (← sideGoals xs)))

/-- One call. -/
elab "qnext " t:term : tactic => withMainContext do
  let g ← getMainGoal
  let (b, p, m, w) ← getQuery g
  let (f, m1, a) ← (match m.getAppFnArgs with
    | (``Bind.bind, #[_, _, a, _, m1, f]) => pure (f, m1, a)
    | _ => throwError "not a sequence: {m}")
  let (spec, ty, xs) ← elabSpec t
  let (m0, v0) ← (match ty.getAppFnArgs with
    | (``Osl.Mem.Query, #[_, _, m0, v0]) => pure (m0, v0)
    | _ => throwError "not a query: {ty}")
  unless ← isDefEq m0 m1 do throwError "the call is {m1}, not {m0}"
  let (p0, fr, ent, gs) ← matchQuery p spec ty xs
  let v0 ← instantiateMVars v0
  let side ← leftGoals (gs ++ (← sideGoals xs))
  let v0 ← instantiateMVars v0
  let g' ← mkFreshExprSyntheticOpaqueMVar (← mkAppOptM ``Osl.Mem.Query #[b, p, (mkApp f v0).headBeta, w])
  g.assign (← mkAppOptM ``Osl.Mem.Query.nextE #[a, b, p, p0, fr, m1, f, v0, w, spec, ent, g'])
  replaceMainGoal (g'.mvarId! :: side)

end Osl.Mem.Tac
