import Lean.Elab.Tactic

/-!
# Evaluation with unknown operations

A tactic for equations between two computations that are stuck on operations with unknown results: it evaluates both
sides as far as possible, looks at what they are stuck on, replaces it with its value if a hypothesis or one of the given
equations says what it is, and otherwise distinguishes its possible results.
-/

namespace Dis.Calc

open Lean Meta Elab Tactic

/-- Evaluates, and finds the term that keeps the result from being evaluated further. -/
partial def stuckOn (e : Expr) : MetaM (Expr × Option Expr) := do
  let e ← whnf e
  if e.isLit || e.isLambda || e.isSort || e.isForall then return (e, none)
  if let some _ ← isConstructorApp? e then return (e, none)
  let f := e.getAppFn
  match f with
  | .const n _ =>
    let args := e.getAppArgs
    if let some info ← getMatcherInfo? n then
      let mut args := args
      for i in [info.getFirstDiscrPos : info.getFirstDiscrPos + info.numDiscrs] do
        let (d, s) ← stuckOn args[i]!
        args := args.set! i d
        if let some q := s then return (mkAppN f args, some q)
      return (mkAppN f args, none)
    if let .recInfo v ← getConstInfo n then
      let i := v.getMajorIdx
      if h : i < args.size then
        let (d, s) ← stuckOn args[i]
        return (mkAppN f (args.set! i d), s)
    return (e, some e)
  | .proj t i b =>
    let (b', s) ← stuckOn b
    match s with
    | some q => if q.getAppFn.isFVar || q.getAppFn.isProj then return (e, some e) else return (mkAppN (.proj t i b') e.getAppArgs, some q)
    | none => return (e, some e)
  | _ => return (e, some e)

/-- What an operation is applied to, as far as it can be told apart at once. -/
def sameHead (a q : Expr) : MetaM Bool := do
  let a ← if a.getAppFn.isConst then whnfCore a else pure a
  let a ← if a.getAppFn.isConst then pure ((← unfoldProj? a).getD a) else pure a
  match a.getAppFn, q.getAppFn with
  | .const m _, .const n _ => return m == n
  | .proj s i _, .proj t j _ => return s == t && i == j
  | .const _ _, .proj _ _ _ => return false
  | .proj _ _ _, .const _ _ => return false
  | _, _ => return true
where
  unfoldProj? (a : Expr) : MetaM (Option Expr) := do
    let .const n _ := a.getAppFn | return none
    if (← getProjectionFnInfo? n).isSome then
      let some b ← unfoldDefinition? a | return none
      return some (← whnfCore b)
    return none

/-- An equation for a term: from a hypothesis, or an instance of one of the given ones. -/
partial def equationFor (q : Expr) (given : Array Expr) : MetaM (Option (Expr × Expr)) := do
  for d in ← getLCtx do
    if d.isImplementationDetail then continue
    if let some (_, a, b) := d.type.eq? then
      unless ← sameHead a q do continue
      if ← withNewMCtxDepth (isDefEq a q) then return some (d.toExpr, b)
  for p in given do
    let t ← instantiateMVars (← inferType p)
    let r ← withNewMCtxDepth do
      let (xs, _, t) ← forallMetaTelescope t
      let some (_, a, b) := t.eq? | return none
      unless ← sameHead a q do return none
      unless ← isDefEq a q do return none
      for x in xs do
        if (← instantiateMVars x).isMVar then
          let t ← instantiateMVars (← inferType x)
          if let some (β, c, d) := t.eq? then
            if ← isDefEq c d then x.mvarId!.assign (mkApp2 (.const ``Eq.refl [← getLevel β]) β c)
            else
              let (_, s) ← stuckOn c
              let some (h, e) ← equationFor (s.getD c) given | return none
              unless ← isDefEq d e do return none
              x.mvarId!.assign h
      return some (← instantiateMVars (mkAppN p xs), ← instantiateMVars b)
    if r.isSome then return r
  return none

theorem fin3_ext {α : Type} {f g : Fin 3 → α} (h0 : f 0 = g 0) (h1 : f 1 = g 1) (h2 : f 2 = g 2) : f = g := by
  funext i
  match i with
  | 0 => exact h0
  | 1 => exact h1
  | 2 => exact h2

/-- Closes an equation between two results: by reflexivity, or element by element for vectors and matrices. -/
partial def closeEq (given : Array Expr) (g : MVarId) : MetaM (List MVarId) := g.withContext do
  let t ← instantiateMVars (← g.getType)
  let some (α, l, r) := t.consumeMData.eq? | return [g]
  if ← isDefEq l r then
    g.assign (mkApp2 (.const ``Eq.refl [← getLevel α]) α l)
    return []
  for p in given do
    if ← isDefEq (← inferType p) t then
      g.assign p
      return []
  let l ← whnf l
  let r ← whnf r
  let n := l.getAppNumArgs
  if n > 0 && n == r.getAppNumArgs && (← isDefEq l.getAppFn r.getAppFn) then
    let mut p ← mkEqRefl l.getAppFn
    let mut out := []
    for a in l.getAppArgs, b in r.getAppArgs do
      if ← isDefEq a b then p ← mkCongrFun p a
      else
        let m ← mkFreshExprSyntheticOpaqueMVar (← mkEq a b)
        p ← mkCongr p m
        out := out ++ (← closeEq given m.mvarId!)
    g.assign p
    return out
  if (← whnf α).isForall then
    let gs ← try g.apply (← mkConstWithFreshMVarLevels ``fin3_ext) catch _ => return [g]
    return (← gs.mapM (closeEq given)).flatten
  return [g]

mutual

/-- As `calcEval`; what it has proved is a theorem of its own. -/
partial def calcStep (given : Array Expr) (g : MVarId) : MetaM (List MVarId) := g.withContext do
  let t ← instantiateMVars (← g.getType)
  let m ← mkFreshExprSyntheticOpaqueMVar t
  let gs ← calcEval given m.mvarId!
  let p ← instantiateMVars m
  if gs.isEmpty then
    g.assign (← mkAuxTheorem t p (zetaDelta := true))
  else
    g.assign p
  return gs

/-- Evaluates both sides. -/
partial def calcEval (given : Array Expr) (g : MVarId) : MetaM (List MVarId) := g.withContext do
  let t ← instantiateMVars (← g.getType)
  let some (α, l, r) := t.consumeMData.eq? | throwError "not an equation{indentExpr t}"
  let u ← getLevel α
  let (l', ls) ← stuckOn l
  let (r', rs) ← stuckOn r
  let g ← g.replaceTargetDefEq (mkApp3 (.const ``Eq [u]) α l' r')
  match ls <|> rs with
  | none =>
    closeEq given g
  | some q =>
    trace[Meta.debug] "{q}"
    match ← equationFor q given with
    | some (h, b) =>
      let h ← mkExpectedTypeHint h (← mkEq q b)
      let res ← g.rewrite (mkApp3 (.const ``Eq [u]) α l' r') h
      let g ← g.replaceTargetEq res.eNew res.eqProof
      calcStep given g
    | none =>
      let (xs, g) ← g.generalize #[{ expr := q, xName? := `q, hName? := `h }]
      let gs ← g.cases xs[0]!
      let mut out := []
      for s in gs do
        out := out ++ (← calcStep given s.mvarId)
      return out

end

/-- Evaluates both sides of an equation; what is left is what could not be closed by reflexivity. -/
elab "calc_eval" "[" ts:term,*,? "]" : tactic => withMainContext do
  let given ← ts.getElems.mapM fun t => elabTerm t none
  liftMetaTactic (calcEval given)

/-- Closes a goal `a = b` with `rfl` and leaves the check to the kernel. -/
elab "checked_rfl" : tactic => liftMetaTactic fun g => do
  let t ← instantiateMVars (← g.getType)
  match t.consumeMData.eq? with
  | some (α, a, _) => g.assign (mkApp2 (mkConst ``Eq.refl [← getLevel α]) α a); return []
  | none => throwError "not an equation"

end Dis.Calc
