import Lean
import Verif.Proof.Reach

/-!
# The tactic behind the traversal

`jauto` proves a goal `J.rel c d Q m m'` by following the head symbol of `m`.  For a head symbol
`f` it applies the lemma called `f_j`; binds, conditionals and matches are taken apart.  The
choice between the two bind rules is made by `consumes`, which reads the `d` of the lemma.
-/

namespace JTac

open Lean Meta Elab Tactic

/-- The name of the lemma about a head symbol. -/
def lemmaName : Name → Option Name
  | .str (.str (.str .anonymous "Ressa") "Rec") s => some (.str (.str .anonymous "Ressa") (s ++ "_rec"))
  | .str p s => some (.str p (s ++ "_j"))
  | _ => none

/-- The arguments of `Judgement.rel`. -/
def relArgs (e : Expr) : Option (Array Expr) :=
  if e.isAppOfArity ``Ressa.Judgement.rel 7 then some e.getAppArgs else none

/-- The conclusion of a lemma, with loose bound variables for its arguments. -/
partial def conclusion : Expr → Expr
  | .forallE _ _ b _ => conclusion b
  | e => e

/-- The lemma for a head symbol, if there is one. -/
def findLemma (n : Name) : MetaM (Option (Name × Expr)) := do
  let some l := lemmaName n | return none
  let some info := (← getEnv).find? l | return none
  return some (l, conclusion info.type)

/-- Does the computation consume an item, as far as the lemmas know? -/
partial def consumes (e : Expr) : MetaM Bool := do
  let e := e.headBeta
  match e with
  | .lam .. => lambdaTelescope e fun _ b => consumes b
  | .letE _ _ v b _ => consumes (b.instantiate1 v)
  | _ =>
  if e.isAppOfArity ``Bind.bind 6 then
    let as := e.getAppArgs
    return (← consumes as[4]!) || (← consumes as[5]!)
  if e.isAppOfArity ``ite 5 then
    let as := e.getAppArgs
    return (← consumes as[3]!) && (← consumes as[4]!)
  if let some app ← matchMatcherApp? e then
    return ← app.alts.allM consumes
  if e.isFVar then return true
  let .const n _ := e.getAppFn | return false
  let some (_, concl) ← findLemma n | return false
  let some as := relArgs concl | return false
  if as[3]!.isConstOf ``Bool.true then return true
  if as[3]!.isConstOf ``Bool.false then return false
  -- `d` is a parameter of the lemma: either the function never succeeds or it wraps its argument
  let last := e.appArg!
  if (← whnfR (← inferType last)).isAppOf ``Ressa.P then consumes last else return true

/-- Unfold `let`s and beta redexes at the head. -/
partial def zeta (e : Expr) : Expr :=
  match e.headBeta with
  | .letE _ _ v b _ => zeta (b.instantiate1 v)
  | e => e

/-- One structural step, repeated. -/
partial def go (g : MVarId) : TacticM Unit := do
  let g ← (do
    let (_, g) ← g.intros
    pure g : MetaM MVarId)
  g.withContext do
  let tgt := (← instantiateMVars (← g.getType)).headBeta
  let some as := relArgs tgt | side g
  let e := zeta as[5]!
  let e' := zeta as[6]!
  let g ← g.replaceTargetDefEq (mkAppN tgt.getAppFn (as.set! 5 e |>.set! 6 e'))
  let dTrue := as[3]!.isConstOf ``Bool.true
  if e.isAppOfArity ``Bind.bind 6 then
    let m := e.getAppArgs[4]!
    let q ← (if m.isAppOf ``Ressa.nextItem || m.isAppOf ``Ressa.look then
        mkAppM ``Ressa.Judgement.good #[as[0]!]
      else if m.isAppOf ``Ressa.functionDeclName then
        mkAppM ``Ressa.NameGood #[as[0]!]
      else
        mkAppOptM ``Ressa.Any #[e.getAppArgs[2]!])
    let l ← (do
      if ← consumes m then
        pure (if dTrue then ``Ressa.Base.bindT else ``Ressa.jBindTF)
      else pure ``Ressa.Base.bindF)
    run g l (some q)
  else if e.isAppOfArity ``ite 5 then
    run g ``Ressa.jIte none
  else if e.isAppOfArity ``Pure.pure 4 then
    run g ``Ressa.jPure none
  else if (← matchMatcherApp? e).isSome then
    setGoals [g]
    evalTactic (← `(tactic| split))
    let gs ← getGoals
    setGoals []
    for g in gs do
      if !(← g.isAssigned) then go g
  else if e.isFVar then
    setGoals [g]
    evalTactic (← `(tactic| first | assumption | (refine Ressa.Base.weakenD ?_; assumption)))
    setGoals []
  else
    let .const n _ := e.getAppFn | throwTacticEx `jauto g m!"no head symbol"
    let some (l, concl) ← findLemma n | throwTacticEx `jauto g m!"no lemma for {n}"
    let some ls := relArgs concl | throwTacticEx `jauto g m!"bad lemma {l}"
    let mut g := g
    if ls[3]!.isConstOf ``Bool.true && !dTrue then
      let [g'] ← applyC g ``Ressa.Base.weakenD | throwTacticEx `jauto g m!"weakenD"
      g := g'
    if ls[4]!.isAppOf ``Ressa.Judgement.good && !as[4]!.isAppOf ``Ressa.Judgement.good then
      let [g'] ← applyC g ``Ressa.jTrue | throwTacticEx `jauto g m!"jTrue"
      g := g'
    for g' in ← applyC g l do go g'
where
  -- Apply a lemma, keeping only the goals that are not instances or assigned.
  applyC (g : MVarId) (l : Name) : TacticM (List MVarId) := do
    let gs ← g.apply (← mkConstWithFreshMVarLevels l) { newGoals := .nonDependentOnly }
    gs.filterM fun g => do return !(← g.isAssigned)
  -- Apply a bind or branching rule, optionally with the intermediate postcondition.
  run (g : MVarId) (l : Name) (q : Option Expr) : TacticM Unit := do
    let gs ← (match q with
      | none => applyC g l
      | some q => do
        let c ← mkConstWithFreshMVarLevels l
        let (xs, _, ty) ← forallMetaTelescope (← inferType c)
        let tgt ← g.getType
        for x in xs do
          if (← x.mvarId!.getTag) == `Q || (← x.mvarId!.getDecl).userName == `Q then
            if ← isDefEq (← inferType x) (← inferType q) then
              x.mvarId!.assign q
        unless ← isDefEq ty tgt do throwTacticEx `jauto g m!"cannot apply {l}"
        for x in xs do
          if !(← x.mvarId!.isAssigned) then
            if (← isClass? (← inferType x)).isSome then
              x.mvarId!.assign (← synthInstance (← inferType x))
        g.assign (mkAppN c xs)
        xs.toList.map (·.mvarId!) |>.filterM fun g => do return !(← g.isAssigned))
    for g in gs do go g
  -- Side conditions.
  side (g : MVarId) : TacticM Unit := do
    setGoals [g]
    evalTactic (← `(tactic| first | assumption | exact Ressa.NameGood.some (by assumption) | trivial | constructor))
    setGoals []

/-- Follows the structure of a computation. -/
elab "jauto" : tactic => do
  let g ← getMainGoal
  let rest := (← getGoals).tail!
  go g
  setGoals rest

end JTac
