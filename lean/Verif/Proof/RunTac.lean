import Verif.Proof.RunF

/-!
# The tactics behind the soundness proof

`sx` follows a goal `Run C Γ i m R` by the head symbol of `m`: for `f` it uses the lemma `Rn.f`, a
scope rule `Sc.f` or, under an `if`, the test `Test.f`.  It stops at the ends of the computation
and at symbols it has no lemma for.

`gr` finds a derivation of `G C Γ nt i o` from the hypotheses by a few rules.
-/

namespace Ressa

namespace Token
theorem isEof_iff {t : Token} : t.isEof = true ↔ t = .eof := by cases t <;> simp [isEof]
theorem isEof_false {t : Token} : t.isEof = false ↔ t ≠ .eof := by cases t <;> simp [isEof]
theorem isIdent_iff {t : Token} : t.isIdent = true ↔ t = .ident := by cases t <;> simp [isIdent]
theorem isIdent_false {t : Token} : t.isIdent = false ↔ t ≠ .ident := by cases t <;> simp [isIdent]
theorem isString_iff {t : Token} : t.isString = true ↔ t = .string := by cases t <;> simp [isString]
theorem isString_false {t : Token} : t.isString = false ↔ t ≠ .string := by
  cases t <;> simp [isString]
theorem isNumber_iff {t : Token} : t.isNumber = true ↔ t = .numeric := by
  cases t <;> simp [isNumber]
theorem isNumber_false {t : Token} : t.isNumber = false ↔ t ≠ .numeric := by
  cases t <;> simp [isNumber]
theorem isRegex_iff {t : Token} : t.isRegex = true ↔ t = .regex := by cases t <;> simp [isRegex]
theorem isRegex_false {t : Token} : t.isRegex = false ↔ t ≠ .regex := by cases t <;> simp [isRegex]
end Token

theorem matchesPunct_false {t : Token} {p} : t.matchesPunct p = false ↔ t ≠ .punct p := by
  rw [← Bool.not_eq_true, matchesPunct_iff]
theorem matchesKeyword_false {t : Token} {k} : t.matchesKeyword k = false ↔ t ≠ .keyword k := by
  rw [← Bool.not_eq_true, matchesKeyword_iff]

theorem matchesPunct_punct {p q} : (Token.punct p).matchesPunct q = decide (p = q) := by
  simp only [Token.matchesPunct]; by_cases h : p = q <;> simp [h]
theorem matchesKeyword_keyword {p q} : (Token.keyword p).matchesKeyword q = decide (p = q) := by
  simp only [Token.matchesKeyword]; by_cases h : p = q <;> simp [h]

namespace Gr
theorem head_nil : head [] = .eof := rfl
theorem head_cons {t o} : head (t :: o) = t.item.token := rfl
theorem nl_cons {C : Cfg} {t o} : C.nl (t :: o) = t.nl := rfl
theorem textIs_cons {C : Cfg} {w t o b} : C.textIs w (t :: o) b ↔ (C.text t = w ↔ b = true) := Iff.rfl
namespace Env
@[simp] theorem body_strict {Γ : Env} : Γ.body.strict = Γ.strict := rfl
@[simp] theorem body_await {Γ : Env} : Γ.body.await = Γ.await := rfl
@[simp] theorem body_inFn {Γ : Env} : Γ.body.inFn = true := rfl
@[simp] theorem body_allowIn {Γ : Env} : Γ.body.allowIn = Γ.allowIn := rfl
@[simp] theorem body_labels {Γ : Env} : Γ.body.labels = [] := rfl
@[simp] theorem fn_strict {Γ : Env} {a g} : (Γ.fn a g).strict = Γ.strict := rfl
@[simp] theorem fn_await {Γ : Env} {a g} : (Γ.fn a g).await = a := rfl
@[simp] theorem fn_inFn {Γ : Env} {a g} : (Γ.fn a g).inFn = Γ.inFn := rfl
@[simp] theorem fn_allowIn {Γ : Env} {a g} : (Γ.fn a g).allowIn = Γ.allowIn := rfl
@[simp] theorem fn_labels {Γ : Env} {a g} : (Γ.fn a g).labels = Γ.labels := rfl
@[simp] theorem fn_gen {Γ : Env} {a g} : (Γ.fn a g).gen = g := rfl
@[simp] theorem yielding_strict {Γ : Env} {g} : (Γ.yielding g).strict = Γ.strict := rfl
@[simp] theorem yielding_await {Γ : Env} {g} : (Γ.yielding g).await = Γ.await := rfl
@[simp] theorem yielding_inFn {Γ : Env} {g} : (Γ.yielding g).inFn = Γ.inFn := rfl
@[simp] theorem yielding_allowIn {Γ : Env} {g} : (Γ.yielding g).allowIn = Γ.allowIn := rfl
@[simp] theorem yielding_labels {Γ : Env} {g} : (Γ.yielding g).labels = Γ.labels := rfl
@[simp] theorem yielding_gen {Γ : Env} {g} : (Γ.yielding g).gen = g := rfl
@[simp] theorem within_strict {Γ : Env} {b} : (Γ.within b).strict = Γ.strict := rfl
@[simp] theorem within_await {Γ : Env} {b} : (Γ.within b).await = Γ.await := rfl
@[simp] theorem within_inFn {Γ : Env} {b} : (Γ.within b).inFn = Γ.inFn := rfl
@[simp] theorem within_allowIn {Γ : Env} {b} : (Γ.within b).allowIn = b := rfl
@[simp] theorem within_labels {Γ : Env} {b} : (Γ.within b).labels = Γ.labels := rfl
@[simp] theorem strictly_strict {Γ : Env} : Γ.strictly.strict = true := rfl
@[simp] theorem strictly_await {Γ : Env} : Γ.strictly.await = Γ.await := rfl
@[simp] theorem strictly_inFn {Γ : Env} : Γ.strictly.inFn = Γ.inFn := rfl
@[simp] theorem strictly_allowIn {Γ : Env} : Γ.strictly.allowIn = Γ.allowIn := rfl
@[simp] theorem strictly_labels {Γ : Env} : Γ.strictly.labels = Γ.labels := rfl
@[simp] theorem label_strict {Γ : Env} {l} : (Γ.label l).strict = Γ.strict := rfl
@[simp] theorem label_await {Γ : Env} {l} : (Γ.label l).await = Γ.await := rfl
@[simp] theorem label_inFn {Γ : Env} {l} : (Γ.label l).inFn = Γ.inFn := rfl
@[simp] theorem label_allowIn {Γ : Env} {l} : (Γ.label l).allowIn = Γ.allowIn := rfl
@[simp] theorem label_labels {Γ : Env} {l} : (Γ.label l).labels = ('$' :: l) :: Γ.labels := rfl
end Env
end Gr

end Ressa

namespace RunTac

open Lean Meta Elab Tactic

/-- `Ressa.f` to `Ressa.pre.f`. -/
def lemmaName (pre : String) : Name → Option Name
  | .str p s =>
    if p == `Ressa then some (.str (.str `Ressa pre) s)
    else if p == `Ressa.P then some (.str (.str (.str `Ressa pre) "P") s)
    else if p == `Ressa.Rec then some (.str (.str (.str `Ressa pre) "Rec") s)
    else none
  | _ => none

def findLemma (pre : String) (n : Name) : MetaM (Option Name) := do
  let some l := lemmaName pre n | return none
  return if (← getEnv).contains l then some l else none

/-- Unfold `let`s and beta redexes at the head. -/
partial def zeta (e : Expr) : Expr :=
  match e.headBeta with
  | .letE _ _ v b _ => zeta (b.instantiate1 v)
  | .mdata _ e => zeta e
  | e => e

/-- Apply a constant; instance arguments are synthesized, other unassigned ones become goals. -/
def applyC (g : MVarId) (l : Name) : MetaM (List MVarId) := do
  let gs ← g.apply (← mkConstWithFreshMVarLevels l) { newGoals := .nonDependentOnly }
  gs.filterM fun g => do return !(← g.isAssigned)

/-- Conjunctions, existentials, and equations one side of which is a variable or both sides of
which are constructors. -/
def destructible (d : LocalDecl) : MetaM Bool := do
  if d.isImplementationDetail then return false
  let t ← instantiateMVars d.type
  if t.isAppOfArity ``And 2 || t.isAppOfArity ``Exists 2 then return true
  if let some (_, a, b) := t.eq? then
    if a.isFVar || b.isFVar then return true
    if a.isAppOf ``List.cons && b.isAppOf ``List.cons then return true
    if a.isAppOf ``Prod.mk && b.isAppOf ``Prod.mk then return true
  return false

/-- Introduce everything and take the new hypotheses apart. -/
partial def introAll (g : MVarId) : MetaM (List MVarId) := do
  let (_, g) ← g.intros
  go g
where
  go (g : MVarId) : MetaM (List MVarId) := g.withContext do
    for d in (← getLCtx).decls.toArray.reverse.filterMap id do
      if ← destructible d then
        let t ← instantiateMVars d.type
        if let some (_, a, b) := t.eq? then
          if a.isFVar then
            if let some (_, g') ← observing? (substCore g d.fvarId (symm := false) (clearH := true)) then
              return ← go g'
          if b.isFVar then
            if let some (_, g') ← observing? (substCore g d.fvarId (symm := true) (clearH := true)) then
              return ← go g'
          if a.isFVar || b.isFVar then continue
        let some gs ← observing? (g.cases d.fvarId) | continue
        let mut out := []
        for s in gs do out := out ++ (← go s.mvarId)
        return out
    return [g]

/-- Prove `Keeps m`: by the structure of `m`, with the lemma `Kp.f` for `f` if there is one and by
unfolding otherwise. -/
partial def mkKeeps (g : MVarId) (fuel : Nat := 6) : MetaM Unit := do
  let (_, g) ← g.intros
  g.withContext do
  if ← g.assumptionCore then return
  let tgt := (← instantiateMVars (← g.getType)).consumeMData.headBeta
  unless tgt.isAppOfArity ``Ressa.Keeps 2 do throwError "kp: {tgt}"
  let e := zeta tgt.appArg!
  let g ← g.replaceTargetDefEq (.app tgt.appFn! e)
  let step (l : Name) : MetaM Unit := do for g in ← applyC g l do mkKeeps g fuel
  if e.isAppOfArity ``Bind.bind 6 then return ← step ``Ressa.Keeps.bind
  if e.isAppOfArity ``ite 5 then return ← step ``Ressa.Keeps.ite
  if e.isAppOfArity ``Pure.pure 4 then return ← step ``Ressa.Keeps.pure
  if e.isAppOf ``Ressa.loopP then return ← step ``Ressa.Keeps.loopP
  if e.isAppOf ``Ressa.untilP then return ← step ``Ressa.Keeps.untilP
  if e.isAppOf ``Ressa.P.modC then
    for x in ← applyC g ``Ressa.Keeps.modC do
      let (_, x) ← x.intro1
      for y in ← applyC x ``Ressa.Gr.Flags.Le.refl do
        unless ← y.isAssigned do throwError "kp: modC"
    return
  if (← matchMatcherApp? e).isSome then
    for g in ← splitTarget? g >>= (fun | some gs => pure gs | none => throwError "kp: split") do
      mkKeeps g fuel
    return
  let .const n _ := e.getAppFn | throwError "kp: {e}"
  if n == ``Ressa.Rec.expression then
    -- from the instance `RecOk C R`
    for d in (← getLCtx).decls.toArray.filterMap id do
      if (← instantiateMVars d.type).isAppOf `Ressa.RecOk then
        let h ← mkAppOptM `Ressa.RecOk.keeps #[none, none, some d.toExpr]
        if ← isDefEq (← inferType h) (← g.getType) then
          g.assign h
          return
  if let some l ← findLemma "Kp" n then return ← step l
  if fuel == 0 then throwError "kp: fuel at {e}"
  let some e' ← delta? e | throwError "kp: {e}"
  mkKeeps (← g.replaceTargetDefEq (.app tgt.appFn! e'.headBeta)) (fuel - 1)

/-- Prove `Test C Γ i c ?T ?F`. -/
partial def mkTest (g : MVarId) : MetaM Unit := g.withContext do
  let tgt ← instantiateMVars (← g.getType)
  let e := zeta tgt.getAppArgs[3]!
  let as := tgt.getAppArgs.set! 3 e
  let g ← g.replaceTargetDefEq (mkAppN tgt.getAppFn as)
  if e.isAppOf ``Bind.bind then
    for l in [``Ressa.Test.sliceEq, ``Ressa.Test.reservedLook] do
      if let some [] ← observing? (applyC g l) then return
    throwError "no test for {e}"
  let l ← (do
    if e.isAppOf ``Ressa.P.and then pure ``Ressa.Test.and
    else if e.isAppOf ``Ressa.P.or then pure ``Ressa.Test.or
    else if e.isAppOf ``Ressa.P.not then pure ``Ressa.Test.not
    else if e.isAppOf ``Pure.pure then pure ``Ressa.Test.pure
    else if e.isAppOf ``Ressa.readC && (e.find? (·.isConstOf ``Ressa.Ctx.allowYield)).isSome then
      pure ``Ressa.Test.readY
    else
      let .const n _ := e.getAppFn | throwError "no test head {e}"
      let some l ← findLemma "Test" n | throwError "no test lemma for {n}"
      pure l : MetaM Name)
  for g in ← applyC g l do mkTest g

/-- `fun b => if b = true then _ else _`. -/
def isTestCont (k : Expr) : Bool :=
  match k with
  | .lam _ _ b _ =>
    match b.consumeMData with
    | .app (.app (.app (.app (.app (.const ``ite _) _) c) _) _) _ =>
      c.isAppOfArity ``Eq 3 && c.appFn!.appArg! == .bvar 0 &&
        !(b.consumeMData.getAppArgs[3]!.hasLooseBVar 0) && !(b.consumeMData.getAppArgs[4]!.hasLooseBVar 0)
    | _ => false
  | _ => false

/-- Close the goal by a hypothesis and its negation.  (`contradiction` would look inside
derivations.) -/
def deadEnd (g : MVarId) : MetaM Bool := g.withContext do
  let ds ← (← getLCtx).decls.toArray.filterMapM fun d => do
    let some d := d | return none
    if d.isImplementationDetail then return none
    return some (d.fvarId, ← instantiateMVars d.type)
  for (h, t) in ds do
    let some p := t.not? <|> (t.ne?.map fun (_, a, b) => mkAppN (.const ``Eq [1]) #[.const ``Ressa.Token [], a, b]) | continue
    for (h', t') in ds do
      if t' == p then
        g.assign (← mkAbsurd (← g.getType) (mkFVar h') (mkFVar h))
        return true
  return false

/-- The goals at the ends. -/
partial def go (g : MVarId) : TacticM (List MVarId) := do
  let gs ← introAll g
  let mut out := []
  for g in gs do out := out ++ (← go1 g)
  return out
where
  all (gs : List MVarId) : TacticM (List MVarId) := do
    let mut out := []
    for g in gs do out := out ++ (← go g)
    return out
  go1 (g : MVarId) : TacticM (List MVarId) := g.withContext do
    let tgt := (← instantiateMVars (← g.getType)).consumeMData.headBeta
    -- a dead end
    if ← deadEnd g then return []
    if tgt.isAppOfArity ``Ressa.RunF 7 then return ← goF g tgt
    if !tgt.isAppOfArity ``Ressa.Run 6 then
      if (← matchMatcherApp? tgt).isSome then
        let tgt' ← whnfCore tgt
        if tgt' != tgt then return ← all [← g.replaceTargetDefEq tgt']
      let g ← g.replaceTargetDefEq (← Core.betaReduce tgt)
      return [g]
    let as := tgt.getAppArgs
    let e := zeta as[4]!
    let g ← g.replaceTargetDefEq (mkAppN tgt.getAppFn (as.set! 4 e))
    if e.isAppOfArity ``Bind.bind 6 then
      let c := e.getAppArgs[4]!
      if isTestCont e.getAppArgs[5]! then
        if let some gs ← observing? (do
            let gs ← (applyC g ``Ressa.Run.test : MetaM _)
            match gs with
            | [t, a, b] =>
              (mkTest t : MetaM _)
              return [a, b]
            | _ => throwError "Run.test: {c}") then
          return ← all gs
      return ← all (← applyC g ``Ressa.Run.bind)
    if e.isAppOfArity ``ite 5 then return ← all (← applyC g ``Ressa.Run.ite)
    if e.isAppOfArity ``Pure.pure 4 then return ← all (← applyC g ``Ressa.Run.pure)
    if e.isAppOf ``Ressa.P.when then
      match ← applyC g ``Ressa.Run.when with
      | [t, a, b] =>
        (mkTest t : MetaM _)
        return ← all [a, b]
      | _ => throwError "Run.when"
    if e.isAppOf ``Ressa.P.modC then
      match ← applyC g ``Ressa.Run.modC with
      | [a, b, c] =>
        for x in [a, b] do
          let (_, x) ← x.intro1
          x.refl
        return ← all [c]
      | _ => throwError "Run.modC"
    if let some app ← matchMatcherApp? e then
      -- a match on a pair or on a constructor
      if app.discrs.all (fun d => d.isFVar) && app.alts.size == 1 then
        let mut gs := [g]
        for d in app.discrs do
          let mut out := []
          for g in gs do
            let ss ← g.cases d.fvarId!
            out := out ++ (ss.toList.map (·.mvarId))
          gs := out
        let gs1 ← gs.mapM fun g => g.withContext do
          let tgt ← instantiateMVars (← g.getType)
          let as := tgt.getAppArgs
          let e' ← whnfCore as[4]!
          g.replaceTargetDefEq (mkAppN tgt.getAppFn (as.set! 4 e'))
        return ← all gs1
      let e' ← whnfCore e
      if e' != e && (← matchMatcherApp? e').isNone && !(e'.isAppOf ``Ressa.P) && !e'.isLambda then
        return ← all [← g.replaceTargetDefEq (mkAppN tgt.getAppFn (as.set! 4 e'))]
      setGoals [g]
      evalTactic (← `(tactic| split))
      let gs ← getGoals
      return ← all gs
    let .const n _ := e.getAppFn | return [g]
    if let some l ← findLemma "Sc" n then
      if let some gs ← observing? (applyC g l) then
        return ← all gs
    if let some l ← findLemma "Rn" n then
      -- a lemma with any postcondition, or one to be weakened
      let concl := (← getConstInfo l).type.getForallBody
      if concl.isAppOf ``Ressa.Run && concl.appArg!.isBVar then
        return ← all (← applyC g l)
      match ← applyC g ``Ressa.Run.mono with
      | [a, b] =>
        -- premises are hypotheses or left to the user
        let ps ← applyC a l
        let ps ← ps.filterM fun p => do return !(← p.assumptionCore)
        return ps ++ (← all [b])
      | gs => throwError "Run.mono {gs.length}"
    return [g]

  goF (g : MVarId) (tgt : Expr) : TacticM (List MVarId) := g.withContext do
    let as := tgt.getAppArgs
    let e := zeta as[5]!
    let g ← g.replaceTargetDefEq (mkAppN tgt.getAppFn (as.set! 5 e))
    if e.isAppOfArity ``Bind.bind 6 then
      if isTestCont e.getAppArgs[5]! then
        for l in [``Ressa.RunF.testAssign, ``Ressa.RunF.testBind] do
          if let some gs ← observing? (applyC g l : MetaM _) then return ← all gs
        if let some gs ← observing? (do
            let gs ← (applyC g ``Ressa.RunF.test : MetaM _)
            match gs with
            | [t, k, a, b] =>
              (mkTest t : MetaM _)
              (mkKeeps k : MetaM _)
              return [a, b]
            | _ => throwError "RunF.test") then
          return ← all gs
      return ← all (← applyC g ``Ressa.RunF.bind)
    if e.isAppOfArity ``ite 5 then return ← all (← applyC g ``Ressa.RunF.ite)
    if e.isAppOfArity ``Pure.pure 4 then return ← all (← applyC g ``Ressa.RunF.pure)
    if e.isAppOf ``Ressa.P.when then
      if let some gs ← observing? (applyC g ``Ressa.RunF.whenAssign : MetaM _) then return ← all gs
      match ← applyC g ``Ressa.RunF.when with
      | [t, k, a, b] =>
        (mkTest t : MetaM _)
        (mkKeeps k : MetaM _)
        return ← all [a, b]
      | _ => throwError "RunF.when"
    if e.isAppOf ``Ressa.notTarget then return ← all (← applyC g ``Ressa.RunF.notTarget)
    if e.isAppOf ``Ressa.P.modC then
      for l in [``Ressa.RunF.modMember, ``Ressa.RunF.modBind] do
        if let some gs ← observing? (applyC g l : MetaM _) then return ← all gs
      match ← applyC g ``Ressa.RunF.modKeep with
      | [a, b, c, d] =>
        for x in [a, b, c] do
          let (_, x) ← x.intro1
          x.refl
        return ← all [d]
      | _ => throwError "RunF.modKeep"
    if let some app ← matchMatcherApp? e then
      if app.discrs.all (fun d => d.isFVar) && app.alts.size == 1 then
        let mut gs := [g]
        for d in app.discrs do
          let mut out := []
          for g in gs do
            let ss ← g.cases d.fvarId!
            out := out ++ (ss.toList.map (·.mvarId))
          gs := out
        let gs1 ← gs.mapM fun g => g.withContext do
          let tgt ← instantiateMVars (← g.getType)
          let as := tgt.getAppArgs
          let e' ← whnfCore as[5]!
          g.replaceTargetDefEq (mkAppN tgt.getAppFn (as.set! 5 e'))
        return ← all gs1
      let e' ← whnfCore e
      if e' != e && (← matchMatcherApp? e').isNone && !(e'.isAppOf ``Ressa.P) && !e'.isLambda then
        return ← all [← g.replaceTargetDefEq (mkAppN tgt.getAppFn (as.set! 5 e'))]
      setGoals [g]
      evalTactic (← `(tactic| split))
      let gs ← getGoals
      return ← all gs
    let .const n _ := e.getAppFn | return [g]
    if let some l ← findLemma "Sf" n then
      if let some gs ← observing? (applyC g l) then
        return ← all gs
    if let some l ← findLemma "Fl" n then
      match ← applyC g ``Ressa.RunF.mono with
      | [a, b] =>
        let ps ← applyC a l
        let ps ← ps.filterM fun p => do return !(← p.assumptionCore)
        return ps ++ (← all [b])
      | gs => throwError "RunF.mono {gs.length}"
    if let some l ← findLemma "Rn" n then
      let concl := (← getConstInfo l).type.getForallBody
      if concl.isAppOf ``Ressa.Run && concl.appArg!.isBVar then
        -- an error
        match ← applyC g ``Ressa.RunF.of_never with
        | [a] => return ← applyC a l
        | gs => throwError "RunF.of_never {gs.length}"
      match ← applyC g ``Ressa.RunF.mono with
      | [a, b] =>
        let ps ← (do
          if let some ps ← observing? (do
            let gs ← (applyC a ``Ressa.RunF.of_keeps : MetaM _)
            match gs with
            | [k, r] =>
              let ps ← (applyC r l : MetaM _)
              (mkKeeps k : MetaM _)
              return ps
            | _ => throwError "RunF.of_keeps") then return ps
          match ← applyC a ``Ressa.RunF.of_run with
          | [r] => applyC r l
          | gs => throwError "RunF.of_run {gs.length}" : MetaM _)
        let ps ← ps.filterM fun p => do return !(← p.assumptionCore)
        return ps ++ (← all [b])
      | gs => throwError "RunF.mono {gs.length}"
    return [g]

/-- Prove `Test C Γ i c ?T ?F`. -/
elab "tst" : tactic => do
  let g ← getMainGoal
  let rest := (← getGoals).tail!
  mkTest g
  setGoals rest

/-- Prove `Keeps m`. -/
elab "kp" : tactic => do
  let g ← getMainGoal
  let rest := (← getGoals).tail!
  mkKeeps g
  setGoals rest

elab "sx" : tactic => do
  let g ← getMainGoal
  let rest := (← getGoals).tail!
  setGoals ((← go g) ++ rest)

/-- Simplify the hypotheses about tokens and the context. -/
syntax "gr_simp" : tactic

macro_rules
  | `(tactic| gr_simp) => `(tactic| simp_all [
      Ressa.Gr.head_nil, Ressa.Gr.head_cons, Ressa.Gr.textIs_cons, Ressa.Gr.nl_cons, Ressa.Gr.Env.ctx, Ressa.itemIs,
      Ressa.Gr.atBracket, Ressa.Token.isEof_iff, Ressa.Token.isEof_false, Ressa.Token.isIdent_iff,
      Ressa.Token.isIdent_false, Ressa.Token.isString_iff, Ressa.Token.isString_false,
      Ressa.Token.isNumber_iff, Ressa.Token.isNumber_false, Ressa.Token.isRegex_iff,
      Ressa.Token.isRegex_false, Ressa.matchesPunct_iff, Ressa.matchesPunct_false,
      Ressa.matchesKeyword_iff, Ressa.matchesKeyword_false,
      Ressa.matchesPunct_punct, Ressa.matchesKeyword_keyword])

/-- One closing step for side conditions. -/
syntax "gr_side" : tactic

macro_rules
  | `(tactic| gr_side) => `(tactic| first | rfl | (gr_simp <;> grind))

/-- The constructors of the grammar by the constructor of `NT`. -/
def rulesFor (nt : Name) : MetaM (List Name) := do
  let .inductInfo info ← getConstInfo ``Ressa.Gr.G | return []
  info.ctors.filterM fun c => do
    let ci ← getConstInfo c
    let concl ← forallTelescope ci.type fun _ b => pure b
    let as := concl.getAppArgs
    return as[2]!.getAppFn.isConstOf nt

def isG (e : Expr) : Bool := e.isAppOf ``Ressa.Gr.G

/-- Backtracking search. -/
partial def search (goals : List (MVarId × Nat)) : TacticM Unit := do
  let goals ← goals.filterM fun (g, _) => do return !(← g.isAssigned)
  if goals.isEmpty then return
  -- closed side conditions first, then derivations, then the rest
  let infos ← goals.mapM fun (g, n) => do
    let t := (← instantiateMVars (← g.getType)).consumeMData.headBeta
    return (g, t, isG t, t.hasExprMVar, n)
  let pick := (infos.find? fun (_, _, g, m, _) => !g && !m) <|>
    (infos.find? fun (_, _, g, _) => g) <|> infos.head?
  let some (g, t, isg, hasM, depth) := pick | return
  let others := goals.filter (·.1 != g)
  g.withContext do
  let nt := if isg then t.getAppArgs[2]!.getAppFn else default
  -- hypotheses
  for d in (← getLCtx).decls.toArray.reverse.filterMap id do
    if d.isImplementationDetail then continue
    let dt := (← instantiateMVars d.type).consumeMData.headBeta
    if isg then
      unless isG dt do continue
      unless nt.isMVar || dt.getAppArgs[2]!.getAppFn == nt || dt.getAppArgs[2]!.getAppFn.isFVar do continue
    else
      if isG dt then continue
      unless ← isProp dt do continue
    let s ← saveState
    try
      unless ← isDefEq dt t do throwError "no"
      g.assign (mkFVar d.fvarId)
      search others
      return
    catch _ => s.restore
  if isg then
    if depth == 0 then throwError "gr: depth"
    let .const n _ := nt | throwError "gr: unknown phrase"
    for r in ← rulesFor n do
      let s ← saveState
      try
        let gs ← (g.apply (← mkConstWithFreshMVarLevels r) { newGoals := .nonDependentOnly } : MetaM _)
        search (gs.map (·, depth - 1) ++ others)
        return
      catch _ => s.restore
    throwError "gr: no rule for {t}"
  else
    if hasM then
      -- `∃`, `∧` and equations with holes
      let s ← saveState
      try
        setGoals [g]
        evalTactic (← `(tactic| first | rfl | exact ⟨rfl, rfl⟩ | (constructor <;> first | rfl | assumption)))
        unless (← getGoals).isEmpty do throwError "no"
        search others
        return
      catch _ => s.restore
      throwError "gr: holes in {t}"
    else
      let s ← saveState
      let ok ← (try
        let mut g' := g
        for d in (← getLCtx).decls.toArray.reverse.filterMap id do
          if isG (← instantiateMVars d.type) then
            g' ← (do return (← observing? (g'.clear d.fvarId)).getD g' : MetaM _)
        setGoals [g']
        evalTactic (← `(tactic| gr_side))
        unless (← getGoals).isEmpty do throwError "no"
        pure true
      catch _ => pure false)
      if ok then
        search others
      else
        s.restore
        throwError "gr: cannot prove {t}"

syntax "gr" (ppSpace num)? : tactic

elab_rules : tactic
  | `(tactic| gr $[$n]?) => do
    let g ← getMainGoal
    let rest := (← getGoals).tail!
    search [(g, (n.map (·.getNat)).getD 2)]
    setGoals rest

/-- `gr`, possibly after simplifying the hypotheses. -/
macro "gx" : tactic => `(tactic| first | gr | (gr_simp; done) | (gr_simp; gr))

/-- Follow the computation, then look for derivations. -/
macro "sxg" : tactic => `(tactic| (sx <;> try gx))

end RunTac
