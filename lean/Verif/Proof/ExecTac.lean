import Verif.Proof.Exec

/-!
# Following a run forward

`ex` follows a goal `Exec C Γ f i m a f' o` by the head symbol of `m`: reads are evaluated, items
are consumed, conditions are decided from the hypotheses, and calls are answered by hypotheses.  It
stops where it does not know how to go on.
-/

namespace Ressa

open Gr

variable {C : Cfg} {Γ : Env} {f f' g : Flags} {i j o : List Tok} {α β : Type}

theorem full_assign : full.assign = assignExpr full := congrArg Rec.assign full_eq
theorem full_expression : full.expression = expression full := congrArg Rec.expression full_eq
theorem full_unary : full.unary = unaryExpr full := congrArg Rec.unary full_eq
theorem full_expo : full.expo = expoExpr full := congrArg Rec.expo full_eq
theorem full_lhs : full.lhs = lhsExpr full := congrArg Rec.lhs full_eq
theorem full_stmt : full.stmt = statement full := congrArg Rec.stmt full_eq
theorem full_listItem : full.listItem = statementListItem full := congrArg Rec.listItem full_eq
theorem full_pattern {k} : full.pattern k = pattern full k :=
  congrFun (congrArg Rec.pattern full_eq) k

/-- What `atQualifiedPropKey` tests. -/
def qualKey : Token → Bool
  | .ident | .string | .boolean _ | .numeric | .null | .keyword _ => true
  | .punct p => p == .openBracket
  | _ => false

namespace Exec

theorem ite_pos {c : Prop} [Decidable c] {A B : P α} {a} (h : c) (hk : Exec C Γ f i A a f' o) :
    Exec C Γ f i (if c then A else B) a f' o := by rwa [if_pos h]

theorem ite_neg {c : Prop} [Decidable c] {A B : P α} {a} (h : ¬c) (hk : Exec C Γ f i B a f' o) :
    Exec C Γ f i (if c then A else B) a f' o := by rwa [if_neg h]

theorem iteB_pos {c : Prop} [Decidable c] {A B : P α} {k : α → P β} {a} (h : c)
    (hk : Exec C Γ f i (A >>= k) a f' o) : Exec C Γ f i ((if c then A else B) >>= k) a f' o := by
  rwa [if_pos h]

theorem iteB_neg {c : Prop} [Decidable c] {A B : P α} {k : α → P β} {a} (h : ¬c)
    (hk : Exec C Γ f i (B >>= k) a f' o) : Exec C Γ f i ((if c then A else B) >>= k) a f' o := by
  rwa [if_neg h]

/-- A conjunction that fails on its second, token, test. -/
theorem andFalse {m : P Bool} {φ : St → Bool} {ψ : Token → Bool} {k : Bool → P β} {b}
    (hm : m = P.get φ) (h : ψ (head i) = false)
    (hk : Exec C Γ f i (k false) b f' o) :
    Exec C Γ f i (P.and m (Ressa.lookIs ψ) >>= k) b f' o := by
  subst hm
  unfold P.and
  refine bindAssoc (getAny fun a => ?_)
  cases a
  · exact pureBind hk
  · exact lookIs (h ▸ hk)

theorem ifNotTolerant {m : P Empty} {k : Unit → P β} {b} (h : C.tolerant = true)
    (hk : Exec C Γ f i (k ()) b f' o) : Exec C Γ f i (ifNotTolerant m >>= k) b f' o := by
  intro s hs
  obtain ⟨s', h1, h2⟩ := hk s hs
  refine ⟨s', ?_, h2⟩
  have ht : s.tolerant = true := (congrArg Cfg.tolerant hs.at_.cfg).trans h
  rw [bind_def, Ressa.ifNotTolerant, if_pos ht]
  exact h1

theorem pure' {a b : α} (h : a = b) (hf : f = f') (ho : i = o) :
    Exec C Γ f i (Pure.pure a) b f' o := by
  subst h; subst hf; subst ho; exact pure

theorem result {m : P α} {a b : α} (h : Exec C Γ f i m a g j) (h1 : a = b) (h2 : g = f')
    (h3 : j = o) : Exec C Γ f i m b f' o := by subst h1; subst h2; subst h3; exact h

theorem look' {t} {k : Item → P β} {b} (hi : i = t :: j)
    (hk : Exec C Γ f i (k t.item) b f' o) : Exec C Γ f i (Ressa.look >>= k) b f' o := by
  subst hi; exact look hk

theorem lookAny {k : Item → P β} {b}
    (hk : ∀ a, Exec C Γ f i (k a) b f' o) : Exec C Γ f i (Ressa.look >>= k) b f' o := getAny hk

theorem isRestrictedTok {t} {k : Bool → P β} {b}
    (hk : Exec C Γ f i (k (C.ext.isRestricted t.token (C.textOf t))) b f' o) :
    Exec C Γ f i (isRestrictedTok t >>= k) b f' o :=
  get _ (fun s hs => congrArg (fun C : Cfg => C.ext.isRestricted t.token (C.textOf t)) hs.at_.cfg) hk

theorem isStrictReservedTok {t} {k : Bool → P β} {b}
    (hk : Exec C Γ f i (k (C.ext.isStrictReserved t)) b f' o) :
    Exec C Γ f i (isStrictReservedTok t >>= k) b f' o :=
  get _ (fun s hs => congrArg (fun C : Cfg => C.ext.isStrictReserved t) hs.at_.cfg) hk

theorem isLiteralTok {t} {k : Bool → P β} {b}
    (hk : Exec C Γ f i (k (C.ext.isLiteral t)) b f' o) :
    Exec C Γ f i (isLiteralTok t >>= k) b f' o :=
  get _ (fun s hs => congrArg (fun C : Cfg => C.ext.isLiteral t) hs.at_.cfg) hk

theorem curPos {k : Position → P β} {b}
    (hk : ∀ p, Exec C Γ f i (k p) b f' o) : Exec C Γ f i (curPos >>= k) b f' o := getAny hk

theorem readFalse {φ : Ctx → Bool} {k : Bool → P β} {b}
    (h : ∀ x : Ctx, φ (Γ.ctx (C.nl i) x) = false)
    (hk : Exec C Γ f i (k false) b f' o) : Exec C Γ f i (Ressa.readC φ >>= k) b f' o :=
  readC false h hk

theorem readTrue {φ : Ctx → Bool} {k : Bool → P β} {b}
    (h : ∀ x : Ctx, φ (Γ.ctx (C.nl i) x) = true)
    (hk : Exec C Γ f i (k true) b f' o) : Exec C Γ f i (Ressa.readC φ >>= k) b f' o :=
  readC true h hk

theorem ofOption {x : Option α} {a} {k : α → P β} {b} (h : x = some a)
    (hk : Exec C Γ f i (k a) b f' o) : Exec C Γ f i (P.ofOption x >>= k) b f' o := by
  subst h
  exact pureBind hk

theorem eqB {m m' : P α} {k : α → P β} {b} (e : m = m') (h : Exec C Γ f i (m' >>= k) b f' o) :
    Exec C Γ f i (m >>= k) b f' o := e ▸ h

theorem eqT {m m' : P α} {b} (e : m = m') (h : Exec C Γ f i m' b f' o) :
    Exec C Γ f i m b f' o := e ▸ h

/-! Checks that tolerant parsers overlook -/

theorem iteTol {c : Prop} [Decidable c] {m : P Empty} {k : Unit → P β} {b}
    (h : c → C.tolerant = true) (hk : Exec C Γ f i (k ()) b f' o) :
    Exec C Γ f i ((if c then Ressa.ifNotTolerant m else Pure.pure ()) >>= k) b f' o := by
  split
  · exact ifNotTolerant (h ‹_›) hk
  · exact pureBind hk

theorem target {m : P Empty} {k : Unit → P β} {b} (h : f.1 = true ∨ C.tolerant = true)
    (hk : Exec C Γ f i (k ()) b f' o) :
    Exec C Γ f i (P.when (Ressa.readC (fun c => !c.isAssignmentTarget)) (Ressa.ifNotTolerant m)
      >>= k) b f' o := by
  unfold P.when
  rcases h with h | h
  · exact bindAssoc (readTarget h (iteB_neg (by simp) (pureBind hk)))
  · exact bindAssoc (getAny fun a => iteTol (fun _ => h) hk)

/-! Changes of the context -/

theorem modSame {φ : Ctx → Ctx} {k : Unit → P β} {b}
    (h1 : ∀ c : Ctx, (φ c).env.yielding false = c.env.yielding false) (h2 : ∀ c : Ctx, (φ c).hasLineTerm = c.hasLineTerm)
    (h3 : ∀ c : Ctx, (φ c).flags = c.flags)
    (h4 : ∀ c : Ctx, c.allowYield = false → (φ c).allowYield = false)
    (hk : Exec C Γ f i (k ()) b f' o) : Exec C Γ f i (P.modC φ >>= k) b f' o :=
  modC f h1 h2 (fun x h => by rw [h3]; exact h) h4 hk

theorem modBoth {v w} {k : Unit → P β} {b} (hk : Exec C Γ (v, w) i (k ()) b f' o) :
    Exec C Γ f i (P.modC (fun c => { c with isAssignmentTarget := v, isBindingElement := w })
      >>= k) b f' o :=
  modC (v, w) (fun _ => rfl) (fun _ => rfl) (fun _ _ => Flags.Le.refl) (fun _ h => h) hk

theorem modBinding {v} {k : Unit → P β} {b} (hk : Exec C Γ (f.1, v) i (k ()) b f' o) :
    Exec C Γ f i (P.modC (fun c => { c with isBindingElement := v }) >>= k) b f' o :=
  modC (f.1, v) (fun _ => rfl) (fun _ => rfl) (fun _ h => ⟨h.1, id⟩) (fun _ h => h) hk

/-! Items with their texts -/

theorem nextOk {t} {k : Item → P β} {b}
    (hk : ItemOk C.stream t.item → Exec C Γ f i (k t.item) b f' o) :
    Exec C Γ f (t :: i) (Ressa.nextItem >>= k) b f' o := here fun h => nextItem (hk h)

theorem lookOk {t} {k : Item → P β} {b}
    (hk : ItemOk C.stream t.item → Exec C Γ f (t :: i) (k t.item) b f' o) :
    Exec C Γ f (t :: i) (Ressa.look >>= k) b f' o := here fun h => look (hk h)

/-! Scopes that leave the environment alone -/

theorem isolatedB {m : P α} {k : α → P β} {a b} (h : Exec C Γ (true, true) i m a g j)
    (hk : Exec C Γ f j (k a) b f' o) : Exec C Γ f i (Ressa.isolated m >>= k) b f' o :=
  bind (isolated h) hk

theorem continuedB {m : P α} {k : α → P β} {a b} (h : Exec C Γ f i m a g j)
    (hk : Exec C Γ (g.and f) j (k a) b f' o) :
    Exec C Γ f i (Ressa.inScope id inheritCover m >>= k) b f' o :=
  bind (continued h) hk

theorem inheritedB {m : P α} {k : α → P β} {a b} (h : Exec C Γ (true, true) i m a g j)
    (hk : Exec C Γ (g.and f) j (k a) b f' o) : Exec C Γ f i (Ressa.inherited m >>= k) b f' o :=
  bind (inherited h) hk

end Exec

end Ressa

namespace ExecTac

open Lean Meta Elab Tactic

/-- Decide a condition. -/
syntax "ex_cond" : tactic

macro_rules
  | `(tactic| ex_cond) => `(tactic| first
    | (simp [Ressa.Gr.head_cons, Ressa.Gr.nl_cons,
      Ressa.Token.matchesPunct, Ressa.Token.matchesKeyword, Ressa.Token.isEof, Ressa.Token.isIdent, Ressa.Token.isKeyword,
      Ressa.Token.isPunct, Ressa.Token.isNumber, Ressa.Token.isString, Ressa.Token.isRegex,
      Ressa.Token.isTemplate, Ressa.Token.isTemplateHead, Ressa.Token.isBool, Ressa.Token.isNull, Ressa.qualKey, Ressa.Gr.atBracket, *]; done)
    | (simp [Ressa.Gr.head_cons, Ressa.Gr.nl_cons, *]; done)
    | (simp [Ressa.Gr.head_cons, Ressa.Gr.nl_cons, Ressa.isIdentExpr, Ressa.isPlaceHolder, *]; done))

/-- The condition under which a check is overlooked. -/
syntax "ex_side" : tactic

macro_rules
  | `(tactic| ex_side) => `(tactic| (intro h; simp_all; done))

/-- Side conditions. -/
syntax "ex_any" : tactic

macro_rules
  | `(tactic| ex_any) => `(tactic| first
    | rfl
    | assumption
    | (intro _; rfl)
    | (intro _ h; first | exact h | rfl)
    | ex_cond
    | ex_side
    | (simp [Ressa.Gr.Flags.and, Bool.and_assoc, Bool.and_comm, Bool.and_left_comm]; done))

/-- The value of a read of the context. -/
syntax "ex_read" : tactic

macro_rules
  | `(tactic| ex_read) => `(tactic| (intro x; simp only [Ressa.Gr.Env.ctx]; first | done | rfl))

/-- A test as a read. -/
syntax "ex_get" : tactic

macro_rules
  | `(tactic| ex_get) => `(tactic| (simp only [Ressa.readC, Ressa.readModule, Ressa.atKeyword, Ressa.atPunct,
      Ressa.lookIs, Ressa.get_and, Ressa.get_or, Ressa.get_not]; first | done | rfl))

/-- The position of the computation among the arguments of `Exec`. -/
def mIdx : Nat := 5

partial def zeta (e : Expr) : Expr :=
  match e.headBeta with
  | .letE _ _ v b _ => zeta (b.instantiate1 v)
  | .mdata _ e => zeta e
  | e => e

/-- Symbols that are not followed. -/
def stops : List Name :=
  [``Ressa.loopP, ``Ressa.untilP, ``Ressa.inScope, ``Ressa.expectedLook, ``Ressa.unexpectedLook,
   ``Ressa.expectedTokenError, ``Ressa.unexpectedTokenError, ``Ressa.redeclError, ``Ressa.opError,
   ``Ressa.reinterpretError, ``Ressa.ifNotTolerant, ``Ressa.streamSlice, ``Ressa.getString,
   ``Ressa.stringForOrEmpty, ``Ressa.nextItem, ``Ressa.reduceWhile, ``Ressa.reduceAll]

/-- Symbols to unfold. -/
def transparent : List Name :=
  [``Ressa.P.and, ``Ressa.P.or, ``Ressa.P.not, ``Ressa.P.when, ``Ressa.atPunct, ``Ressa.atKeyword,
   ``Ressa.atAssign, ``Ressa.atPossibleIdent,
   ``Ressa.atReturnArg, ``Ressa.identName, ``Ressa.tolerateError]

def close (g : MVarId) (tac : TSyntax `tactic) : TacticM Bool := do
  let s ← saveState
  try
    setGoals [g]
    evalTactic tac
    if (← getGoals).isEmpty then return true
    s.restore
    return false
  catch _ =>
    s.restore
    return false

def applyC (g : MVarId) (l : Name) : MetaM (List MVarId) := do
  let gs ← g.apply (← mkConstWithFreshMVarLevels l) { newGoals := .nonDependentOnly }
  gs.filterM fun g => do return !(← g.isAssigned)

/-- A hypothesis about the computation `m` from where the target (with arguments `as`) stands. -/
def hypFor (g : MVarId) (as : Array Expr) (m : Expr) : MetaM (Option Expr) := g.withContext do
  for d in (← getLCtx).decls.toArray.reverse.filterMap id do
    if d.isImplementationDetail then continue
    let t ← instantiateMVars d.type
    let b := t.getForallBody
    if b.isAppOf ``Ressa.Exec then
      let s ← Meta.saveState
      let (xs, _, b) ← forallMetaTelescope t
      let bs := b.getAppArgs
      if ← withReducible (isDefEq bs[mIdx]! m <&&> isDefEq bs[4]! as[4]! <&&> isDefEq bs[2]! as[2]!
          <&&> isDefEq bs[3]! as[3]!) then
        return some (mkAppN (mkFVar d.fvarId) xs)
      s.restore
  return none

/-- The equation of an entry point of the recursion. -/
def unfoldFull (m : Expr) : MetaM (Option Expr) := do
  let .const (.str p n) _ := m.getAppFn | return none
  unless p == `Ressa.Rec && (m.getAppArgs[0]?.map (·.isConstOf ``Ressa.full)).getD false do
    return none
  let e ← mkConstWithFreshMVarLevels (Name.str `Ressa ("full_" ++ n))
  let (xs, _, _) ← forallMetaTelescope (← inferType e)
  return some (mkAppN e xs)

/-- Rewrite a scrutinee of the `match` by a hypothesis. -/
def rwDiscr (g : MVarId) (m : Expr) : MetaM (Option MVarId) := g.withContext do
  let some app ← matchMatcherApp? m | return none
  for d in app.discrs do
    for l in (← getLCtx).decls.toArray.reverse.filterMap id do
      if l.isImplementationDetail then continue
      let some (_, a, _) := (← whnfR (← instantiateMVars l.type)).eq? | continue
      if a == d && !a.isFVar then
        let r ← g.rewrite (← g.getType) (mkFVar l.fvarId)
        return some (← g.replaceTargetEq r.eNew r.eqProof)
  return none

/-- Follow the computation.  Returns the open goals. -/
partial def go (g : MVarId) : TacticM (List MVarId) := g.withContext do
  let tgt := (← instantiateMVars (← g.getType)).consumeMData.headBeta
  if tgt.isForall then
    let (_, g) ← g.intro1
    return ← go g
  unless tgt.isAppOf ``Ressa.Exec do return [g]
  let as := tgt.getAppArgs
  let m := zeta as[mIdx]!
  let g ← g.replaceTargetDefEq (mkAppN tgt.getAppFn (as.set! mIdx m))
  g.withContext do
  if m.isAppOfArity ``Bind.bind 6 then
    let m1 := zeta m.getAppArgs[4]!
    let k := m.getAppArgs[5]!
    let g ← g.replaceTargetDefEq (mkAppN tgt.getAppFn
      (as.set! mIdx (mkAppN m.getAppFn (m.getAppArgs.set! 4 m1))))
    if let some h ← hypFor g as m1 then
      let gs ← g.apply (← mkConstWithFreshMVarLevels ``Ressa.Exec.bind) { newGoals := .nonDependentOnly }
      match gs with
      | [a, b] =>
        unless ← isDefEq (← a.getType) (← inferType h) do throwError "ex: bind"
        a.assign h
        let side ← sideGoals h
        return (← go b) ++ side
      | _ => throwError "ex: bind"
    if m1.isAppOf ``Bind.bind then return ← cont g ``Ressa.Exec.bindAssoc
    if m1.isAppOf ``Pure.pure then return ← cont g ``Ressa.Exec.pureBind
    if m1.isAppOf ``ite then return ← iteStep g ``Ressa.Exec.iteB_pos ``Ressa.Exec.iteB_neg
    if let some _ ← matchMatcherApp? m1 then
      let m2 ← whnfCore m1
      if m2 != m1 then
        return ← go (← g.replaceTargetDefEq (mkAppN tgt.getAppFn
          (as.set! mIdx (mkAppN m.getAppFn #[m.getAppArgs[0]!, m.getAppArgs[1]!, m.getAppArgs[2]!, m.getAppArgs[3]!, m2, k]))))
      if let some g ← rwDiscr g m1 then return ← go g
      return [g]
    if let some e ← unfoldFull m1 then
      let c ← mkConstWithFreshMVarLevels ``Ressa.Exec.eqB
      match ← g.apply c { newGoals := .nonDependentOnly } with
      | [x, y] =>
        if ← isDefEq (← x.getType) (← inferType e) then
          x.assign e
          return ← go y
        throwError "ex: eqB"
      | _ => throwError "ex: eqB"
    let .const n _ := m1.getAppFn | return [g]
    if n == ``Ressa.P.and then
      let s ← saveState
      let r ← (try
        let gs ← applyC g ``Ressa.Exec.andFalse
        match gs with
        | [m, h, k] =>
          if (← close h (← `(tactic| ex_cond))) && (← close m (← `(tactic| ex_get))) then
            pure (some k) else s.restore; pure none
        | _ => s.restore; pure none
      catch _ => s.restore; pure none)
      if let some k := r then return ← go k
    if n == ``Ressa.readC then
      let s ← saveState
      let r ← (try
        let gs ← applyC g ``Ressa.Exec.readC
        let gs ← gs.filterM fun g => do return !(← g.isAssigned)
        let mut done := false
        let mut rest := []
        for x in gs do
          let t := (← instantiateMVars (← x.getType))
          if t.isForall && !done then
            if ← close x (← `(tactic| ex_read)) then done := true else throwError "no"
          else rest := rest ++ [x]
        rest ← rest.filterM fun g => do return !(← g.isAssigned)
        pure (some rest)
      catch _ => s.restore; pure none)
      match r with
      | some [k] => return ← go k
      | _ =>
        s.restore
        for l in [``Ressa.Exec.readFalse, ``Ressa.Exec.readTrue] do
          match ← observing? (applyC g l) with
          | some [h, k] =>
            if ← close h (← `(tactic| (intro x; simp [Ressa.Gr.Env.ctx, *]; done))) then return ← go k
          | _ => pure ()
          s.restore
        if let some [h, k] ← observing? (applyC g ``Ressa.Exec.readBinding) then
          if ← close h (← `(tactic| (simp [Ressa.Gr.Flags.and, *]; done))) then return ← go k
        s.restore
        if let some [h, k] ← observing? (applyC g ``Ressa.Exec.readYield) then
          if ← close h (← `(tactic| (simp [*]; done))) then return ← go k
        s.restore
        return [g]
    if n == ``Ressa.look then
      -- needs an item in front
      if let some gs ← observing? (applyC g ``Ressa.Exec.lookOk) then return ← all gs
      if let some gs ← observing? (applyC g ``Ressa.Exec.lookAny) then return ← all gs
    if n == ``Ressa.lookPos then
      let s ← saveState
      if let some [h, k] ← observing? (applyC g ``Ressa.Exec.lookPosLf) then
        if ← close h (← `(tactic| assumption)) then return ← go k
      s.restore
    if n == ``Ressa.atAsyncFunction then
      let s ← saveState
      if let some [h, k] ← observing? (applyC g `Ressa.Exec.notAsyncFunction) then
        if ← close h (← `(tactic| ex_cond)) then return ← go k
      s.restore
      if let some [h, h', k] ← observing? (applyC g `Ressa.Exec.asyncFunction) then
        if (← close h (← `(tactic| ex_cond))) && (← close h' (← `(tactic| ex_any))) then
          return ← go k
      s.restore
      return [g]
    if n == ``Ressa.nextItem then
      if let some gs ← observing? (applyC g ``Ressa.Exec.nextOk) then return ← all gs
    if n == ``Ressa.inScope then
      match ← observing? (applyC g ``Ressa.Exec.continuedB) with
      | some gs => return ← all gs
      | none => return [g]
    if n == ``Ressa.isolated || n == ``Ressa.inherited then
      let l := if n == ``Ressa.isolated then ``Ressa.Exec.isolatedB else ``Ressa.Exec.inheritedB
      return ← all (← applyC g l)
    if n == ``Ressa.P.modC then
      if let some gs ← observing? (applyC g ``Ressa.Exec.modBoth) then return ← all gs
      if let some gs ← observing? (applyC g ``Ressa.Exec.modBinding) then return ← all gs
      let gs ← applyC g ``Ressa.Exec.modSame
      return ← all gs
    if n == ``Ressa.P.when then
      let s ← saveState
      if let some [h, k] ← observing? (applyC g ``Ressa.Exec.target) then
        if ← close h (← `(tactic| ex_cond)) then return ← go k
      s.restore
    if n == ``Ressa.P.ofOption then
      match ← applyC g ``Ressa.Exec.ofOption with
      | [h, k] => if ← close h (← `(tactic| first | assumption | rfl)) then return ← go k
      | _ => pure ()
      return [g]
    if n == ``Ressa.P.get then return ← all (← applyC g ``Ressa.Exec.getAny)
    if let .str p sh := n then
      if p == `Ressa then
        let l := Name.str `Ressa.Exec sh
        if (← getEnv).contains l then
          if let some gs ← observing? (applyC g l) then
            return ← all gs
          if let some gs ← observing? (do
              let gs ← g.apply (← mkConstWithFreshMVarLevels ``Ressa.Exec.bind)
                { newGoals := .nonDependentOnly }
              match gs with
              | [a, b] => return (← applyC a l) ++ [b]
              | _ => throwError "ex: bind") then
            return ← all gs
    if transparent.contains n || opens n then
      let some m2 ← delta? m1 | return [g]
      return ← go (← g.replaceTargetDefEq (mkAppN tgt.getAppFn
          (as.set! mIdx (mkAppN m.getAppFn #[m.getAppArgs[0]!, m.getAppArgs[1]!, m.getAppArgs[2]!, m.getAppArgs[3]!, m2.headBeta, k]))))
    return [g]
  if m.isAppOf ``Pure.pure then
    if let some gs ← observing? (applyC g ``Ressa.Exec.pure) then return gs
    return ← sides (← applyC g ``Ressa.Exec.pure')
  if m.isAppOf ``ite then return ← iteStep g ``Ressa.Exec.ite_pos ``Ressa.Exec.ite_neg
  if let some _ ← matchMatcherApp? m then
    let m2 ← whnfCore m
    if m2 != m then return ← go (← g.replaceTargetDefEq (mkAppN tgt.getAppFn (as.set! mIdx m2)))
    if let some g ← rwDiscr g m then return ← go g
    return [g]
  if let some h ← hypFor g as m then
    let s ← saveState
    try
      if ← isDefEq (← g.getType) (← inferType h) then
        g.assign h
        return ← sideGoals h
      throwError "no"
    catch _ =>
      s.restore
      let gs ← applyC g ``Ressa.Exec.result
      match gs with
      | a :: rest =>
        unless ← isDefEq (← a.getType) (← inferType h) do throwError "ex: result"
        a.assign h
        return (← sideGoals h) ++ (← sides rest)
      | _ => throwError "ex: result"
  if let some e ← unfoldFull m then
    let c ← mkConstWithFreshMVarLevels ``Ressa.Exec.eqT
    match ← g.apply c { newGoals := .nonDependentOnly } with
    | [x, y] =>
      if ← isDefEq (← x.getType) (← inferType e) then
        x.assign e
        return ← go y
      throwError "ex: eqT"
    | _ => throwError "ex: eqT"
  let .const n _ := m.getAppFn | return [g]
  if n == ``Ressa.isolated then return ← all (← applyC g ``Ressa.Exec.isolated)
  if n == ``Ressa.inherited then
    if let some gs ← observing? (applyC g ``Ressa.Exec.inherited) then return ← all gs
    match ← applyC g ``Ressa.Exec.result with
    | a :: rest => return (← all (← applyC a ``Ressa.Exec.inherited)) ++ (← sides rest)
    | _ => throwError "ex: inherited"
  if transparent.contains n then
    let some m2 ← delta? m | return [g]
    return ← go (← g.replaceTargetDefEq (mkAppN tgt.getAppFn (as.set! mIdx m2.headBeta)))
  if let .str p sh := n then
    if p == `Ressa && (← getEnv).contains (Name.str `Ressa.Exec sh) then
      let b := (← getConstInfo (Name.str `Ressa.Exec sh)).type.getForallBody
      if b.getAppArgs[mIdx]!.isAppOf ``Bind.bind then return ← cont g ``Ressa.Exec.last
      if let some gs ← observing? (applyC g (Name.str `Ressa.Exec sh)) then return ← all gs
      match ← applyC g ``Ressa.Exec.result with
      | a :: rest => return (← all (← applyC a (Name.str `Ressa.Exec sh))) ++ (← sides rest)
      | _ => throwError "ex: result"
  if opens n then
    let some m2 ← delta? m | return [g]
    return ← go (← g.replaceTargetDefEq (mkAppN tgt.getAppFn (as.set! mIdx m2.headBeta)))
  return [g]
where
  /-- Methods are followed into their bodies. -/
  opens (n : Name) : Bool :=
    !stops.contains n && match n with
      | .str `Ressa _ => true
      | _ => false
  sideGoals (h : Expr) : TacticM (List MVarId) := do
    let mut out := []
    for a in h.getAppArgs do
      let a ← instantiateMVars a
      if a.isMVar then
        if ← isProp (← inferType a) then out := out ++ [a.mvarId!]
    sides out
  sides (gs : List MVarId) : TacticM (List MVarId) := do
    let mut out := []
    for x in gs do
      if ← x.isAssigned then continue
      if ← close x (← `(tactic| ex_any)) then continue
      out := out ++ [x]
    return out
  cont (g : MVarId) (l : Name) : TacticM (List MVarId) := do all (← applyC g l)
  /-- Main goals are followed, the others are tried. -/
  all (gs : List MVarId) : TacticM (List MVarId) := do
    let mut main := []
    let mut out := []
    let mut late := []
    for x in gs do
      let t ← instantiateMVars (← x.getType)
      if t.getForallBody.isAppOf ``Ressa.Exec then main := main ++ [x]
      else if t.hasExprMVar then late := late ++ [x]
      else out := out ++ (← sides [x])
    let mut res := []
    for x in main do
      if ← x.isAssigned then continue
      res := res ++ (← go x)
    return res ++ out ++ (← sides late)
  iteStep (g : MVarId) (pos neg : Name) : TacticM (List MVarId) := do
    let s ← saveState
    for l in [pos, neg] do
      let gs ← applyC g l
      match gs with
      | [h, k] =>
        if ← close h (← `(tactic| ex_cond)) then return ← go k
        s.restore
      | _ => s.restore
    if let some [h, k] ← observing? (applyC g ``Ressa.Exec.iteTol) then
      return (← go k) ++ (← sides [h])
    return [g]

elab "ex" : tactic => do
  let g ← getMainGoal
  let rest := (← getGoals).tail!
  let gs ← go g
  setGoals (gs ++ rest)

end ExecTac
