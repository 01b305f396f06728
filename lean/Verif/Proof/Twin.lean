import Lean
import Verif.Proof.Reach

/-!
# Judgements on two runs over different texts

As in `Verif.Proof.Closed`, but the two computations may return different values: items with other
spans and other positions.  `TJ.rel c d Q m m'` is read as in `Judgement.rel`, with `Q` relating the
two values returned.
-/

namespace Ressa

/-- A judgement on pairs of computations, with the items and positions it considers alike. -/
structure TJ where
  item : Item → Item → Prop
  pos : Position → Position → Prop
  rel : {α : Type} → Bool → Bool → (α → α → Prop) → P α → P α → Prop

/-- The context updates made on the two sides. -/
inductive TModOk : (Ctx → Ctx) → (Ctx → Ctx) → Prop
  | covert (o o') : TModOk (fun x => { x with firstCovert := o })
      (fun x => { x with firstCovert := o' })
  | same {f} : ModOk f → TModOk f f

/-- The errors raised on the two sides. -/
inductive TFailOk (J : TJ) : Error → Error → Prop
  | getter {p p'} : J.pos p p' → TFailOk J (.invalidGetterParams p) (.invalidGetterParams p')
  | setter {p p'} : J.pos p p' → TFailOk J (.invalidSetterParams p) (.invalidSetterParams p')
  | nonStrict {p p'} (t) : J.pos p p' →
    TFailOk J (.nonStrictFeatureInStrictContext p t) (.nonStrictFeatureInStrictContext p' t)
  | redecl {p p'} (t) : J.pos p p' → TFailOk J (.redecl p t) (.redecl p' t)

/-- The results of `functionDeclName` on the two sides. -/
inductive NameAlike (J : TJ) : Option Txt × Option Item → Option Txt × Option Item → Prop
  | none (n) : NameAlike J (n, none) (n, none)
  | some (n) {i i'} : J.item i i' → NameAlike J (n, some i) (n, some i')

/-- `J` is preserved by the primitives. -/
class TBase (J : TJ) : Prop where
  tok {i i'} : J.item i i' → i'.token = i.token
  line {p p' q q'} : J.pos p p' → J.pos q q' → (p'.line == q'.line) = (p.line == q.line)
  weakenD {α c} {Q : α → α → Prop} {m m'} : J.rel c true Q m m' → J.rel c false Q m m'
  pure {α c} {Q : α → α → Prop} {a a'} : Q a a' → J.rel c false Q (pure a) (pure a')
  bindT {α β c} {Q : α → α → Prop} {Q' : β → β → Prop} {m m'} {f f' : α → P β} :
    J.rel c true Q m m' → (∀ a a', Q a a' → J.rel true false Q' (f a) (f' a')) →
    J.rel c true Q' (m >>= f) (m' >>= f')
  bindF {α β c d} {Q : α → α → Prop} {Q' : β → β → Prop} {m m'} {f f' : α → P β} :
    J.rel c false Q m m' → (∀ a a', Q a a' → J.rel c d Q' (f a) (f' a')) →
    J.rel c d Q' (m >>= f) (m' >>= f')
  nextItem {c} : J.rel c true J.item nextItem nextItem
  look {c} : J.rel c false J.item look look
  lookPos {c} : J.rel c false J.pos lookPos lookPos
  readC {α c} (f : Ctx → α) :
    (∀ x o a, f { x with firstCovert := o, allowStrictDirective := a } = f x) →
    J.rel c false Eq (readC f) (readC f)
  lookTok {c} : J.rel c false Eq lookTok lookTok
  lookIs {c} (f) : J.rel c false Eq (lookIs f) (lookIs f)
  isRestrictedTok {c i i'} : J.item i i' →
    J.rel c false Eq (isRestrictedTok i) (isRestrictedTok i')
  isStrictReservedTok {c} (t) : J.rel c false Eq (isStrictReservedTok t) (isStrictReservedTok t)
  isLiteralTok {c} (t) : J.rel c false Eq (isLiteralTok t) (isLiteralTok t)
  atImportCall {c} : J.rel c false Eq atImportCall atImportCall
  atLexicalDecl {c} : J.rel c false Eq atLexicalDecl atLexicalDecl
  atAsyncFunction {c} : J.rel c false Eq atAsyncFunction atAsyncFunction
  streamSlice {c i i'} : J.item i i' → J.rel c false Eq (streamSlice i) (streamSlice i')
  getString {c i i'} : J.item i i' → J.rel c false Eq (getString i) (getString i')
  stringForOrEmpty {c i i'} : J.item i i' →
    J.rel c false Eq (stringForOrEmpty i) (stringForOrEmpty i')
  expectedTokenError {α c d} {Q : α → α → Prop} {i i'} (e) : J.item i i' →
    J.rel c d Q (expectedTokenError i e) (expectedTokenError i' e)
  unexpectedTokenError {α c d} {Q : α → α → Prop} {i i'} (t) : J.item i i' →
    J.rel c d Q (unexpectedTokenError i t) (unexpectedTokenError i' t)
  expectedLook {α c d} {Q : α → α → Prop} (e) : J.rel c d Q (expectedLook e) (expectedLook e)
  unexpectedLook {α c d} {Q : α → α → Prop} (t) : J.rel c d Q (unexpectedLook t) (unexpectedLook t)
  reinterpretError {α c d} {Q : α → α → Prop} (a b) :
    J.rel c d Q (reinterpretError a b) (reinterpretError a b)
  fail {α c d} {Q : α → α → Prop} {e e'} : TFailOk J e e' → J.rel c d Q (P.fail e) (P.fail e')
  modC {c f f'} : TModOk f f' → J.rel c false Eq (P.modC f) (P.modC f')
  inScope {α c d} {Q : α → α → Prop} {set restore m m'} : ScopeOk set restore →
    J.rel c d Q m m' → J.rel c d Q (inScope set restore m) (inScope set restore m')
  withLabel {α c d} {Q : α → α → Prop} {m m'} (l) :
    J.rel c d Q m m' → J.rel c d Q (withLabel l m) (withLabel l m')
  ifNotTolerant {c} {m m' : P Empty} : J.rel c false Eq m m' →
    J.rel c false Eq (ifNotTolerant m) (ifNotTolerant m')
  ignoreNext {c} : J.rel c false Eq (P.ignoreErr Ressa.nextItem) (P.ignoreErr Ressa.nextItem)
  expectCommaSep {c} : J.rel c false Eq expectCommaSep expectCommaSep
  templateElement {c} : J.rel c true Eq templateElement templateElement
  regexLiteral {c} : J.rel c true Eq regexLiteral' regexLiteral'
  varIdent {c} (v) : J.rel c true Eq (varIdent v) (varIdent v)
  withGuard {c} : J.rel c false Eq withGuard withGuard
  loopP {σ α c} {test test' : σ → P (Option α)} {body body'} {x : σ} :
    (∀ x, J.rel c false Eq (test x) (test' x)) →
    (∀ x, J.rel c true Eq (body x) (body' x)) →
    J.rel c false Eq (loopP test body x) (loopP test' body' x)

/-- `J` is preserved by everything the parser is built from. -/
class TClosed (J : TJ) (R R' : Rec) : Prop extends TBase J where
  assign : J.rel true true Eq R.assign R'.assign
  expression : J.rel true true Eq R.expression R'.expression
  unary : J.rel true true Eq R.unary R'.unary
  expo : J.rel true true Eq R.expo R'.expo
  lhs : J.rel true true Eq R.lhs R'.lhs
  stmt : J.rel true true Eq R.stmt R'.stmt
  listItem : J.rel true true Eq R.listItem R'.listItem
  pattern (k) : J.rel true true Eq (R.pattern k) (R'.pattern k)
  directive : J.rel true true Eq (directive R) (directive R')

/-! ## Derived rules -/

section
variable {J : TJ} [B : TBase J]

theorem tPure {α c} (a : α) : J.rel c false Eq (pure a) (pure a) := B.pure rfl

theorem tEqT {α β c} {Q' : β → β → Prop} {m m'} {f f' : α → P β}
    (h : J.rel c true Eq m m') (k : ∀ a, J.rel true false Q' (f a) (f' a)) :
    J.rel c true Q' (m >>= f) (m' >>= f') := B.bindT h fun a _ e => e ▸ k a

theorem tEqTF {α β c} {Q' : β → β → Prop} {m m'} {f f' : α → P β}
    (h : J.rel c true Eq m m') (k : ∀ a, J.rel true false Q' (f a) (f' a)) :
    J.rel c false Q' (m >>= f) (m' >>= f') := B.weakenD (tEqT h k)

theorem tEqF {α β c d} {Q' : β → β → Prop} {m m'} {f f' : α → P β}
    (h : J.rel c false Eq m m') (k : ∀ a, J.rel c d Q' (f a) (f' a)) :
    J.rel c d Q' (m >>= f) (m' >>= f') := B.bindF h fun a _ e => e ▸ k a

theorem tItemT {β c} {Q' : β → β → Prop} {m m'} {f f' : Item → P β}
    (h : J.rel c true J.item m m')
    (k : ∀ t sp sp', J.item ⟨t, sp⟩ ⟨t, sp'⟩ → J.rel true false Q' (f ⟨t, sp⟩) (f' ⟨t, sp'⟩)) :
    J.rel c true Q' (m >>= f) (m' >>= f') := by
  refine B.bindT h fun ⟨t, sp⟩ ⟨t', sp'⟩ hi => ?_
  obtain rfl : t' = t := B.tok hi
  exact k t' sp sp' hi

theorem tItemTF {β c} {Q' : β → β → Prop} {m m'} {f f' : Item → P β}
    (h : J.rel c true J.item m m')
    (k : ∀ t sp sp', J.item ⟨t, sp⟩ ⟨t, sp'⟩ → J.rel true false Q' (f ⟨t, sp⟩) (f' ⟨t, sp'⟩)) :
    J.rel c false Q' (m >>= f) (m' >>= f') := B.weakenD (tItemT h k)

theorem tItemF {β c d} {Q' : β → β → Prop} {m m'} {f f' : Item → P β}
    (h : J.rel c false J.item m m')
    (k : ∀ t sp sp', J.item ⟨t, sp⟩ ⟨t, sp'⟩ → J.rel c d Q' (f ⟨t, sp⟩) (f' ⟨t, sp'⟩)) :
    J.rel c d Q' (m >>= f) (m' >>= f') := by
  refine B.bindF h fun ⟨t, sp⟩ ⟨t', sp'⟩ hi => ?_
  obtain rfl : t' = t := B.tok hi
  exact k t' sp sp' hi

theorem tPosF {β c d} {Q' : β → β → Prop} {m m'} {f f' : Position → P β}
    (h : J.rel c false J.pos m m') (k : ∀ p p', J.pos p p' → J.rel c d Q' (f p) (f' p')) :
    J.rel c d Q' (m >>= f) (m' >>= f') := B.bindF h k

theorem tNameF {β c d} {Q' : β → β → Prop} {m m'} {f f' : Option Txt × Option Item → P β}
    (h : J.rel c false (NameAlike J) m m')
    (k : ∀ n, J.rel c d Q' (f (n, none)) (f' (n, none)))
    (k' : ∀ n t sp sp', J.item ⟨t, sp⟩ ⟨t, sp'⟩ →
      J.rel c d Q' (f (n, some ⟨t, sp⟩)) (f' (n, some ⟨t, sp'⟩))) :
    J.rel c d Q' (m >>= f) (m' >>= f') := by
  refine B.bindF h fun a a' hi => ?_
  cases hi with
  | none n => exact k n
  | @some n i i' hi =>
    obtain ⟨t, sp⟩ := i
    obtain ⟨t', sp'⟩ := i'
    obtain rfl : t' = t := B.tok hi
    exact k' n t' sp sp' hi

omit B in
theorem tIte {α c d} {Q : α → α → Prop} {p : Prop} [Decidable p] {a b a' b' : P α}
    (h : p → J.rel c d Q a a') (k : ¬p → J.rel c d Q b b') :
    J.rel c d Q (if p then a else b) (if p then a' else b') := by
  by_cases hp : p
  · rw [if_pos hp, if_pos hp]; exact h hp
  · rw [if_neg hp, if_neg hp]; exact k hp

theorem tUntilP {σ c} {cond cond' : P Bool} {body body' : σ → P σ} {x : σ}
    (hc : J.rel c false Eq cond cond') (hb : ∀ x, J.rel c true Eq (body x) (body' x)) :
    J.rel c false Eq (untilP cond body x) (untilP cond' body' x) := by
  refine B.loopP (fun x => ?_) (fun x => ?_)
  · exact tEqF hc fun b => tIte (fun _ => tPure _) (fun _ => tPure _)
  · exact tEqT (hb x) fun _ => tPure _

end

end Ressa

/-!
## The tactic

`tauto2` does for `TJ.rel` what `jauto` does for `Judgement.rel`, with lemmas called `f_t`.
-/

namespace TTac

open Lean Meta Elab Tactic

/-- The name of the lemma about a head symbol. -/
def lemmaName : Name → Option Name
  | .str (.str (.str .anonymous "Ressa") "Rec") s => some (.str (.str .anonymous "Ressa") (s ++ "_trec"))
  | .str p s => some (.str p (s ++ "_t"))
  | _ => none

/-- The arguments of `TJ.rel`. -/
def relArgs (e : Expr) : Option (Array Expr) :=
  if e.isAppOfArity ``Ressa.TJ.rel 7 then some e.getAppArgs else none

/-- The conclusion of a lemma, with loose bound variables for its arguments. -/
partial def conclusion : Expr → Expr
  | .forallE _ _ b _ => conclusion b
  | e => e

/-- The lemma for a head symbol, if there is one. -/
def findLemma (n : Name) : MetaM (Option (Name × Expr)) := do
  let some l := lemmaName n | return none
  let some info := (← getEnv).find? l | return none
  return some (l, conclusion info.type)

/-- Does the computation consume an item, as far as the lemmas know? -/
partial def consumes (e : Expr) : MetaM Bool := do
  let e := e.headBeta
  match e with
  | .lam .. => lambdaTelescope e fun _ b => consumes b
  | .letE _ _ v b _ => consumes (b.instantiate1 v)
  | _ =>
  if e.isAppOfArity ``Bind.bind 6 then
    let as := e.getAppArgs
    return (← consumes as[4]!) || (← consumes as[5]!)
  if e.isAppOfArity ``ite 5 then
    let as := e.getAppArgs
    return (← consumes as[3]!) && (← consumes as[4]!)
  if let some app ← matchMatcherApp? e then
    return ← app.alts.allM consumes
  if e.isFVar then return true
  let .const n _ := e.getAppFn | return false
  let some (_, concl) ← findLemma n | return false
  let some as := relArgs concl | return false
  if as[3]!.isConstOf ``Bool.true then return true
  if as[3]!.isConstOf ``Bool.false then return false
  let last := e.appArg!
  if (← whnfR (← inferType last)).isAppOf ``Ressa.P then consumes last else return true

/-- Unfold `let`s and beta redexes at the head. -/
partial def zeta (e : Expr) : Expr :=
  match e.headBeta with
  | .letE _ _ v b _ => zeta (b.instantiate1 v)
  | e => e

/-- One structural step, repeated. -/
partial def go (g : MVarId) : TacticM Unit := do
  let g ← (do
    let (_, g) ← g.intros
    pure g : MetaM MVarId)
  g.withContext do
  let tgt := (← instantiateMVars (← g.getType)).headBeta
  let some as := relArgs tgt | side g
  let e := zeta as[5]!
  let e' := zeta as[6]!
  let g ← g.replaceTargetDefEq (mkAppN tgt.getAppFn (as.set! 5 e |>.set! 6 e'))
  let dTrue := as[3]!.isConstOf ``Bool.true
  if e.isAppOfArity ``Bind.bind 6 then
    let m := e.getAppArgs[4]!
    let cons ← consumes m
    let pick (a b c : Name) : Name := if cons then (if dTrue then a else b) else c
    let l :=
      if m.isAppOf ``Ressa.nextItem || m.isAppOf ``Ressa.look then
        pick ``Ressa.tItemT ``Ressa.tItemTF ``Ressa.tItemF
      else if m.isAppOf ``Ressa.lookPos then ``Ressa.tPosF
      else if m.isAppOf ``Ressa.functionDeclName then ``Ressa.tNameF
      else pick ``Ressa.tEqT ``Ressa.tEqTF ``Ressa.tEqF
    for g' in ← applyC g l do
      let (_, g') ← g'.intros
      setGoals [g']
      evalTactic (← `(tactic| try dsimp only))
      for g'' in ← getGoals do go g''
  else if e.isAppOfArity ``ite 5 then
    for g' in ← applyC g ``Ressa.tIte do go g'
  else if e.isAppOfArity ``Pure.pure 4 then
    for g' in ← applyC g ``Ressa.tPure do go g'
  else if (← matchMatcherApp? e).isSome then
    setGoals [g]
    evalTactic (← `(tactic| split))
    let gs ← getGoals
    setGoals []
    for g in gs do
      if !(← g.isAssigned) then go g
  else if e.isFVar then
    setGoals [g]
    evalTactic (← `(tactic| first | assumption | (refine Ressa.TBase.weakenD ?_; assumption)))
    setGoals []
  else
    let .const n _ := e.getAppFn | throwTacticEx `tauto2 g m!"no head symbol"
    let some (l, concl) ← findLemma n | throwTacticEx `tauto2 g m!"no lemma for {n}"
    let some ls := relArgs concl | throwTacticEx `tauto2 g m!"bad lemma {l}"
    let mut g := g
    if ls[3]!.isConstOf ``Bool.true && !dTrue then
      let [g'] ← applyC g ``Ressa.TBase.weakenD | throwTacticEx `tauto2 g m!"weakenD"
      g := g'
    for g' in ← applyC g l do go g'
where
  -- Apply a lemma, keeping only the goals that are not instances or assigned.
  applyC (g : MVarId) (l : Name) : TacticM (List MVarId) := do
    let gs ← g.apply (← mkConstWithFreshMVarLevels l) { newGoals := .nonDependentOnly }
    gs.filterM fun g => do return !(← g.isAssigned)
  -- Side conditions.
  side (g : MVarId) : TacticM Unit := do
    setGoals [g]
    evalTactic (← `(tactic| first
      | assumption
      | exact fun _ _ _ => rfl
      | rfl
      | exact Ressa.TModOk.covert _ _
      | exact Ressa.TModOk.same (by constructor)
      | (constructor; assumption)
      | trivial))
    setGoals []

/-- Follows the structure of two computations. -/
elab "tauto2" : tactic => do
  evalTactic (← `(tactic| try dsimp only))
  let g ← getMainGoal
  let rest := (← getGoals).tail!
  go g
  setGoals rest

end TTac
