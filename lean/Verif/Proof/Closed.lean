import Verif.Model.Api

/-!
# Closed judgements

A `Judgement` relates two computations.  `Closed` says that it is preserved by everything the
parser is built from; `Verif.Proof.Traverse` shows that it then holds of every parser function.

`J.rel c d Q m m'`: `c` says that an item has been consumed already, so that a recursive call is
allowed; `d` says that `m` consumes at least one item when it succeeds; `Q` holds of the value
returned.
-/

namespace Ressa

/-- A judgement on pairs of computations and the items it considers good. -/
structure Judgement where
  good : Item → Prop
  rel : {α : Type} → Bool → Bool → (α → Prop) → P α → P α → Prop

/-- The trivial postcondition. -/
def Any {α : Type} : α → Prop := fun _ => True

/-- The errors the parser raises with `P.fail`. -/
inductive FailOk : Error → Prop
  | getter (p) : FailOk (.invalidGetterParams p)
  | setter (p) : FailOk (.invalidSetterParams p)
  | body (p) : FailOk (.nonStrictFeatureInStrictContext p t!"restriced ident")
  | with (p) : FailOk (.nonStrictFeatureInStrictContext p t!"with statements")
  | proto (p) : FailOk (.redecl p t!"prototype can only be declared once")

/-- The errors that tolerance suppresses. -/
inductive TolOk : P Empty → Prop
  | word (i) : TolOk (unexpectedTokenError i t!"restricted word")
  | ident (i) : TolOk (unexpectedTokenError i t!"restricted ident")
  | strictIdent (i) : TolOk (unexpectedTokenError i t!"restricted ident in strict context")
  | increment (i) :
      TolOk (unexpectedTokenError i t!"Cannot increment when not at assignment target")
  | delete (i) : TolOk (unexpectedTokenError i t!"Cannot delete ident in strict mode")
  | class (i) : TolOk (unexpectedTokenError i [])
  | target : TolOk (unexpectedLook t!"Not at assignment target")
  | function : TolOk (unexpectedLook [])
  | paren : TolOk (expectedLook (words [t!")"]))
  | body (p) : TolOk (P.fail (.nonStrictFeatureInStrictContext p t!"restriced ident"))
  | getter (p) : TolOk (P.fail (.invalidGetterParams p))
  | setter (p) : TolOk (P.fail (.invalidSetterParams p))
  | proto (p) : TolOk (P.fail (.redecl p t!"prototype can only be declared once"))

/-- The context updates the parser makes outside a save/restore pair. -/
inductive ModOk : (Ctx → Ctx) → Prop
  | notTarget : ModOk fun x => { x with isAssignmentTarget := false, isBindingElement := false }
  | target : ModOk fun x => { x with isAssignmentTarget := true, isBindingElement := true }
  | member (t) : ModOk fun x => { x with isAssignmentTarget := t, isBindingElement := false }
  | binding (b) : ModOk fun x => { x with isBindingElement := b }
  | setYield (b) : ModOk fun x => { x with allowYield := b }
  | covert (o) : ModOk fun x => { x with firstCovert := o }

/-- The save/restore pairs of the parser. -/
inductive ScopeOk : (Ctx → Ctx) → (Ctx → Ctx → Ctx) → Prop
  | isolated : ScopeOk freshCover isolateCover
  | inherited : ScopeOk freshCover inheritCover
  | inheritId : ScopeOk id inheritCover
  | allowIn (b) : ScopeOk (fun c => { c with allowIn := b })
      (fun c x => { x with allowIn := c.allowIn })
  | iteration (b) : ScopeOk (fun c => { c with inIteration := b })
      (fun c x => { x with inIteration := c.inIteration })
  | savingIteration : ScopeOk id (fun c x => { x with inIteration := c.inIteration })
  | switch : ScopeOk (fun c => { c with inSwitch := true })
      (fun c x => { x with inSwitch := c.inSwitch })
  | strict : ScopeOk (fun c => { c with strict := true }) (fun c x => { x with strict := c.strict })
  | directive (b) : ScopeOk (fun c => { c with allowStrictDirective := b })
      (fun c x => { x with strict := c.strict, allowStrictDirective := c.allowStrictDirective })
  | leakDirective (b) : ScopeOk id
      (fun c x => { x with strict := c.strict, allowStrictDirective := b })
  | awaitYield (a y) : ScopeOk (fun c => { c with await := a, allowYield := y })
      (fun c x => { x with await := c.await, allowYield := c.allowYield })
  | yield (b) : ScopeOk (fun c => { c with allowYield := b })
      (fun c x => { x with allowYield := c.allowYield })
  | savingYield : ScopeOk id (fun c x => { x with allowYield := c.allowYield })
  | functionBody : ScopeOk
      (fun c => { c with labelSet := [], inIteration := false, inSwitch := false,
                         inFunctionBody := true })
      (fun c x => { x with labelSet := c.labelSet, inIteration := c.inIteration,
                           inSwitch := c.inSwitch, inFunctionBody := c.inFunctionBody })

/-- A regular expression literal without the unreachable arm. -/
def regexLiteral' : P Expr := do
  notTarget
  let item ← nextItem
  match item.token with
  | .regex =>
    let raw ← stringForOrEmpty item
    match splitLastSlash raw with
    | none =>
      let pos ← curPos
      P.fail (.unexpectedToken pos (.raw t!"malformed regex"))
    | some (before, flags) =>
      let pattern ← P.ofOption (sliceB before 1 (blen before))
      return .literal (.regex ⟨pattern, flags⟩)
  | _ => expectedLook []

/-- The check at the head of `parse_with_stmt` (src/lib.rs:926-932). -/
def withGuard : P Unit := do
  let pos ← curPos
  P.when (readC (·.strict))
    (tolerateError (.nonStrictFeatureInStrictContext pos t!"with statements"))

/-- The item remembered by `functionDeclName` is good. -/
def NameGood (J : Judgement) (p : Option Txt × Option Item) : Prop := ∀ i, p.2 = some i → J.good i

theorem NameGood.some {J : Judgement} {a i} (h : NameGood J (a, some i)) : J.good i := h i rfl

/-- `J` is preserved by the primitives. -/
class Base (J : Judgement) : Prop where
  weakenD {α c} {Q : α → Prop} {m m'} : J.rel c true Q m m' → J.rel c false Q m m'
  weakenQ {α c d} {Q Q' : α → Prop} {m m'} : (∀ a, Q a → Q' a) → J.rel c d Q m m' →
    J.rel c d Q' m m'
  pure {α c} {Q : α → Prop} {a} : Q a → J.rel c false Q (pure a) (pure a)
  bindT {α β c} {Q : α → Prop} {Q' : β → Prop} {m m'} {f f' : α → P β} :
    J.rel c true Q m m' → (∀ a, Q a → J.rel true false Q' (f a) (f' a)) →
    J.rel c true Q' (m >>= f) (m' >>= f')
  bindF {α β c d} {Q : α → Prop} {Q' : β → Prop} {m m'} {f f' : α → P β} :
    J.rel c false Q m m' → (∀ a, Q a → J.rel c d Q' (f a) (f' a)) →
    J.rel c d Q' (m >>= f) (m' >>= f')
  nextItem {c} : J.rel c true J.good nextItem nextItem
  look {c} : J.rel c false J.good look look
  readC {α c} (f : Ctx → α) : J.rel c false Any (readC f) (readC f)
  lookTok {c} : J.rel c false Any lookTok lookTok
  lookIs {c} (f) : J.rel c false Any (lookIs f) (lookIs f)
  lookPos {c} : J.rel c false Any lookPos lookPos
  isRestrictedTok {c i} : J.good i → J.rel c false Any (isRestrictedTok i) (isRestrictedTok i)
  isStrictReservedTok {c} (t) : J.rel c false Any (isStrictReservedTok t) (isStrictReservedTok t)
  isLiteralTok {c} (t) : J.rel c false Any (isLiteralTok t) (isLiteralTok t)
  atImportCall {c} : J.rel c false Any atImportCall atImportCall
  atLexicalDecl {c} : J.rel c false Any atLexicalDecl atLexicalDecl
  atAsyncFunction {c} : J.rel c false Any atAsyncFunction atAsyncFunction
  streamSlice {c i} : J.good i → J.rel c false Any (streamSlice i) (streamSlice i)
  getString {c i} : J.good i → J.rel c false Any (getString i) (getString i)
  stringForOrEmpty {c i} : J.good i → J.rel c false Any (stringForOrEmpty i) (stringForOrEmpty i)
  expectedTokenError {α c d} {Q : α → Prop} {i} (e) : J.good i →
    J.rel c d Q (expectedTokenError i e) (expectedTokenError i e)
  unexpectedTokenError {α c d} {Q : α → Prop} {i} (t) : J.good i →
    J.rel c d Q (unexpectedTokenError i t) (unexpectedTokenError i t)
  expectedLook {α c d} {Q : α → Prop} (e) : J.rel c d Q (expectedLook e) (expectedLook e)
  unexpectedLook {α c d} {Q : α → Prop} (t) : J.rel c d Q (unexpectedLook t) (unexpectedLook t)
  reinterpretError {α c d} {Q : α → Prop} :
    J.rel c d Q (reinterpretError t!"expression" t!"pattern")
      (reinterpretError t!"expression" t!"pattern")
  fail {α c d} {Q : α → Prop} {e} : FailOk e → J.rel c d Q (P.fail e) (P.fail e)
  modC {c f} : ModOk f → J.rel c false Any (P.modC f) (P.modC f)
  inScope {α c d} {Q : α → Prop} {set restore m m'} : ScopeOk set restore →
    J.rel c d Q m m' → J.rel c d Q (inScope set restore m) (inScope set restore m')
  withLabel {α c d} {Q : α → Prop} {m m'} (l) :
    J.rel c d Q m m' → J.rel c d Q (withLabel l m) (withLabel l m')
  ifNotTolerant {c} {m m' : P Empty} : TolOk m → J.rel c false Any m m' →
    J.rel c false Any (ifNotTolerant m) (ifNotTolerant m')
  ignoreNext {c} : J.rel c false Any (P.ignoreErr Ressa.nextItem) (P.ignoreErr Ressa.nextItem)
  expectCommaSep {c} : J.rel c false Any expectCommaSep expectCommaSep
  templateElement {c} : J.rel c true Any templateElement templateElement
  regexLiteral {c} : J.rel c true Any regexLiteral' regexLiteral'
  varIdent {c} (v) : J.rel c true Any (varIdent v) (varIdent v)
  withGuard {c} : J.rel c false Any withGuard withGuard
  loopP {σ α c} {Q : α → Prop} {test test' body body'} {x : σ} :
    (∀ x, J.rel c false (fun o => ∀ a, o = some a → Q a) (test x) (test' x)) →
    (∀ x, J.rel c true (fun r => ∀ a, r = .inr a → Q a) (body x) (body' x)) →
    J.rel c false Q (loopP test body x) (loopP test' body' x)

/-- `J` is preserved by everything the parser is built from. -/
class Closed (J : Judgement) (R R' : Rec) : Prop extends Base J where
  assign : J.rel true true Any R.assign R'.assign
  expression : J.rel true true Any R.expression R'.expression
  unary : J.rel true true Any R.unary R'.unary
  expo : J.rel true true Any R.expo R'.expo
  lhs : J.rel true true Any R.lhs R'.lhs
  stmt : J.rel true true Any R.stmt R'.stmt
  listItem : J.rel true true Any R.listItem R'.listItem
  pattern (k) : J.rel true true Any (R.pattern k) (R'.pattern k)

/-! ## Derived rules -/

section
variable {J : Judgement} [B : Base J]

theorem jTrue {α c d} {Q : α → Prop} {m m'} (h : J.rel c d Q m m') : J.rel c d Any m m' :=
  B.weakenQ (fun _ _ => trivial) h

theorem jPure {α c} (a : α) : J.rel c false Any (pure a) (pure a) := B.pure trivial

theorem jBindTF {α β c} {Q : α → Prop} {Q' : β → Prop} {m m'} {f f' : α → P β}
    (h : J.rel c true Q m m') (k : ∀ a, Q a → J.rel true false Q' (f a) (f' a)) :
    J.rel c false Q' (m >>= f) (m' >>= f') := B.weakenD (B.bindT h k)

omit B in
theorem jIte {α c d} {Q : α → Prop} {p : Prop} [Decidable p] {a b a' b' : P α}
    (h : p → J.rel c d Q a a') (k : ¬p → J.rel c d Q b b') :
    J.rel c d Q (if p then a else b) (if p then a' else b') := by
  by_cases hp : p
  · rw [if_pos hp, if_pos hp]; exact h hp
  · rw [if_neg hp, if_neg hp]; exact k hp

theorem jUntilP {σ c} {cond cond' : P Bool} {body body' : σ → P σ} {x : σ}
    (hc : J.rel c false Any cond cond') (hb : ∀ x, J.rel c true Any (body x) (body' x)) :
    J.rel c false Any (untilP cond body x) (untilP cond' body' x) := by
  refine B.weakenQ (Q := Any) (fun _ _ => trivial) (B.loopP (fun x => ?_) (fun x => ?_))
  · refine B.bindF hc fun b _ => jIte (fun _ => B.pure fun _ _ => trivial)
      (fun _ => B.pure fun _ _ => trivial)
  · exact B.bindT (hb x) fun _ _ => B.pure fun _ _ => trivial

theorem jLoopP {σ α c} {test test' : σ → P (Option α)} {body body' : σ → P (σ ⊕ α)} {x : σ}
    (ht : ∀ x, J.rel c false Any (test x) (test' x)) (hb : ∀ x, J.rel c true Any (body x) (body' x)) :
    J.rel c false Any (loopP test body x) (loopP test' body' x) :=
  B.loopP (fun x => B.weakenQ (fun _ _ _ _ => trivial) (ht x))
    (fun x => B.weakenQ (fun _ _ _ _ => trivial) (hb x))

end

end Ressa
