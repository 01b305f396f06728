import Verif.Proof.RenLemmas
import Verif.Proof.Twin

/-!
# Judgements on two runs over texts with other names

As `Verif.Proof.Twin`, but the values returned by the second run are those of the first with the
names replaced.
-/

namespace Ressa

section
variable {ρ : Txt → Txt} [W : Words ρ]

theorem Words.beq {t : Txt} (h : t ∈ specialWords) (w : Txt) : (ρ w == t) = (w == t) := by
  rw [Bool.eq_iff_iff, beq_iff_eq, beq_iff_eq]
  constructor
  · intro e; exact W.inj (e.trans (W.special h).symm)
  · rintro rfl; exact W.special h

@[ren_simp] theorem beq_async (w) : (ρ w == t!"async") = (w == t!"async") := Words.beq (by decide) w
@[ren_simp] theorem beq_await (w) : (ρ w == t!"await") = (w == t!"await") := Words.beq (by decide) w
@[ren_simp] theorem beq_get (w) : (ρ w == t!"get") = (w == t!"get") := Words.beq (by decide) w
@[ren_simp] theorem beq_set (w) : (ρ w == t!"set") = (w == t!"set") := Words.beq (by decide) w
@[ren_simp] theorem beq_proto (w) : (ρ w == t!"_proto_") = (w == t!"_proto_") :=
  Words.beq (by decide) w
@[ren_simp] theorem beq_strict (w) : (ρ w == t!"use strict") = (w == t!"use strict") :=
  Words.beq (by decide) w

@[ren_simp] theorem isRestrictedWord_ren (w) : isRestrictedWord (ρ w) = isRestrictedWord w := by
  unfold isRestrictedWord
  rw [Words.beq (t := t!"eval") (by decide), Words.beq (t := t!"arguments") (by decide)]

@[ren_simp] theorem isStrictReservedWord_ren (w) :
    isStrictReservedWord (ρ w) = isStrictReservedWord w := by
  unfold isStrictReservedWord
  rw [Words.beq (t := t!"implements") (by decide), Words.beq (t := t!"interface") (by decide),
    Words.beq (t := t!"package") (by decide), Words.beq (t := t!"private") (by decide),
    Words.beq (t := t!"protected") (by decide), Words.beq (t := t!"public") (by decide),
    Words.beq (t := t!"static") (by decide), Words.beq (t := t!"yield") (by decide),
    Words.beq (t := t!"let") (by decide)]

/-- The name of a keyword. -/
theorem kindName_ren (k) : ρ (kindName k) = kindName k := by
  cases k <;> exact W.special (by decide)

end

instance : Ren Token := ⟨fun _ a => a⟩
@[ren_simp] theorem ren_Token (ρ) (a : Token) : ren ρ a = a := rfl

instance : Ren FormalParams := ⟨fun ρ p => ⟨p.simple, ren ρ p.params, p.foundRestricted⟩⟩
instance : Ren BinStack := ⟨fun ρ p => ⟨ren ρ p.stack, p.ops, p.precs⟩⟩
instance : Ren ElHead := ⟨fun ρ p => ⟨p.token, ren ρ p.key, p.computed, p.isStatic⟩⟩
instance : Ren ElBody := ⟨fun ρ p => ⟨p.kind, p.method, ren ρ p.key, ren ρ p.value, p.computed⟩⟩

section
variable (ρ : Txt → Txt)

@[ren_simp] theorem ren_FormalParams (a b c) :
    ren ρ (⟨a, b, c⟩ : FormalParams) = ⟨a, ren ρ b, c⟩ := rfl
@[ren_simp] theorem ren_FormalParams_simple (p : FormalParams) : (ren ρ p).simple = p.simple := rfl
@[ren_simp] theorem ren_FormalParams_params (p : FormalParams) :
    (ren ρ p).params = ren ρ p.params := rfl
@[ren_simp] theorem ren_FormalParams_found (p : FormalParams) :
    (ren ρ p).foundRestricted = p.foundRestricted := rfl
@[ren_simp] theorem ren_BinStack (a b c) : ren ρ (⟨a, b, c⟩ : BinStack) = ⟨ren ρ a, b, c⟩ := rfl
@[ren_simp] theorem ren_BinStack_stack (p : BinStack) : (ren ρ p).stack = ren ρ p.stack := rfl
@[ren_simp] theorem ren_BinStack_ops (p : BinStack) : (ren ρ p).ops = p.ops := rfl
@[ren_simp] theorem ren_BinStack_precs (p : BinStack) : (ren ρ p).precs = p.precs := rfl
@[ren_simp] theorem ren_ElHead (a b c d) : ren ρ (⟨a, b, c, d⟩ : ElHead) = ⟨a, ren ρ b, c, d⟩ := rfl
@[ren_simp] theorem ren_ElHead_token (p : ElHead) : (ren ρ p).token = p.token := rfl
@[ren_simp] theorem ren_ElHead_key (p : ElHead) : (ren ρ p).key = ren ρ p.key := rfl
@[ren_simp] theorem ren_ElHead_computed (p : ElHead) : (ren ρ p).computed = p.computed := rfl
@[ren_simp] theorem ren_ElHead_isStatic (p : ElHead) : (ren ρ p).isStatic = p.isStatic := rfl
@[ren_simp] theorem ren_ElBody (a b c d e) :
    ren ρ (⟨a, b, c, d, e⟩ : ElBody) = ⟨a, b, ren ρ c, ren ρ d, e⟩ := rfl
@[ren_simp] theorem ren_ElBody_kind (p : ElBody) : (ren ρ p).kind = p.kind := rfl
@[ren_simp] theorem ren_ElBody_method (p : ElBody) : (ren ρ p).method = p.method := rfl
@[ren_simp] theorem ren_ElBody_key (p : ElBody) : (ren ρ p).key = ren ρ p.key := rfl
@[ren_simp] theorem ren_ElBody_value (p : ElBody) : (ren ρ p).value = ren ρ p.value := rfl
@[ren_simp] theorem ren_ElBody_computed (p : ElBody) : (ren ρ p).computed = p.computed := rfl

@[ren_simp] theorem ren_fst {α β} [Ren α] [Ren β] (p : α × β) : (ren ρ p).1 = ren ρ p.1 := rfl
@[ren_simp] theorem ren_snd {α β} [Ren α] [Ren β] (p : α × β) : (ren ρ p).2 = ren ρ p.2 := rfl
@[ren_simp] theorem ren_isNone {α} [Ren α] (o : Option α) : (ren ρ o).isNone = o.isNone := by
  cases o <;> rfl
@[ren_simp] theorem ren_isSome {α} [Ren α] (o : Option α) : (ren ρ o).isSome = o.isSome := by
  cases o <;> rfl
@[ren_simp] theorem ren_map_expr (l : List Expr) :
    ren ρ (l.map FunctionArg.expr) = (ren ρ l).map FunctionArg.expr := by
  induction l with
  | nil => rfl
  | cons a l ih => simp only [List.map_cons, ren_simp, ih]

@[ren_simp] theorem isIdentExpr_ren (e) : isIdentExpr (ren ρ e) = isIdentExpr e := by
  cases e <;> simp only [ren_simp] <;> rfl
@[ren_simp] theorem isPatIdent_ren (e) : isPatIdent (ren ρ e) = isPatIdent e := by
  cases e <;> simp only [ren_simp] <;> rfl
@[ren_simp] theorem isAsyncExpr_ren (e) : isAsyncExpr (ren ρ e) = isAsyncExpr e := by
  cases e <;> (try simp only [ren_simp]) <;> try rfl
  next a => cases a; simp only [ren_simp]; rfl
@[ren_simp] theorem isPlaceHolder_ren (e) : isPlaceHolder (ren ρ e) = isPlaceHolder e := by
  cases e <;> simp only [ren_simp] <;> rfl
@[ren_simp] theorem noInit_ren (e) : noInit (ren ρ e) = noInit e := by
  cases e; simp only [ren_simp, noInit]
@[ren_simp] theorem isDefault_ren (e) : isDefault (ren ρ e) = isDefault e := by
  cases e; simp only [ren_simp, isDefault]
@[ren_simp] theorem isRestArg_ren (e) : isRestArg (ren ρ e) = isRestArg e := by
  cases e <;> (next a => cases a <;> simp only [ren_simp] <;> rfl)
@[ren_simp] theorem isSimpleArg_pat_ren (e) : isSimpleArg (.pat (ren ρ e)) = isSimpleArg (.pat e) := by
  cases e <;> simp only [ren_simp] <;> rfl
@[ren_simp] theorem isYieldArg_ren (e) : isYieldArg (ren ρ e) = isYieldArg e := by
  cases e <;> (next a => cases a <;> simp only [ren_simp] <;> rfl)
@[ren_simp] theorem isProto_ren [Words ρ] (e) : isProto (ren ρ e) = isProto e := by
  cases e <;> (next a => cases a <;> simp only [ren_simp, isProto])
@[ren_simp] theorem isGeneratorValue_ren (e) : isGeneratorValue (ren ρ e) = isGeneratorValue e := by
  cases e <;> try (simp only [ren_simp]; done)
  all_goals first
    | (simp only [ren_simp]; rfl)
    | (next a => cases a <;> (try simp only [ren_simp]) <;> first | rfl | (next b => cases b; simp only [ren_simp]; rfl))
@[ren_simp] theorem generator_ren (o : Option PropertyValue) :
    ((ren ρ o).map isGeneratorValue).getD false = (o.map isGeneratorValue).getD false := by
  cases o with
  | none => rfl
  | some v => simp only [ren_simp, Option.map_some, Option.getD_some]
@[ren_simp high] theorem ren_new [W : Words ρ] (a) :
    ren ρ (Expr.metaProperty t!"new" a) = .metaProperty t!"new" (ρ a) := by
  rw [ren_Expr_metaProperty, W.special (w := t!"new") (by decide)]
@[ren_simp] theorem computedKey_ren (e) : computedKey (ren ρ e) = ren ρ (computedKey e) := by
  cases e <;> try (simp only [ren_simp, computedKey]; done)
  next a => cases a <;> simp only [ren_simp, computedKey]
@[ren_simp] theorem coverSource_ren (e) : coverSource (ren ρ e) = ren ρ (coverSource e) := by
  cases e <;> simp only [ren_simp, coverSource]

@[ren_simp] theorem isRestrictedPat_ren [Words ρ] (e) : isRestrictedPat (ren ρ e) = isRestrictedPat e := by
  cases e <;> simp only [ren_simp, isRestrictedPat]
@[ren_simp] theorem isRestrictedIdent_ren [Words ρ] (e) :
    isRestrictedIdent (ren ρ e) = isRestrictedIdent e := by
  cases e <;> simp only [ren_simp, isRestrictedIdent]
theorem isAwaitArg_ren [Words ρ] (e) : isAwaitArg (ren ρ e) = isAwaitArg e := by
  cases e <;> (next a => cases a <;> simp only [ren_simp, isAwaitArg])
theorem isKey_ren [Words ρ] {t} (h : t ∈ specialWords) (k) : isKey (ren ρ k) t = isKey k t := by
  cases k <;> (next a => cases a <;> simp only [ren_simp, isKey, Words.beq h])
@[ren_simp] theorem isKey_static [Words ρ] (k) : isKey (ren ρ k) t!"static" = isKey k t!"static" :=
  isKey_ren ρ (by decide) k
@[ren_simp] theorem isKey_get [Words ρ] (k) : isKey (ren ρ k) t!"get" = isKey k t!"get" :=
  isKey_ren ρ (by decide) k
@[ren_simp] theorem isKey_set [Words ρ] (k) : isKey (ren ρ k) t!"set" = isKey k t!"set" :=
  isKey_ren ρ (by decide) k
@[ren_simp] theorem isKey_prototype [Words ρ] (k) :
    isKey (ren ρ k) t!"prototype" = isKey k t!"prototype" := isKey_ren ρ (by decide) k
@[ren_simp] theorem isKey_constructor [Words ρ] (k) :
    isKey (ren ρ k) t!"constructor" = isKey k t!"constructor" := isKey_ren ρ (by decide) k


mutual
theorem reinterpretPat_ren' : ∀ e, reinterpretPat (ren ρ e) = ren ρ (reinterpretPat e)
  | .array es => by
    simp only [ren_simp, reinterpretPat]
    congr 2
    induction es with
    | nil => rfl
    | cons a l ih => cases a <;> simp only [List.map_cons, ren_simp, ih, Option.map_some, Option.map_none]
  | .spread e => by
    have := reinterpretPat_ren' e
    simp only [ren_simp, reinterpretPat, this]
    cases reinterpretPat e <;> simp only [ren_simp, Option.map_some, Option.map_none]
  | .object ps => by
    have := reinterpretProps_ren ps
    simp only [ren_simp, reinterpretPat, this]
    cases reinterpretProps ps <;> simp only [ren_simp, Option.map_some, Option.map_none]
  | .assignment o l r => by
    have := reinterpretPat_ren' l
    simp only [ren_simp, reinterpretPat, this]
    cases reinterpretPat l <;> simp only [ren_simp, Option.map_some, Option.map_none]
  | .ident i => by simp only [ren_simp, reinterpretPat]
  | .arrowBlock .. | .arrowExpr .. | .arrowParamPlaceHolder .. | .await .. | .binary .. | .call ..
  | .class .. | .conditional .. | .function .. | .literal .. | .template .. | .logical ..
  | .member .. | .metaProperty .. | .new .. | .sequence .. | .super | .taggedTemplate .. | .this
  | .unary .. | .update .. | .yield .. => by simp only [ren_simp, reinterpretPat]
theorem reinterpretProps_ren : ∀ l, reinterpretProps (ren ρ l) = ren ρ (reinterpretProps l)
  | [] => by simp only [ren_simp, reinterpretProps]
  | p :: ps => by
    have h1 := reinterpretProp_ren p
    have h2 := reinterpretProps_ren ps
    simp only [ren_simp, reinterpretProps, h1, h2]
    cases reinterpretProp p <;> simp only [ren_simp]
    cases reinterpretProps ps <;> simp only [ren_simp, Option.map_some, Option.map_none]
theorem reinterpretProp_ren : ∀ p, reinterpretProp (ren ρ p) = ren ρ (reinterpretProp p)
  | .property p => by simp only [ren_simp, reinterpretProp]
  | .spread e => by
    have := reinterpretPat_ren' e
    simp only [ren_simp, reinterpretProp, this]
    cases reinterpretPat e <;> simp only [ren_simp, Option.map_some, Option.map_none]
end

@[ren_simp] theorem reinterpretPat_ren (e) : reinterpretPat (ren ρ e) = ren ρ (reinterpretPat e) :=
  reinterpretPat_ren' ρ e

theorem coverParam_ren [W : Words ρ] (a) (p) : coverParam a (ren ρ p) = ren ρ (coverParam a p) := by
  have hy : ρ t!"yield" = t!"yield" := W.special (by decide)
  have key : ∀ q, coverParam a q = (q, a && isAwaitArg q) →
      coverParam a (ren ρ q) = (ren ρ q, a && isAwaitArg (ren ρ q)) →
      coverParam a (ren ρ q) = ren ρ (coverParam a q) := by
    intro q h1 h2
    rw [h1, h2, isAwaitArg_ren]; rfl
  cases p with
  | expr e =>
    cases e <;> try (refine key _ rfl ?_; simp only [ren_simp]; rfl)
    next op l r =>
      cases r <;> simp only [ren_simp] <;> try (simp only [coverParam, ren_simp]; done)
      next o d => cases o <;> simp only [coverParam, ren_simp, hy]
  | pat e =>
    cases e <;> try (refine key _ rfl ?_; simp only [ren_simp]; rfl)
    next l r =>
      cases r <;> simp only [ren_simp] <;> try (simp only [coverParam, ren_simp]; done)
      next o d => cases o <;> simp only [coverParam, ren_simp, hy]

end

/-- The second value is the first with the names replaced. -/
def RQ (ρ : Txt → Txt) {α : Type} [Ren α] (a a' : α) : Prop := a' = ren ρ a

/-- The results of `functionDeclName` on the two sides. -/
inductive NameRen (J : TJ) (ρ : Txt → Txt) :
    Option Txt × Option Item → Option Txt × Option Item → Prop
  | none (n : Option Txt) : NameRen J ρ (n, none) (ren ρ n, none)
  | some (n : Option Txt) {i i'} : J.item i i' → NameRen J ρ (n, some i) (ren ρ n, some i')

/-- The errors raised on the two sides. -/
inductive RFailOk (J : TJ) : Error → Error → Prop
  | getter {p p'} : J.pos p p' → RFailOk J (.invalidGetterParams p) (.invalidGetterParams p')
  | setter {p p'} : J.pos p p' → RFailOk J (.invalidSetterParams p) (.invalidSetterParams p')
  | nonStrict {p p'} (t t') : J.pos p p' →
    RFailOk J (.nonStrictFeatureInStrictContext p t) (.nonStrictFeatureInStrictContext p' t')
  | redecl {p p'} (t t') : J.pos p p' → RFailOk J (.redecl p t) (.redecl p' t')

/-- `J` is preserved by the primitives. -/
class RBase (J : TJ) (ρ : outParam (Txt → Txt)) : Prop where
  tok {i i'} : J.item i i' → i'.token = i.token
  line {p p' q q'} : J.pos p p' → J.pos q q' → (p'.line == q'.line) = (p.line == q.line)
  weakenD {α c} {Q : α → α → Prop} {m m'} : J.rel c true Q m m' → J.rel c false Q m m'
  pure {α c} {Q : α → α → Prop} {a a'} : Q a a' → J.rel c false Q (pure a) (pure a')
  bindT {α β c} {Q : α → α → Prop} {Q' : β → β → Prop} {m m'} {f f' : α → P β} :
    J.rel c true Q m m' → (∀ a a', Q a a' → J.rel true false Q' (f a) (f' a')) →
    J.rel c true Q' (m >>= f) (m' >>= f')
  bindF {α β c d} {Q : α → α → Prop} {Q' : β → β → Prop} {m m'} {f f' : α → P β} :
    J.rel c false Q m m' → (∀ a a', Q a a' → J.rel c d Q' (f a) (f' a')) →
    J.rel c d Q' (m >>= f) (m' >>= f')
  nextItem {c} : J.rel c true J.item nextItem nextItem
  look {c} : J.rel c false J.item look look
  lookPos {c} : J.rel c false J.pos lookPos lookPos
  readC {c} (f : Ctx → Bool) : (∀ x o l, f { x with firstCovert := o, labelSet := l } = f x) →
    J.rel c false (RQ ρ) (readC f) (readC f)
  lookTok {c} : J.rel c false (RQ ρ) lookTok lookTok
  lookIs {c} (f) : J.rel c false (RQ ρ) (lookIs f) (lookIs f)
  isRestrictedTok {c i i'} : J.item i i' →
    J.rel c false (RQ ρ) (isRestrictedTok i) (isRestrictedTok i')
  isStrictReservedTok {c} (t) :
    J.rel c false (RQ ρ) (isStrictReservedTok t) (isStrictReservedTok t)
  isLiteralTok {c} (t) : J.rel c false (RQ ρ) (isLiteralTok t) (isLiteralTok t)
  atImportCall {c} : J.rel c false (RQ ρ) atImportCall atImportCall
  atLexicalDecl {c} : J.rel c false (RQ ρ) atLexicalDecl atLexicalDecl
  atAsyncFunction {c} : J.rel c false (RQ ρ) atAsyncFunction atAsyncFunction
  streamSlice {c i i'} : J.item i i' → J.rel c false (RQ ρ) (streamSlice i) (streamSlice i')
  getString {c i i'} : J.item i i' → J.rel c false (RQ ρ) (getString i) (getString i')
  stringForOrEmpty {c i i'} : J.item i i' → J.rel c false (RQ ρ) (stringForOrEmpty i) (stringForOrEmpty i')
  expectedTokenError {α c d} {Q : α → α → Prop} {i i'} (e e') : J.item i i' →
    J.rel c d Q (expectedTokenError i e) (expectedTokenError i' e')
  unexpectedTokenError {α c d} {Q : α → α → Prop} {i i'} (t t') : J.item i i' →
    J.rel c d Q (unexpectedTokenError i t) (unexpectedTokenError i' t')
  expectedLook {α c d} {Q : α → α → Prop} (e e') : J.rel c d Q (expectedLook e) (expectedLook e')
  unexpectedLook {α c d} {Q : α → α → Prop} (t t') :
    J.rel c d Q (unexpectedLook t) (unexpectedLook t')
  reinterpretError {α c d} {Q : α → α → Prop} (a b) :
    J.rel c d Q (reinterpretError a b) (reinterpretError a b)
  fail {α c d} {Q : α → α → Prop} {e e'} : RFailOk J e e' → J.rel c d Q (P.fail e) (P.fail e')
  modC {c f f'} : TModOk f f' → J.rel c false (RQ ρ) (P.modC f) (P.modC f')
  inScope {α c d} {Q : α → α → Prop} {set restore m m'} : ScopeOk set restore →
    J.rel c d Q m m' → J.rel c d Q (inScope set restore m) (inScope set restore m')
  withLabel {α c d} {Q : α → α → Prop} {m m'} (l) :
    J.rel c d Q m m' → J.rel c d Q (withLabel l m) (withLabel (ρ l) m')
  ifNotTolerant {c} {m m' : P Empty} : J.rel c false (RQ ρ) m m' →
    J.rel c false (RQ ρ) (ifNotTolerant m) (ifNotTolerant m')
  ignoreNext {c} : J.rel c false (RQ ρ) (P.ignoreErr Ressa.nextItem) (P.ignoreErr Ressa.nextItem)
  expectCommaSep {c} : J.rel c false (RQ ρ) expectCommaSep expectCommaSep
  templateElement {c} : J.rel c true (RQ ρ) templateElement templateElement
  regexLiteral {c} : J.rel c true (RQ ρ) regexLiteral' regexLiteral'
  varIdent {c} (v) : J.rel c true (RQ ρ) (varIdent v) (varIdent v)
  withGuard {c} : J.rel c false (RQ ρ) withGuard withGuard
  loopP {σ α c} [Ren σ] [Ren α] {test test' : σ → P (Option α)} {body body'} {x x' : σ} :
    x' = ren ρ x →
    (∀ x, J.rel c false (RQ ρ) (test x) (test' (ren ρ x))) →
    (∀ x, J.rel c true (RQ ρ) (body x) (body' (ren ρ x))) →
    J.rel c false (RQ ρ) (loopP test body x) (loopP test' body' x')

/-- `J` is preserved by everything the parser is built from. -/
class RClosed (J : TJ) (ρ : outParam (Txt → Txt)) (R R' : Rec) : Prop extends RBase J ρ where
  assign : J.rel true true (RQ ρ) R.assign R'.assign
  expression : J.rel true true (RQ ρ) R.expression R'.expression
  unary : J.rel true true (RQ ρ) R.unary R'.unary
  expo : J.rel true true (RQ ρ) R.expo R'.expo
  lhs : J.rel true true (RQ ρ) R.lhs R'.lhs
  stmt : J.rel true true (RQ ρ) R.stmt R'.stmt
  listItem : J.rel true true (RQ ρ) R.listItem R'.listItem
  pattern (k) : J.rel true true (RQ ρ) (R.pattern k) (R'.pattern k)

/-! ## Derived rules -/

section
variable {J : TJ} {ρ : Txt → Txt} [B : RBase J ρ]
include B

theorem nPure {α c} [Ren α] {a a' : α} (h : a' = ren ρ a) :
    J.rel c false (RQ ρ) (pure a) (pure a') := B.pure h

theorem nRenT {α β c} [Ren α] {Q' : β → β → Prop} {m m'} {f f' : α → P β}
    (h : J.rel c true (RQ ρ) m m') (k : ∀ a, J.rel true false Q' (f a) (f' (ren ρ a))) :
    J.rel c true Q' (m >>= f) (m' >>= f') := B.bindT h fun a _ e => by cases e; exact k a

theorem nRenTF {α β c} [Ren α] {Q' : β → β → Prop} {m m'} {f f' : α → P β}
    (h : J.rel c true (RQ ρ) m m') (k : ∀ a, J.rel true false Q' (f a) (f' (ren ρ a))) :
    J.rel c false Q' (m >>= f) (m' >>= f') := B.weakenD (nRenT h k)

theorem nRenF {α β c d} [Ren α] {Q' : β → β → Prop} {m m'} {f f' : α → P β}
    (h : J.rel c false (RQ ρ) m m') (k : ∀ a, J.rel c d Q' (f a) (f' (ren ρ a))) :
    J.rel c d Q' (m >>= f) (m' >>= f') := B.bindF h fun a _ e => by cases e; exact k a

theorem nEqF {α β c d} {Q' : β → β → Prop} {m m'} {f f' : α → P β}
    (h : J.rel c false Eq m m') (k : ∀ a, J.rel c d Q' (f a) (f' a)) :
    J.rel c d Q' (m >>= f) (m' >>= f') := B.bindF h fun a _ e => e ▸ k a

theorem nEqT {α β c} {Q' : β → β → Prop} {m m'} {f f' : α → P β}
    (h : J.rel c true Eq m m') (k : ∀ a, J.rel true false Q' (f a) (f' a)) :
    J.rel c true Q' (m >>= f) (m' >>= f') := B.bindT h fun a _ e => e ▸ k a

theorem nEqTF {α β c} {Q' : β → β → Prop} {m m'} {f f' : α → P β}
    (h : J.rel c true Eq m m') (k : ∀ a, J.rel true false Q' (f a) (f' a)) :
    J.rel c false Q' (m >>= f) (m' >>= f') := B.weakenD (nEqT h k)

theorem nItemT {β c} {Q' : β → β → Prop} {m m'} {f f' : Item → P β}
    (h : J.rel c true J.item m m')
    (k : ∀ t sp sp', J.item ⟨t, sp⟩ ⟨t, sp'⟩ → J.rel true false Q' (f ⟨t, sp⟩) (f' ⟨t, sp'⟩)) :
    J.rel c true Q' (m >>= f) (m' >>= f') := by
  refine B.bindT h fun ⟨t, sp⟩ ⟨t', sp'⟩ hi => ?_
  obtain rfl : t' = t := B.tok hi
  exact k t' sp sp' hi

theorem nItemTF {β c} {Q' : β → β → Prop} {m m'} {f f' : Item → P β}
    (h : J.rel c true J.item m m')
    (k : ∀ t sp sp', J.item ⟨t, sp⟩ ⟨t, sp'⟩ → J.rel true false Q' (f ⟨t, sp⟩) (f' ⟨t, sp'⟩)) :
    J.rel c false Q' (m >>= f) (m' >>= f') := B.weakenD (nItemT h k)

theorem nItemF {β c d} {Q' : β → β → Prop} {m m'} {f f' : Item → P β}
    (h : J.rel c false J.item m m')
    (k : ∀ t sp sp', J.item ⟨t, sp⟩ ⟨t, sp'⟩ → J.rel c d Q' (f ⟨t, sp⟩) (f' ⟨t, sp'⟩)) :
    J.rel c d Q' (m >>= f) (m' >>= f') := by
  refine B.bindF h fun ⟨t, sp⟩ ⟨t', sp'⟩ hi => ?_
  obtain rfl : t' = t := B.tok hi
  exact k t' sp sp' hi

theorem nPosF {β c d} {Q' : β → β → Prop} {m m'} {f f' : Position → P β}
    (h : J.rel c false J.pos m m') (k : ∀ p p', J.pos p p' → J.rel c d Q' (f p) (f' p')) :
    J.rel c d Q' (m >>= f) (m' >>= f') := B.bindF h k

theorem nNameF {β c d} {Q' : β → β → Prop} {m m'} {f f' : Option Txt × Option Item → P β}
    (h : J.rel c false (NameRen J ρ) m m')
    (k : ∀ n : Option Txt, J.rel c d Q' (f (n, none)) (f' (ren ρ n, none)))
    (k' : ∀ (n : Option Txt) t sp sp', J.item ⟨t, sp⟩ ⟨t, sp'⟩ →
      J.rel c d Q' (f (n, some ⟨t, sp⟩)) (f' (ren ρ n, some ⟨t, sp'⟩))) :
    J.rel c d Q' (m >>= f) (m' >>= f') := by
  refine B.bindF h fun a a' hi => ?_
  cases hi with
  | none n => exact k n
  | @some n i i' hi =>
    obtain ⟨t, sp⟩ := i
    obtain ⟨t', sp'⟩ := i'
    obtain rfl : t' = t := B.tok hi
    exact k' n t' sp sp' hi

theorem nUntilP {σ c} [Ren σ] {cond cond' : P Bool} {body body' : σ → P σ} {x x' : σ}
    (hx : x' = ren ρ x)
    (hc : J.rel c false (RQ ρ) cond cond')
    (hb : ∀ x, J.rel c true (RQ ρ) (body x) (body' (ren ρ x))) :
    J.rel c false (RQ ρ) (untilP cond body x) (untilP cond' body' x') := by
  refine B.loopP hx (fun x => ?_) (fun x => ?_)
  · refine nRenF hc fun b => ?_
    rw [ren_Bool]
    exact tIte (fun _ => nPure rfl) (fun _ => nPure rfl)
  · exact nRenT (hb x) fun _ => nPure rfl

end

end Ressa

/-!
## The tactic

`rauto` does what `tauto2` does, with lemmas called `f_n`.
-/

namespace RTac

open Lean Meta Elab Tactic

/-- The name of the lemma about a head symbol. -/
def lemmaName : Name → Option Name
  | .str (.str (.str .anonymous "Ressa") "Rec") s => some (.str (.str .anonymous "Ressa") (s ++ "_nrec"))
  | .str p s => some (.str p (s ++ "_n"))
  | _ => none

/-- The lemma for a head symbol, if there is one. -/
def findLemma (n : Name) : MetaM (Option (Name × Expr)) := do
  let some l := lemmaName n | return none
  let some info := (← getEnv).find? l | return none
  return some (l, TTac.conclusion info.type)

/-- Does the computation consume an item, as far as the lemmas know? -/
partial def consumes (e : Expr) : MetaM Bool := do
  let e := e.headBeta
  match e with
  | .lam .. => lambdaTelescope e fun _ b => consumes b
  | .letE _ _ v b _ => consumes (b.instantiate1 v)
  | _ =>
  if e.isAppOfArity ``Bind.bind 6 then
    let as := e.getAppArgs
    return (← consumes as[4]!) || (← consumes as[5]!)
  if e.isAppOfArity ``ite 5 then
    let as := e.getAppArgs
    return (← consumes as[3]!) && (← consumes as[4]!)
  if let some app ← matchMatcherApp? e then
    return ← app.alts.allM consumes
  if e.isFVar then return true
  let .const n _ := e.getAppFn | return false
  let some (_, concl) ← findLemma n | return false
  let some as := TTac.relArgs concl | return false
  if as[3]!.isConstOf ``Bool.true then return true
  if as[3]!.isConstOf ``Bool.false then return false
  let last := e.appArg!
  if (← whnfR (← inferType last)).isAppOf ``Ressa.P then consumes last else return true

/-- One structural step, repeated. -/
partial def go (g : MVarId) : TacticM Unit := do
  let g ← (do
    let (_, g) ← g.intros
    pure g : MetaM MVarId)
  g.withContext do
  let tgt := (← instantiateMVars (← g.getType)).headBeta
  let some as := TTac.relArgs tgt | side g
  let e := TTac.zeta as[5]!
  let e' := TTac.zeta as[6]!
  let g ← g.replaceTargetDefEq (mkAppN tgt.getAppFn (as.set! 5 e |>.set! 6 e'))
  let dTrue := as[3]!.isConstOf ``Bool.true
  if e.isAppOfArity ``Bind.bind 6 then
    let m := e.getAppArgs[4]!
    let cons ← consumes m
    let pick (a b c : Name) : Name := if cons then (if dTrue then a else b) else c
    let l :=
      if m.isAppOf ``Ressa.nextItem || m.isAppOf ``Ressa.look then
        pick ``Ressa.nItemT ``Ressa.nItemTF ``Ressa.nItemF
      else if m.isAppOf ``Ressa.lookPos then ``Ressa.nPosF
      else if m.isAppOf ``Ressa.functionDeclName then ``Ressa.nNameF
      else pick ``Ressa.nRenT ``Ressa.nRenTF ``Ressa.nRenF
    for g' in ← applyC g l do
      let (_, g') ← g'.intros
      norm g'
  else if e.isAppOfArity ``ite 5 then
    for g' in ← applyC g ``Ressa.tIte do go g'
  else if e.isAppOfArity ``Pure.pure 4 then
    for g' in ← applyC g ``Ressa.nPure do go g'
  else if let some app ← matchMatcherApp? e then
    let same ← (do
      let some app' ← matchMatcherApp? e' | return false
      return app.discrs == app'.discrs : MetaM Bool)
    setGoals [g]
    if same then
      evalTactic (← `(tactic| split))
    else
      let d ← Term.exprToSyntax app.discrs[0]!
      evalTactic (← `(tactic| (generalize $d = x; cases x)))
    let gs ← getGoals
    setGoals []
    for g in gs do
      if !(← g.isAssigned) then norm g
  else if e.isFVar then
    setGoals [g]
    evalTactic (← `(tactic| first | assumption | (refine Ressa.RBase.weakenD ?_; assumption)))
    setGoals []
  else
    let .const n _ := e.getAppFn | throwTacticEx `rauto g m!"no head symbol"
    let some (l, concl) ← findLemma n | throwTacticEx `rauto g m!"no lemma for {n}"
    let some ls := TTac.relArgs concl | throwTacticEx `rauto g m!"bad lemma {l}"
    let mut g := g
    if ls[3]!.isConstOf ``Bool.true && !dTrue then
      let [g'] ← applyC g ``Ressa.RBase.weakenD | throwTacticEx `rauto g m!"weakenD"
      g := g'
    for g' in ← applyC g l do norm g'
where
  -- Compute with the renaming and go on.
  norm (g' : MVarId) : TacticM Unit := do
    let (_, g') ← g'.intros
    let tgt ← instantiateMVars (← g'.getType)
    if (TTac.relArgs tgt.headBeta).isNone then go g' else
    setGoals [g']
    evalTactic (← `(tactic| try dsimp only))
    evalTactic (← `(tactic| try simp only [ren_simp]))
    for g'' in ← getGoals do go g''
  -- Apply a lemma, keeping only the goals that are not instances or assigned.
  applyC (g : MVarId) (l : Name) : TacticM (List MVarId) := do
    let gs ← g.apply (← mkConstWithFreshMVarLevels l) { newGoals := .nonDependentOnly }
    gs.filterM fun g => do return !(← g.isAssigned)
  -- Side conditions.
  side (g : MVarId) : TacticM Unit := do
    setGoals [g]
    evalTactic (← `(tactic| first
      | assumption
      | exact fun _ _ _ => rfl
      | rfl
      | (simp only [ren_simp]; done)
      | (simp only [ren_simp, Ressa.kindName_ren]; done)
      | exact Ressa.TModOk.covert _ _
      | exact Ressa.TModOk.same (by constructor)
      | decide
      | (constructor; assumption)
      | trivial))
    setGoals []

/-- Follows the structure of two computations. -/
elab "rauto" : tactic => do
  evalTactic (← `(tactic| try dsimp only))
  evalTactic (← `(tactic| try simp only [ren_simp]))
  let g ← getMainGoal
  let rest := (← getGoals).tail!
  go g
  setGoals rest

end RTac
