import Verif.Proof.Twin
import Verif.Proof.Traverse

/-!
# The traversal for two texts

As `Verif.Proof.Traverse`, for `TJ`.
-/

namespace Ressa

section
variable {J : TJ} {c : Bool}

section
variable [B : TBase J]

/-! ## Primitives -/

theorem P.when_t {a a' : P Bool} {m m' : P Unit} (h : J.rel c false Eq a a')
    (k : J.rel c false Eq m m') : J.rel c false Eq (P.when a m) (P.when a' m') :=
  tEqF h fun _ => tIte (fun _ => k) fun _ => tPure _

theorem P.and_t {a a' b b' : P Bool} (h : J.rel c false Eq a a') (k : J.rel c false Eq b b') :
    J.rel c false Eq (P.and a b) (P.and a' b') :=
  tEqF h fun _ => tIte (fun _ => k) fun _ => tPure _

theorem P.or_t {a a' b b' : P Bool} (h : J.rel c false Eq a a') (k : J.rel c false Eq b b') :
    J.rel c false Eq (P.or a b) (P.or a' b') :=
  tEqF h fun _ => tIte (fun _ => tPure _) fun _ => k

theorem P.not_t {a a' : P Bool} (h : J.rel c false Eq a a') :
    J.rel c false Eq (P.not a) (P.not a') :=
  tEqF h fun _ => tPure _

theorem nextItem_t : J.rel c true J.item nextItem nextItem := B.nextItem
theorem look_t : J.rel c false J.item look look := B.look
theorem readC_t {α} (f : Ctx → α) (h : ∀ x o a, f { x with firstCovert := o, allowStrictDirective := a } = f x) :
    J.rel c false Eq (readC f) (readC f) := B.readC f h
theorem lookTok_t : J.rel c false Eq lookTok lookTok := B.lookTok
theorem lookIs_t (f) : J.rel c false Eq (lookIs f) (lookIs f) := B.lookIs f
theorem lookPos_t : J.rel c false J.pos lookPos lookPos := B.lookPos
theorem withGuard_t : J.rel c false Eq withGuard withGuard := B.withGuard
theorem isRestrictedTok_t {i i'} (hg : J.item i i') :
    J.rel c false Eq (isRestrictedTok i) (isRestrictedTok i') :=
  B.isRestrictedTok hg
theorem isStrictReservedTok_t (t) :
    J.rel c false Eq (isStrictReservedTok t) (isStrictReservedTok t) := B.isStrictReservedTok t
theorem isLiteralTok_t (t) : J.rel c false Eq (isLiteralTok t) (isLiteralTok t) :=
  B.isLiteralTok t
theorem atImportCall_t : J.rel c false Eq atImportCall atImportCall := B.atImportCall
theorem atLexicalDecl_t : J.rel c false Eq atLexicalDecl atLexicalDecl := B.atLexicalDecl
theorem atAsyncFunction_t : J.rel c false Eq atAsyncFunction atAsyncFunction := B.atAsyncFunction
theorem streamSlice_t {i i'} (h : J.item i i') :
    J.rel c false Eq (streamSlice i) (streamSlice i') := B.streamSlice h
theorem getString_t {i i'} (h : J.item i i') : J.rel c false Eq (getString i) (getString i') :=
  B.getString h
theorem stringForOrEmpty_t {i i'} (h : J.item i i') :
    J.rel c false Eq (stringForOrEmpty i) (stringForOrEmpty i') := B.stringForOrEmpty h
theorem expectedTokenError_t {α d} {Q : α → α → Prop} {i i'} (e) (h : J.item i i') :
    J.rel c d Q (expectedTokenError i e) (expectedTokenError i' e) := B.expectedTokenError e h
theorem unexpectedTokenError_t {α d} {Q : α → α → Prop} {i i'} (e) (h : J.item i i') :
    J.rel c d Q (unexpectedTokenError i e) (unexpectedTokenError i' e) := B.unexpectedTokenError e h
theorem expectedLook_t {α d} {Q : α → α → Prop} (e) :
    J.rel c d Q (expectedLook e) (expectedLook e) := B.expectedLook e
theorem unexpectedLook_t {α d} {Q : α → α → Prop} (e) :
    J.rel c d Q (unexpectedLook e) (unexpectedLook e) := B.unexpectedLook e
theorem reinterpretError_t {α d} {Q : α → α → Prop} (a b) :
    J.rel c d Q (reinterpretError a b) (reinterpretError a b) := B.reinterpretError a b
theorem P.fail_t {α d} {Q : α → α → Prop} {e e'} (h : TFailOk J e e') :
    J.rel c d Q (P.fail e) (P.fail e') := B.fail h
theorem P.modC_t {f f'} (h : TModOk f f') : J.rel c false Eq (P.modC f) (P.modC f') := B.modC h
theorem P.ignoreErr_t : J.rel c false Eq (P.ignoreErr nextItem) (P.ignoreErr nextItem) :=
  B.ignoreNext
theorem expectCommaSep_t : J.rel c false Eq expectCommaSep expectCommaSep := B.expectCommaSep
theorem templateElement_t : J.rel c true Eq templateElement templateElement := B.templateElement
theorem regexLiteral'_t : J.rel c true Eq regexLiteral' regexLiteral' := B.regexLiteral
theorem ifNotTolerant_t {m m' : P Empty} (h : J.rel c false Eq m m') :
    J.rel c false Eq (ifNotTolerant m) (ifNotTolerant m') := B.ifNotTolerant h
theorem tolerateError_t {e e'} (h : TFailOk J e e') :
    J.rel c false Eq (tolerateError e) (tolerateError e') := B.ifNotTolerant (B.fail h)
theorem withLabel_t {α d} {Q : α → α → Prop} {m m'} (l) (h : J.rel c d Q m m') :
    J.rel c d Q (withLabel l m) (withLabel l m') := B.withLabel l h
theorem untilP_t {σ} {cond cond' : P Bool} {body body' : σ → P σ} {x : σ}
    (hc : J.rel c false Eq cond cond') (hb : ∀ x, J.rel c true Eq (body x) (body' x)) :
    J.rel c false Eq (untilP cond body x) (untilP cond' body' x) := tUntilP hc hb
theorem loopP_t {σ α} {test test' : σ → P (Option α)} {body body' : σ → P (σ ⊕ α)} {x : σ}
    (ht : ∀ x, J.rel c false Eq (test x) (test' x))
    (hb : ∀ x, J.rel c true Eq (body x) (body' x)) :
    J.rel c false Eq (loopP test body x) (loopP test' body' x) := B.loopP ht hb

section
variable {α : Type} {d : Bool} {Q : α → α → Prop} {m m' : P α} (h : J.rel c d Q m m')
include h

theorem isolated_t : J.rel c d Q (isolated m) (isolated m') := B.inScope .isolated h
theorem inherited_t : J.rel c d Q (inherited m) (inherited m') := B.inScope .inherited h
theorem inScope_t : J.rel c d Q (inScope id inheritCover m) (inScope id inheritCover m') :=
  B.inScope .inheritId h
theorem withAllowIn_t (b) : J.rel c d Q (withAllowIn b m) (withAllowIn b m') :=
  B.inScope (.allowIn b) h
theorem withIteration_t (b) : J.rel c d Q (withIteration b m) (withIteration b m') :=
  B.inScope (.iteration b) h
theorem savingIteration_t : J.rel c d Q (savingIteration m) (savingIteration m') :=
  B.inScope .savingIteration h
theorem withSwitch_t : J.rel c d Q (withSwitch m) (withSwitch m') := B.inScope .switch h
theorem withStrict_t : J.rel c d Q (withStrict m) (withStrict m') := B.inScope .strict h
theorem withDirective_t (b) : J.rel c d Q (withDirective b m) (withDirective b m') :=
  B.inScope (.directive b) h
theorem leakDirective_t (b) : J.rel c d Q (leakDirective b m) (leakDirective b m') :=
  B.inScope (.leakDirective b) h
theorem withAwaitYield_t (a y) : J.rel c d Q (withAwaitYield a y m) (withAwaitYield a y m') :=
  B.inScope (.awaitYield a y) h
theorem withYield_t (b) : J.rel c d Q (withYield b m) (withYield b m') := B.inScope (.yield b) h
theorem savingYield_t : J.rel c d Q (savingYield m) (savingYield m') := B.inScope .savingYield h
theorem withFunctionBody_t : J.rel c d Q (withFunctionBody m) (withFunctionBody m') :=
  B.inScope .functionBody h
end

/-! ## Small functions -/

theorem notTarget_t : J.rel c false Eq notTarget notTarget := B.modC (.same .notTarget)
theorem setYield_t (b) : J.rel c false Eq (setYield b) (setYield b) := B.modC (.same (.setYield b))
theorem skipItem_t :
    J.rel c true Eq skipItem skipItem := by
  unfold skipItem; tauto2

theorem atPunct_t (p) :
    J.rel c false Eq (atPunct p) (atPunct p) := by
  unfold atPunct; tauto2

theorem atKeyword_t (k) :
    J.rel c false Eq (atKeyword k) (atKeyword k) := by
  unfold atKeyword; tauto2

theorem atContextual_t (t) :
    J.rel c false Eq (atContextual t) (atContextual t) := by
  unfold atContextual; tauto2

theorem expectPunct_t (p) :
    J.rel c true Eq (expectPunct p) (expectPunct p) := by
  unfold expectPunct; tauto2

theorem expectKeyword_t (k) :
    J.rel c true Eq (expectKeyword k) (expectKeyword k) := by
  unfold expectKeyword; tauto2

theorem atReturnArg_t :
    J.rel c false Eq atReturnArg atReturnArg := by
  unfold atReturnArg; tauto2

theorem atQualifiedPropKey_t :
    J.rel c false Eq atQualifiedPropKey atQualifiedPropKey := by
  unfold atQualifiedPropKey; tauto2

theorem atAssign_t :
    J.rel c false Eq atAssign atAssign := by
  unfold atAssign; tauto2

theorem isStartOfExpr_t :
    J.rel c false Eq isStartOfExpr isStartOfExpr := by
  unfold isStartOfExpr; tauto2

theorem consumeSemicolon_t :
    J.rel c false Eq consumeSemicolon consumeSemicolon := by
  unfold consumeSemicolon; tauto2

theorem lookPrecedence_t :
    J.rel c false Eq lookPrecedence lookPrecedence := by
  unfold lookPrecedence; tauto2

theorem identName_t :
    J.rel c true Eq identName identName := by
  unfold identName; tauto2

theorem atPossibleIdent_t :
    J.rel c false Eq atPossibleIdent atPossibleIdent := by
  unfold atPossibleIdent; tauto2

theorem qualifiedPropName_t :
    J.rel c false Eq qualifiedPropName qualifiedPropName := by
  unfold qualifiedPropName; tauto2

theorem requireFatArrow_t :
    J.rel c false Eq requireFatArrow requireFatArrow := by
  unfold requireFatArrow; tauto2

theorem varIdent_t (v) : J.rel c true Eq (varIdent v) (varIdent v) :=
  B.varIdent v

theorem fnName_t (isGen) :
    J.rel c true Eq (fnName isGen) (fnName isGen) := by
  unfold fnName; tauto2

theorem patternIdent_t (isVar) :
    J.rel c true Eq (patternIdent isVar) (patternIdent isVar) := by
  unfold patternIdent; tauto2

theorem functionDeclName_t (optIdent) :
    J.rel c false (NameAlike J) (functionDeclName optIdent) (functionDeclName optIdent) := by
  unfold functionDeclName
  refine tEqF (by tauto2) fun _ => tIte (fun _ => B.pure (.none _)) fun _ => ?_
  refine tItemF B.look fun t sp sp' hs => B.weakenD (tEqT (varIdent_t _) fun id => ?_)
  refine tEqF (B.isRestrictedTok hs) fun restricted => tEqF (B.readC _ fun _ _ _ => rfl) fun _ => ?_
  refine tIte (fun _ => B.expectedTokenError _ hs) fun _ => ?_
  refine tEqF (B.isStrictReservedTok _) fun reserved => tEqF (B.readC _ fun _ _ _ => rfl) fun _ => ?_
  exact tIte (fun _ => B.pure (.some _ hs)) fun _ => B.pure (.none _)

theorem checkSetterParams_t {p p'} (hp : J.pos p p') (params) :
    J.rel c false Eq (checkSetterParams p params) (checkSetterParams p' params) := by
  unfold checkSetterParams; tauto2

theorem classElCtor_t (hasCtor) (isStatic) (kind) (method) (computed) (key) (value) :
    J.rel c false Eq (classElCtor hasCtor isStatic kind method computed key value) (classElCtor hasCtor isStatic kind method computed key value) := by
  unfold classElCtor; tauto2

theorem classElFinish_t (hasCtor) (isStatic) (b) :
    J.rel c false Eq (classElFinish hasCtor isStatic b) (classElFinish hasCtor isStatic b) := by
  unfold classElFinish; tauto2

theorem functionExprName_t (isGen) :
    J.rel c false Eq (functionExprName isGen) (functionExprName isGen) := by
  unfold functionExprName; tauto2

theorem groupClose_t (ex) :
    J.rel c true Eq (groupClose ex) (groupClose ex) := by
  unfold groupClose; tauto2

theorem numberOrString'_t :
    J.rel c true Eq numberOrString' numberOrString' := by
  unfold numberOrString'; tauto2

theorem booleanLiteral'_t :
    J.rel c true Eq booleanLiteral' booleanLiteral' := by
  unfold booleanLiteral'; tauto2

theorem superExpr_t :
    J.rel c true Eq superExpr superExpr := by
  unfold superExpr; tauto2

theorem dotMember_t (target) (obj) :
    J.rel c true Eq (dotMember target obj) (dotMember target obj) := by
  unfold dotMember; tauto2

theorem superCallee_t :
    J.rel c true Eq superCallee superCallee := by
  unfold superCallee; tauto2

theorem postfixUpdate_t {t sp sp'} (hstart : J.item ⟨t, sp⟩ ⟨t, sp'⟩) (expr) :
    J.rel c true Eq (postfixUpdate ⟨t, sp⟩ expr) (postfixUpdate ⟨t, sp'⟩ expr) := by
  unfold postfixUpdate; tauto2

theorem unaryOp'_t (t) :
    J.rel c false Eq (unaryOp' t) (unaryOp' t) := by
  unfold unaryOp'; tauto2

theorem mkBinary'_t (op) (l) (r) :
    J.rel c false Eq (mkBinary' op l r) (mkBinary' op l r) := by
  unfold mkBinary'; tauto2

theorem reduceWhile'_t (prec) : ∀ ops stack precs,
    J.rel c false Eq (reduceWhile' prec ops stack precs) (reduceWhile' prec ops stack precs)
  | op :: ops, right :: left :: stack, [] => B.expectedLook _
  | op :: ops, right :: left :: stack, p :: ps =>
    tIte (fun _ => tEqF (mkBinary'_t _ _ _) fun e => reduceWhile'_t prec ops (e :: stack) ps)
      fun _ => tPure _
  | [], stack, precs => by unfold reduceWhile'; exact tPure _
  | op :: ops, [], precs => by unfold reduceWhile'; exact tPure _
  | op :: ops, [_], precs => by unfold reduceWhile'; exact tPure _

theorem reduceAll'_t : ∀ ops stack cur,
    J.rel c false Eq (reduceAll' ops stack cur) (reduceAll' ops stack cur)
  | op :: ops, left :: stack, cur => 
    tEqF (mkBinary'_t _ _ _) fun e => reduceAll'_t ops stack e
  | [], stack, cur => by unfold reduceAll'; exact tPure _
  | op :: ops, [], cur => by unfold reduceAll'; exact tPure _

theorem reinterpretArg_t (arg) :
    J.rel c false Eq (reinterpretArg arg) (reinterpretArg arg) := by
  unfold reinterpretArg; tauto2

theorem coverFormals_t (params) (a) :
    J.rel c false Eq (coverFormals params a) (coverFormals params a) := by
  unfold coverFormals; tauto2

theorem assignOp_t {t sp sp'} (hitem : J.item ⟨t, sp⟩ ⟨t, sp'⟩) :
    J.rel c false Eq (assignOp ⟨t, sp⟩) (assignOp ⟨t, sp'⟩) := by
  unfold assignOp; tauto2

theorem checkAssignTarget_t (current) :
    J.rel c false Eq (checkAssignTarget current) (checkAssignTarget current) := by
  unfold checkAssignTarget; tauto2

theorem commaList_t {m m' : P VariableDecl} (h : J.rel true true Eq m m') :
    J.rel true true Eq (commaList m) (commaList m') := by
  unfold commaList; tauto2

theorem lexicalKind_t {t sp sp'} (hitem : J.item ⟨t, sp⟩ ⟨t, sp'⟩) :
    J.rel c false Eq (lexicalKind ⟨t, sp⟩) (lexicalKind ⟨t, sp'⟩) := by
  unfold lexicalKind; tauto2

theorem forLexicalKind'_t {t sp sp'} (hitem : J.item ⟨t, sp⟩ ⟨t, sp'⟩) :
    J.rel c false Eq (forLexicalKind' ⟨t, sp⟩) (forLexicalKind' ⟨t, sp'⟩) := by
  unfold forLexicalKind'; tauto2

theorem optLabel_t (k) :
    J.rel c true Eq (optLabel k) (optLabel k) := by
  unfold optLabel; tauto2

theorem debuggerStmt_t :
    J.rel c true Eq debuggerStmt debuggerStmt := by
  unfold debuggerStmt; tauto2

theorem moduleSpecifier_t :
    J.rel c true Eq moduleSpecifier moduleSpecifier := by
  unfold moduleSpecifier; tauto2

theorem importSpecifier_t :
    J.rel c true Eq importSpecifier importSpecifier := by
  unfold importSpecifier; tauto2

theorem namedImports_t :
    J.rel c true Eq namedImports namedImports := by
  unfold namedImports; tauto2

theorem namespaceSpecifier_t :
    J.rel c true Eq namespaceSpecifier namespaceSpecifier := by
  unfold namespaceSpecifier; tauto2

theorem defaultImports_t :
    J.rel c true Eq defaultImports defaultImports := by
  unfold defaultImports; tauto2

theorem importSpecifiers_t :
    J.rel c true Eq importSpecifiers importSpecifiers := by
  unfold importSpecifiers; tauto2

theorem importDecl_t :
    J.rel c true Eq importDecl importDecl := by
  unfold importDecl; tauto2

theorem exportSpecifier_t :
    J.rel c true Eq exportSpecifier exportSpecifier := by
  unfold exportSpecifier; tauto2

theorem exportAll_t :
    J.rel c true Eq exportAll exportAll := by
  unfold exportAll; tauto2

theorem exportNamed_t :
    J.rel c true Eq exportNamed exportNamed := by
  unfold exportNamed; tauto2

end

/-! ## Expressions -/

variable {R R' : Rec} [C : TClosed J R R']

theorem assign_trec : J.rel true true Eq R.assign R'.assign := C.assign
theorem expression_trec : J.rel true true Eq R.expression R'.expression := C.expression
theorem unary_trec : J.rel true true Eq R.unary R'.unary := C.unary
theorem expo_trec : J.rel true true Eq R.expo R'.expo := C.expo
theorem lhs_trec : J.rel true true Eq R.lhs R'.lhs := C.lhs
theorem stmt_trec : J.rel true true Eq R.stmt R'.stmt := C.stmt
theorem listItem_trec : J.rel true true Eq R.listItem R'.listItem := C.listItem
theorem pattern_trec (k) : J.rel true true Eq (R.pattern k) (R'.pattern k) := C.pattern k

theorem objectPropertyKey_t :
    J.rel c true Eq (objectPropertyKey R) (objectPropertyKey R') := by
  unfold objectPropertyKey; tauto2

theorem patternWithDefault_t :
    J.rel true true Eq (patternWithDefault R) (patternWithDefault R') := by
  unfold patternWithDefault; tauto2

theorem restElement_t :
    J.rel c true Eq (restElement R) (restElement R') := by
  unfold restElement; tauto2

theorem bindingRestEl_t :
    J.rel c true Eq (bindingRestEl R) (bindingRestEl R') := by
  unfold bindingRestEl; tauto2

theorem arrayPattern_t :
    J.rel c true Eq (arrayPattern R) (arrayPattern R') := by
  unfold arrayPattern; tauto2

theorem restProp_t :
    J.rel c true Eq (restProp R) (restProp R') := by
  unfold restProp; tauto2

theorem propertyPattern_t :
    J.rel c true Eq (propertyPattern R) (propertyPattern R') := by
  unfold propertyPattern; tauto2

theorem objectPattern_t :
    J.rel c true Eq (objectPattern R) (objectPattern R') := by
  unfold objectPattern; tauto2

theorem pattern_t (kind) :
    J.rel c true Eq (pattern R kind) (pattern R' kind) := by
  unfold pattern; tauto2

theorem directive_t :
    J.rel true true Eq (directive R) (directive R') := TClosed.directive

theorem directivePrologues_t :
    J.rel true false Eq (directivePrologues R) (directivePrologues R') := by
  unfold directivePrologues; tauto2

theorem functionSourceEl_t :
    J.rel c true Eq (functionSourceEl R) (functionSourceEl R') := by
  unfold functionSourceEl; tauto2

theorem formalParam_t (simple) :
    J.rel true true Eq (formalParam R simple) (formalParam R' simple) := by
  unfold formalParam; tauto2

theorem formalParams_t :
    J.rel c true Eq (formalParams R) (formalParams R') := by
  unfold formalParams; tauto2

theorem functionDecl_t (optIdent) :
    J.rel c true Eq (functionDecl R optIdent) (functionDecl R' optIdent) := by
  unfold functionDecl; tauto2

theorem propertyMethodBody_t (simple) (r) :
    J.rel c true Eq (propertyMethodBody R simple r) (propertyMethodBody R' simple r) := by
  unfold propertyMethodBody; tauto2

theorem methodBody_t (simple) (r) :
    J.rel c true Eq (methodBody R simple r) (methodBody R' simple r) := by
  unfold methodBody; tauto2

theorem asyncPropertyMethod_t :
    J.rel c true Eq (asyncPropertyMethod R) (asyncPropertyMethod R') := by
  unfold asyncPropertyMethod; tauto2

theorem propertyMethod_t :
    J.rel c true Eq (propertyMethod R) (propertyMethod R') := by
  unfold propertyMethod; tauto2

theorem generatorMethod_t :
    J.rel c true Eq (generatorMethod R) (generatorMethod R') := by
  unfold generatorMethod; tauto2

theorem getterMethod_t :
    J.rel c true Eq (getterMethod R) (getterMethod R') := by
  unfold getterMethod; tauto2

theorem setterMethod_t :
    J.rel c true Eq (setterMethod R) (setterMethod R') := by
  unfold setterMethod; tauto2

theorem classElHead_t (token) :
    J.rel c true Eq (classElHead R token) (classElHead R' token) := by
  unfold classElHead; tauto2

theorem classElAccessor_t (h) :
    J.rel true false Eq (classElAccessor R h) (classElAccessor R' h) := by
  unfold classElAccessor; tauto2

theorem classElMethod_t (a) (b) :
    J.rel c false Eq (classElMethod R a b) (classElMethod R' a b) := by
  unfold classElMethod; tauto2

theorem classEl_t (hasCtor) :
    J.rel c true Eq (classEl R hasCtor) (classEl R' hasCtor) := by
  unfold classEl; tauto2

theorem classBody_t :
    J.rel c true Eq (classBody R) (classBody R') := by
  unfold classBody; tauto2

theorem classHeritage_t :
    J.rel true false Eq (classHeritage R) (classHeritage R') := by
  unfold classHeritage; tauto2

theorem classDecl_t (optIdent) :
    J.rel c true Eq (classDecl R optIdent) (classDecl R' optIdent) := by
  unfold classDecl; tauto2

theorem templateLiteral_t :
    J.rel c true Eq (templateLiteral R) (templateLiteral R') := by
  unfold templateLiteral; tauto2

theorem functionExpr_t :
    J.rel c true Eq (functionExpr R) (functionExpr R') := by
  unfold functionExpr; tauto2

theorem spreadElement_t :
    J.rel c true Eq (spreadElement R) (spreadElement R') := by
  unfold spreadElement; tauto2

theorem asyncArg_t :
    J.rel true true Eq (asyncArg R) (asyncArg R') := by
  unfold asyncArg; tauto2

theorem argList_t {m m' : P Expr} (h : J.rel true true Eq m m') :
    J.rel c true Eq (argList R m) (argList R' m') := by
  unfold argList; tauto2

theorem args_t :
    J.rel c true Eq (args R) (args R') := by
  unfold args; tauto2

theorem asyncArgs_t :
    J.rel c true Eq (asyncArgs R) (asyncArgs R') := by
  unfold asyncArgs; tauto2

theorem objPropKey_t {t sp sp'} (hstart : J.item ⟨t, sp⟩ ⟨t, sp'⟩) :
    J.rel c true Eq (objPropKey R ⟨t, sp⟩) (objPropKey R' ⟨t, sp'⟩) := by
  unfold objPropKey; tauto2

theorem objPropRest_t (hasProto) {t sp sp'} (hstart : J.item ⟨t, sp⟩ ⟨t, sp'⟩) {p p'} (hp : J.pos p p') (key) (isAsync) (computed) :
    J.rel true false Eq (objPropRest R hasProto ⟨t, sp⟩ p key isAsync computed)
      (objPropRest R' hasProto ⟨t, sp'⟩ p' key isAsync computed) := by
  unfold objPropRest; tauto2

theorem objProp_t (hasProto) :
    J.rel c true Eq (objProp R hasProto) (objProp R' hasProto) := by
  unfold objProp; tauto2

theorem objInit_t :
    J.rel c true Eq (objInit R) (objInit R') := by
  unfold objInit; tauto2

theorem arrayInit_t :
    J.rel c true Eq (arrayInit R) (arrayInit R') := by
  unfold arrayInit; tauto2

theorem groupLoop_t (first) :
    J.rel true false Eq (groupLoop R first) (groupLoop R' first) := by
  unfold groupLoop; tauto2

theorem groupExpr_t :
    J.rel c true Eq (groupExpr R) (groupExpr R') := by
  unfold groupExpr; tauto2

theorem primaryKeyword_t :
    J.rel c true Eq (primaryKeyword R) (primaryKeyword R') := by
  unfold primaryKeyword; tauto2

theorem primaryPunct_t :
    J.rel c true Eq (primaryPunct R) (primaryPunct R') := by
  unfold primaryPunct; tauto2

theorem primaryIdent'_t :
    J.rel c true Eq (primaryIdent' R) (primaryIdent' R') := by
  unfold primaryIdent'; tauto2

theorem primary_t :
    J.rel c true Eq (primary R) (primary R') := by
  rw [primary_eq, primary_eq]; unfold primary'; tauto2

theorem newExpr_t :
    J.rel c true Eq (newExpr R) (newExpr R') := by
  unfold newExpr; tauto2

theorem newOrPrimary_t :
    J.rel c true Eq (newOrPrimary R) (newOrPrimary R') := by
  unfold newOrPrimary; tauto2

theorem computedMember_t (obj) :
    J.rel c true Eq (computedMember R obj) (computedMember R' obj) := by
  unfold computedMember; tauto2

theorem taggedTemplate_t (tag) :
    J.rel c true Eq (taggedTemplate R tag) (taggedTemplate R' tag) := by
  unfold taggedTemplate; tauto2

theorem lhsExpr_t :
    J.rel c true Eq (lhsExpr R) (lhsExpr R') := by
  unfold lhsExpr; tauto2

theorem callSuffix_t (isAsync) {p p'} (hp : J.pos p p') (callee) :
    J.rel c true Eq (callSuffix R isAsync p callee) (callSuffix R' isAsync p' callee) := by
  unfold callSuffix
  refine tPosF C.lookPos fun q q' hq => ?_
  rw [C.line hp hq]
  tauto2

theorem lhsAllowCall_t :
    J.rel c true Eq (lhsAllowCall R) (lhsAllowCall R') := by
  unfold lhsAllowCall; tauto2

theorem prefixUpdate'_t :
    J.rel c true Eq (prefixUpdate' R) (prefixUpdate' R') := by
  unfold prefixUpdate'; tauto2

theorem updateExpr_t :
    J.rel c true Eq (updateExpr R) (updateExpr R') := by
  rw [updateExpr_eq, updateExpr_eq]; unfold updateExpr'; tauto2

theorem awaitExpr_t :
    J.rel c true Eq (awaitExpr R) (awaitExpr R') := by
  unfold awaitExpr; tauto2

theorem prefixUnary'_t :
    J.rel c true Eq (prefixUnary' R) (prefixUnary' R') := by
  unfold prefixUnary'; tauto2

theorem unaryExpr_t :
    J.rel c true Eq (unaryExpr R) (unaryExpr R') := by
  rw [unaryExpr_eq, unaryExpr_eq]; unfold unaryExpr'; tauto2

theorem expoExpr_t :
    J.rel c true Eq (expoExpr R) (expoExpr R') := by
  unfold expoExpr; tauto2

theorem binaryExpr_t :
    J.rel c true Eq (binaryExpr R) (binaryExpr R') := by
  rw [binaryExpr_eq, binaryExpr_eq]; unfold binaryExpr'; tauto2

theorem conditionalExpr_t :
    J.rel c true Eq (conditionalExpr R) (conditionalExpr R') := by
  unfold conditionalExpr; tauto2

theorem yieldExpr_t :
    J.rel c true Eq (yieldExpr R) (yieldExpr R') := by
  unfold yieldExpr; tauto2

theorem arrowBody_t (params) (isAsync) :
    J.rel c true Eq (arrowBody R params isAsync) (arrowBody R' params isAsync) := by
  unfold arrowBody; tauto2

theorem arrowTail_t (current) :
    J.rel c false Eq (arrowTail R current) (arrowTail R' current) := by
  unfold arrowTail; tauto2

theorem assignTail_t (current) :
    J.rel c true Eq (assignTail R current) (assignTail R' current) := by
  unfold assignTail; tauto2

theorem asyncParam_t {t sp sp'} (hstart : J.item ⟨t, sp⟩ ⟨t, sp'⟩) {a b a' b'}
    (hl : (b' == a') = (b == a)) (current) :
    J.rel c false Eq (asyncParam R ⟨t, sp⟩ a b current) (asyncParam R' ⟨t, sp'⟩ a' b' current) := by
  unfold asyncParam; rw [hl]; tauto2

theorem assignExpr_t :
    J.rel c true Eq (assignExpr R) (assignExpr R') := by
  unfold assignExpr
  refine tEqF (by tauto2) fun _ => tIte (fun _ => by tauto2) fun _ => ?_
  refine tItemF C.look fun t sp sp' hs => tPosF C.lookPos fun p p' hp => ?_
  refine tEqT (by tauto2) fun _ => tPosF C.lookPos fun q q' hq => ?_
  refine tEqF (asyncParam_t hs (C.line hq hp) _) fun _ => ?_
  tauto2

theorem expression_t :
    J.rel c true Eq (expression R) (expression R') := by
  unfold expression; tauto2

theorem block_t :
    J.rel c true Eq (block R) (block R') := by
  unfold block; tauto2

theorem expressionStmt_t :
    J.rel c true Eq (expressionStmt R) (expressionStmt R') := by
  unfold expressionStmt; tauto2

theorem initializer_t :
    J.rel true true Eq (initializer R) (initializer R') := by
  unfold initializer; tauto2

theorem varDecl_t (inFor) :
    J.rel true true Eq (varDecl R inFor) (varDecl R' inFor) := by
  unfold varDecl; tauto2

theorem varDeclList_t (inFor) :
    J.rel true true Eq (varDeclList R inFor) (varDeclList R' inFor) := by
  unfold varDeclList; tauto2

theorem varStmt_t :
    J.rel c true Eq (varStmt R) (varStmt R') := by
  unfold varStmt; tauto2

theorem variableDecl_t (inFor) :
    J.rel true true Eq (variableDecl R inFor) (variableDecl R' inFor) := by
  unfold variableDecl; tauto2

theorem variableDeclList_t (inFor) :
    J.rel true true Eq (variableDeclList R inFor) (variableDeclList R' inFor) := by
  unfold variableDeclList; tauto2

theorem lexicalInit_t (kind) (inFor) (id) :
    J.rel c false Eq (lexicalInit R kind inFor id) (lexicalInit R' kind inFor id) := by
  unfold lexicalInit; tauto2

theorem lexicalBinding_t (kind) (inFor) :
    J.rel true true Eq (lexicalBinding R kind inFor) (lexicalBinding R' kind inFor) := by
  unfold lexicalBinding; tauto2

theorem bindingList_t (kind) (inFor) :
    J.rel true true Eq (bindingList R kind inFor) (bindingList R' kind inFor) := by
  unfold bindingList; tauto2

theorem lexicalDecl_t (inFor) :
    J.rel c true Eq (lexicalDecl R inFor) (lexicalDecl R' inFor) := by
  unfold lexicalDecl; tauto2

theorem loopBody_t :
    J.rel c true Eq (loopBody R) (loopBody R') := by
  unfold loopBody; tauto2

theorem optExpr_t (stop) :
    J.rel true false Eq (optExpr R stop) (optExpr R' stop) := by
  unfold optExpr; tauto2

theorem forLoopCont_t (init) :
    J.rel c true Eq (forLoopCont R init) (forLoopCont R' init) := by
  unfold forLoopCont; tauto2

theorem forLoop_t (kind) :
    J.rel true true Eq (forLoop R kind) (forLoop R' kind) := by
  unfold forLoop; tauto2

theorem forInLoop_t (left) :
    J.rel c true Eq (forInLoop R left) (forInLoop R' left) := by
  unfold forInLoop; tauto2

theorem forOfLoop_t (left) (isAwait) :
    J.rel c true Eq (forOfLoop R left isAwait) (forOfLoop R' left isAwait) := by
  unfold forOfLoop; tauto2

theorem forVar_t (isAwait) :
    J.rel c true Eq (forVar R isAwait) (forVar R' isAwait) := by
  unfold forVar; tauto2

theorem forLexical'_t (isAwait) :
    J.rel c true Eq (forLexical' R isAwait) (forLexical' R' isAwait) := by
  unfold forLexical'; tauto2

theorem forExpr_t (isAwait) :
    J.rel true true Eq (forExpr R isAwait) (forExpr R' isAwait) := by
  unfold forExpr; tauto2

theorem forStmt_t :
    J.rel c true Eq (forStmt R) (forStmt R') := by
  rw [forStmt_eq, forStmt_eq]; unfold forStmt'; tauto2

theorem whileStmt_t :
    J.rel c true Eq (whileStmt R) (whileStmt R') := by
  unfold whileStmt; tauto2

theorem doWhileStmt_t :
    J.rel c true Eq (doWhileStmt R) (doWhileStmt R') := by
  unfold doWhileStmt; tauto2

theorem withStmt_t :
    J.rel c true Eq (withStmt R) (withStmt R') := by
  rw [withStmt_eq, withStmt_eq]
  unfold withStmt'; tauto2

theorem catchClause_t :
    J.rel c true Eq (catchClause R) (catchClause R') := by
  unfold catchClause; tauto2

theorem finallyClause_t :
    J.rel c true Eq (finallyClause R) (finallyClause R') := by
  unfold finallyClause; tauto2

theorem tryStmt_t :
    J.rel c true Eq (tryStmt R) (tryStmt R') := by
  unfold tryStmt; tauto2

theorem throwStmt_t :
    J.rel c true Eq (throwStmt R) (throwStmt R') := by
  unfold throwStmt; tauto2

theorem caseTest_t :
    J.rel c true Eq (caseTest R) (caseTest R') := by
  unfold caseTest; tauto2

theorem switchCase_t :
    J.rel c true Eq (switchCase R) (switchCase R') := by
  unfold switchCase; tauto2

theorem switchStmt_t :
    J.rel c true Eq (switchStmt R) (switchStmt R') := by
  unfold switchStmt; tauto2

theorem returnStmt_t :
    J.rel c true Eq (returnStmt R) (returnStmt R') := by
  unfold returnStmt; tauto2

theorem ifClause_t :
    J.rel true true Eq (ifClause R) (ifClause R') := by
  unfold ifClause; tauto2

theorem ifStmt_t :
    J.rel c true Eq (ifStmt R) (ifStmt R') := by
  unfold ifStmt; tauto2

theorem fnStmt_t :
    J.rel c true Eq (fnStmt R) (fnStmt R') := by
  unfold fnStmt; tauto2

theorem labelledBody_t :
    J.rel true true Eq (labelledBody R) (labelledBody R') := by
  unfold labelledBody; tauto2

theorem labelledStmt_t :
    J.rel c true Eq (labelledStmt R) (labelledStmt R') := by
  unfold labelledStmt; tauto2

theorem keywordStmt_t (k) :
    J.rel c true Eq (keywordStmt R k) (keywordStmt R' k) := by
  unfold keywordStmt; tauto2

theorem statement_t :
    J.rel c true Eq (statement R) (statement R') := by
  unfold statement; tauto2

theorem exportDefault_t :
    J.rel c true Eq (exportDefault R) (exportDefault R') := by
  unfold exportDefault; tauto2

theorem exportKeyword_t :
    J.rel c true Eq (exportKeyword R) (exportKeyword R') := by
  unfold exportKeyword; tauto2

theorem exportDecl_t :
    J.rel c true Eq (exportDecl R) (exportDecl R') := by
  unfold exportDecl; tauto2

theorem stmtPart_t :
    J.rel c true Eq (stmtPart R) (stmtPart R') := by
  unfold stmtPart; tauto2

theorem statementListItem_t :
    J.rel c true Eq (statementListItem R) (statementListItem R') := by
  unfold statementListItem; tauto2

/-- One unfolding of the recursion keeps the judgement, whether or not something has been
consumed. -/
structure TStepRel (J : TJ) (c : Bool) (R R' : Rec) : Prop where
  assign : J.rel c true Eq R.assign R'.assign
  expression : J.rel c true Eq R.expression R'.expression
  unary : J.rel c true Eq R.unary R'.unary
  expo : J.rel c true Eq R.expo R'.expo
  lhs : J.rel c true Eq R.lhs R'.lhs
  stmt : J.rel c true Eq R.stmt R'.stmt
  listItem : J.rel c true Eq R.listItem R'.listItem
  pattern (k) : J.rel c true Eq (R.pattern k) (R'.pattern k)

omit C in
theorem TStepRel.closed [TBase J] (h : TStepRel J true R R')
    (hd : J.rel true true Eq (directive R) (directive R')) : TClosed J R R' :=
  { h with directive := hd }

theorem step_t : TStepRel J c (step R) (step R') where
  assign := assignExpr_t
  expression := expression_t
  unary := unaryExpr_t
  expo := expoExpr_t
  lhs := lhsExpr_t
  stmt := statement_t
  listItem := statementListItem_t
  pattern := pattern_t

end

end Ressa
