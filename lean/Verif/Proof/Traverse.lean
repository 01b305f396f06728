import Verif.Proof.Tactic

/-!
# The traversal

If `J` is `Closed` for `R` and `R'` then `J` relates `f R` to `f R'` for every parser function
`f`.  Each lemma is named after the function it is about and follows its shape.
-/

namespace Ressa

section
variable {J : Judgement} {c : Bool}

section
variable [B : Base J]

/-! ## Primitives -/

theorem P.when_j {a a' : P Bool} {m m' : P Unit} (h : J.rel c false Any a a')
    (k : J.rel c false Any m m') : J.rel c false Any (P.when a m) (P.when a' m') :=
  B.bindF h fun _ _ => jIte (fun _ => k) fun _ => jPure _

theorem P.and_j {a a' b b' : P Bool} (h : J.rel c false Any a a') (k : J.rel c false Any b b') :
    J.rel c false Any (P.and a b) (P.and a' b') :=
  B.bindF h fun _ _ => jIte (fun _ => k) fun _ => jPure _

theorem P.or_j {a a' b b' : P Bool} (h : J.rel c false Any a a') (k : J.rel c false Any b b') :
    J.rel c false Any (P.or a b) (P.or a' b') :=
  B.bindF h fun _ _ => jIte (fun _ => jPure _) fun _ => k

theorem P.not_j {a a' : P Bool} (h : J.rel c false Any a a') :
    J.rel c false Any (P.not a) (P.not a') :=
  B.bindF h fun _ _ => jPure _

theorem nextItem_j : J.rel c true J.good nextItem nextItem := B.nextItem
theorem look_j : J.rel c false J.good look look := B.look
theorem readC_j {α} (f : Ctx → α) : J.rel c false Any (readC f) (readC f) := B.readC f
theorem lookTok_j : J.rel c false Any lookTok lookTok := B.lookTok
theorem lookIs_j (f) : J.rel c false Any (lookIs f) (lookIs f) := B.lookIs f
theorem lookPos_j : J.rel c false Any lookPos lookPos := B.lookPos
theorem withGuard_j : J.rel c false Any withGuard withGuard := B.withGuard
theorem isRestrictedTok_j {i} (hg : J.good i) :
    J.rel c false Any (isRestrictedTok i) (isRestrictedTok i) :=
  B.isRestrictedTok hg
theorem isStrictReservedTok_j (t) :
    J.rel c false Any (isStrictReservedTok t) (isStrictReservedTok t) := B.isStrictReservedTok t
theorem isLiteralTok_j (t) : J.rel c false Any (isLiteralTok t) (isLiteralTok t) :=
  B.isLiteralTok t
theorem atImportCall_j : J.rel c false Any atImportCall atImportCall := B.atImportCall
theorem atLexicalDecl_j : J.rel c false Any atLexicalDecl atLexicalDecl := B.atLexicalDecl
theorem atAsyncFunction_j : J.rel c false Any atAsyncFunction atAsyncFunction := B.atAsyncFunction
theorem streamSlice_j {i} (h : J.good i) : J.rel c false Any (streamSlice i) (streamSlice i) :=
  B.streamSlice h
theorem getString_j {i} (h : J.good i) : J.rel c false Any (getString i) (getString i) :=
  B.getString h
theorem stringForOrEmpty_j {i} (h : J.good i) :
    J.rel c false Any (stringForOrEmpty i) (stringForOrEmpty i) := B.stringForOrEmpty h
theorem expectedTokenError_j {α d} {Q : α → Prop} {i} (e) (h : J.good i) :
    J.rel c d Q (expectedTokenError i e) (expectedTokenError i e) := B.expectedTokenError e h
theorem unexpectedTokenError_j {α d} {Q : α → Prop} {i} (e) (h : J.good i) :
    J.rel c d Q (unexpectedTokenError i e) (unexpectedTokenError i e) := B.unexpectedTokenError e h
theorem expectedLook_j {α d} {Q : α → Prop} (e) : J.rel c d Q (expectedLook e) (expectedLook e) :=
  B.expectedLook e
theorem unexpectedLook_j {α d} {Q : α → Prop} (e) :
    J.rel c d Q (unexpectedLook e) (unexpectedLook e) := B.unexpectedLook e
theorem reinterpretError_j {α d} {Q : α → Prop} :
    J.rel c d Q (reinterpretError t!"expression" t!"pattern")
      (reinterpretError t!"expression" t!"pattern") := B.reinterpretError
theorem P.fail_j {α d} {Q : α → Prop} {e} (h : FailOk e) : J.rel c d Q (P.fail e) (P.fail e) :=
  B.fail h
theorem P.modC_j {f} (h : ModOk f) : J.rel c false Any (P.modC f) (P.modC f) := B.modC h
theorem P.ignoreErr_j : J.rel c false Any (P.ignoreErr nextItem) (P.ignoreErr nextItem) :=
  B.ignoreNext
theorem expectCommaSep_j : J.rel c false Any expectCommaSep expectCommaSep := B.expectCommaSep
theorem templateElement_j : J.rel c true Any templateElement templateElement := B.templateElement
theorem regexLiteral'_j : J.rel c true Any regexLiteral' regexLiteral' := B.regexLiteral
theorem ifNotTolerant_j {m m' : P Empty} (t : TolOk m) (h : J.rel c false Any m m') :
    J.rel c false Any (ifNotTolerant m) (ifNotTolerant m') := B.ifNotTolerant t h
theorem tolerateError_j {e} (t : TolOk (P.fail e)) (h : FailOk e) :
    J.rel c false Any (tolerateError e) (tolerateError e) := B.ifNotTolerant t (B.fail h)
theorem withLabel_j {α d} {Q : α → Prop} {m m'} (l) (h : J.rel c d Q m m') :
    J.rel c d Q (withLabel l m) (withLabel l m') := B.withLabel l h
theorem untilP_j {σ} {cond cond' : P Bool} {body body' : σ → P σ} {x : σ}
    (hc : J.rel c false Any cond cond') (hb : ∀ x, J.rel c true Any (body x) (body' x)) :
    J.rel c false Any (untilP cond body x) (untilP cond' body' x) := jUntilP hc hb
theorem loopP_j {σ α} {test test' : σ → P (Option α)} {body body' : σ → P (σ ⊕ α)} {x : σ}
    (ht : ∀ x, J.rel c false Any (test x) (test' x))
    (hb : ∀ x, J.rel c true Any (body x) (body' x)) :
    J.rel c false Any (loopP test body x) (loopP test' body' x) := jLoopP ht hb

section
variable {α : Type} {d : Bool} {Q : α → Prop} {m m' : P α} (h : J.rel c d Q m m')
include h

theorem isolated_j : J.rel c d Q (isolated m) (isolated m') := B.inScope .isolated h
theorem inherited_j : J.rel c d Q (inherited m) (inherited m') := B.inScope .inherited h
theorem inScope_j : J.rel c d Q (inScope id inheritCover m) (inScope id inheritCover m') :=
  B.inScope .inheritId h
theorem withAllowIn_j (b) : J.rel c d Q (withAllowIn b m) (withAllowIn b m') :=
  B.inScope (.allowIn b) h
theorem withIteration_j (b) : J.rel c d Q (withIteration b m) (withIteration b m') :=
  B.inScope (.iteration b) h
theorem savingIteration_j : J.rel c d Q (savingIteration m) (savingIteration m') :=
  B.inScope .savingIteration h
theorem withSwitch_j : J.rel c d Q (withSwitch m) (withSwitch m') := B.inScope .switch h
theorem withStrict_j : J.rel c d Q (withStrict m) (withStrict m') := B.inScope .strict h
theorem withDirective_j (b) : J.rel c d Q (withDirective b m) (withDirective b m') :=
  B.inScope (.directive b) h
theorem leakDirective_j (b) : J.rel c d Q (leakDirective b m) (leakDirective b m') :=
  B.inScope (.leakDirective b) h
theorem withAwaitYield_j (a y) : J.rel c d Q (withAwaitYield a y m) (withAwaitYield a y m') :=
  B.inScope (.awaitYield a y) h
theorem withYield_j (b) : J.rel c d Q (withYield b m) (withYield b m') := B.inScope (.yield b) h
theorem savingYield_j : J.rel c d Q (savingYield m) (savingYield m') := B.inScope .savingYield h
theorem withFunctionBody_j : J.rel c d Q (withFunctionBody m) (withFunctionBody m') :=
  B.inScope .functionBody h
end

/-! ## Small functions -/

theorem notTarget_j : J.rel c false Any notTarget notTarget := B.modC .notTarget
theorem setYield_j (b) : J.rel c false Any (setYield b) (setYield b) := B.modC (.setYield b)
theorem skipItem_j :
    J.rel c true Any skipItem skipItem := by
  unfold skipItem; jauto

theorem atPunct_j (p) :
    J.rel c false Any (atPunct p) (atPunct p) := by
  unfold atPunct; jauto

theorem atKeyword_j (k) :
    J.rel c false Any (atKeyword k) (atKeyword k) := by
  unfold atKeyword; jauto

theorem atContextual_j (t) :
    J.rel c false Any (atContextual t) (atContextual t) := by
  unfold atContextual; jauto

theorem expectPunct_j (p) :
    J.rel c true Any (expectPunct p) (expectPunct p) := by
  unfold expectPunct; jauto

theorem expectKeyword_j (k) :
    J.rel c true Any (expectKeyword k) (expectKeyword k) := by
  unfold expectKeyword; jauto

theorem atReturnArg_j :
    J.rel c false Any atReturnArg atReturnArg := by
  unfold atReturnArg; jauto

theorem atQualifiedPropKey_j :
    J.rel c false Any atQualifiedPropKey atQualifiedPropKey := by
  unfold atQualifiedPropKey; jauto

theorem atAssign_j :
    J.rel c false Any atAssign atAssign := by
  unfold atAssign; jauto

theorem isStartOfExpr_j :
    J.rel c false Any isStartOfExpr isStartOfExpr := by
  unfold isStartOfExpr; jauto

theorem consumeSemicolon_j :
    J.rel c false Any consumeSemicolon consumeSemicolon := by
  unfold consumeSemicolon; jauto

theorem lookPrecedence_j :
    J.rel c false Any lookPrecedence lookPrecedence := by
  unfold lookPrecedence; jauto

theorem identName_j :
    J.rel c true Any identName identName := by
  unfold identName; jauto

theorem atPossibleIdent_j :
    J.rel c false Any atPossibleIdent atPossibleIdent := by
  unfold atPossibleIdent; jauto

theorem qualifiedPropName_j :
    J.rel c false Any qualifiedPropName qualifiedPropName := by
  unfold qualifiedPropName; jauto

theorem requireFatArrow_j :
    J.rel c false Any requireFatArrow requireFatArrow := by
  unfold requireFatArrow; jauto

theorem varIdent_j (v) : J.rel c true Any (varIdent v) (varIdent v) :=
  B.varIdent v

theorem fnName_j (isGen) :
    J.rel c true Any (fnName isGen) (fnName isGen) := by
  unfold fnName; jauto

theorem patternIdent_j (isVar) :
    J.rel c true Any (patternIdent isVar) (patternIdent isVar) := by
  unfold patternIdent; jauto

theorem functionDeclName_j (optIdent) :
    J.rel c false (NameGood J) (functionDeclName optIdent) (functionDeclName optIdent) := by
  unfold functionDeclName
  refine B.bindF (Q := Any) (by jauto) fun _ _ => jIte (fun _ => B.pure ?_) fun _ => ?_
  · intro i h; simp at h
  · refine B.bindF B.look fun start hs => B.weakenD (B.bindT (varIdent_j _) fun id _ => ?_)
    refine B.bindF (B.isRestrictedTok hs) fun restricted _ => B.bindF (B.readC _) fun _ _ => ?_
    refine jIte (fun _ => B.expectedTokenError _ hs) fun _ => ?_
    refine B.bindF (B.isStrictReservedTok _) fun reserved _ => B.bindF (B.readC _) fun _ _ => ?_
    refine jIte (fun _ => B.pure ?_) fun _ => B.pure ?_
    · intro i h; simp at h; exact h ▸ hs
    · intro i h; simp at h

theorem checkSetterParams_j (startPos) (params) :
    J.rel c false Any (checkSetterParams startPos params) (checkSetterParams startPos params) := by
  unfold checkSetterParams; jauto

theorem classElCtor_j (hasCtor) (isStatic) (kind) (method) (computed) (key) (value) :
    J.rel c false Any (classElCtor hasCtor isStatic kind method computed key value) (classElCtor hasCtor isStatic kind method computed key value) := by
  unfold classElCtor; jauto

theorem classElFinish_j (hasCtor) (isStatic) (b) :
    J.rel c false Any (classElFinish hasCtor isStatic b) (classElFinish hasCtor isStatic b) := by
  unfold classElFinish; jauto

theorem functionExprName_j (isGen) :
    J.rel c false Any (functionExprName isGen) (functionExprName isGen) := by
  unfold functionExprName; jauto

theorem groupClose_j (ex) :
    J.rel c true Any (groupClose ex) (groupClose ex) := by
  unfold groupClose; jauto

theorem numberOrString'_j :
    J.rel c true Any numberOrString' numberOrString' := by
  unfold numberOrString'; jauto

theorem booleanLiteral'_j :
    J.rel c true Any booleanLiteral' booleanLiteral' := by
  unfold booleanLiteral'; jauto

theorem superExpr_j :
    J.rel c true Any superExpr superExpr := by
  unfold superExpr; jauto

theorem dotMember_j (target) (obj) :
    J.rel c true Any (dotMember target obj) (dotMember target obj) := by
  unfold dotMember; jauto

theorem superCallee_j :
    J.rel c true Any superCallee superCallee := by
  unfold superCallee; jauto

theorem postfixUpdate_j {start} (hstart : J.good start) (expr) :
    J.rel c true Any (postfixUpdate start expr) (postfixUpdate start expr) := by
  unfold postfixUpdate; jauto

theorem unaryOp'_j (t) :
    J.rel c false Any (unaryOp' t) (unaryOp' t) := by
  unfold unaryOp'; jauto

theorem mkBinary'_j (op) (l) (r) :
    J.rel c false Any (mkBinary' op l r) (mkBinary' op l r) := by
  unfold mkBinary'; jauto

theorem reduceWhile'_j (prec) : ∀ ops stack precs,
    J.rel c false Any (reduceWhile' prec ops stack precs) (reduceWhile' prec ops stack precs)
  | op :: ops, right :: left :: stack, [] => B.expectedLook _
  | op :: ops, right :: left :: stack, p :: ps =>
    jIte (fun _ => B.bindF (mkBinary'_j _ _ _) fun e _ => reduceWhile'_j prec ops (e :: stack) ps)
      fun _ => jPure _
  | [], stack, precs => by unfold reduceWhile'; exact jPure _
  | op :: ops, [], precs => by unfold reduceWhile'; exact jPure _
  | op :: ops, [_], precs => by unfold reduceWhile'; exact jPure _

theorem reduceAll'_j : ∀ ops stack cur,
    J.rel c false Any (reduceAll' ops stack cur) (reduceAll' ops stack cur)
  | op :: ops, left :: stack, cur => 
    B.bindF (mkBinary'_j _ _ _) fun e _ => reduceAll'_j ops stack e
  | [], stack, cur => by unfold reduceAll'; exact jPure _
  | op :: ops, [], cur => by unfold reduceAll'; exact jPure _

theorem reinterpretArg_j (arg) :
    J.rel c false Any (reinterpretArg arg) (reinterpretArg arg) := by
  unfold reinterpretArg; jauto

theorem coverFormals_j (params) (a) :
    J.rel c false Any (coverFormals params a) (coverFormals params a) := by
  unfold coverFormals; jauto

theorem assignOp_j {item} (hitem : J.good item) :
    J.rel c false Any (assignOp item) (assignOp item) := by
  unfold assignOp; jauto

theorem checkAssignTarget_j (current) :
    J.rel c false Any (checkAssignTarget current) (checkAssignTarget current) := by
  unfold checkAssignTarget; jauto

theorem commaList_j {m m' : P VariableDecl} (h : J.rel true true Any m m') :
    J.rel true true Any (commaList m) (commaList m') := by
  unfold commaList; jauto

theorem lexicalKind_j {item} (hitem : J.good item) :
    J.rel c false Any (lexicalKind item) (lexicalKind item) := by
  unfold lexicalKind; jauto

theorem forLexicalKind'_j {item} (hitem : J.good item) :
    J.rel c false Any (forLexicalKind' item) (forLexicalKind' item) := by
  unfold forLexicalKind'; jauto

theorem optLabel_j (k) :
    J.rel c true Any (optLabel k) (optLabel k) := by
  unfold optLabel; jauto

theorem debuggerStmt_j :
    J.rel c true Any debuggerStmt debuggerStmt := by
  unfold debuggerStmt; jauto

theorem moduleSpecifier_j :
    J.rel c true Any moduleSpecifier moduleSpecifier := by
  unfold moduleSpecifier; jauto

theorem importSpecifier_j :
    J.rel c true Any importSpecifier importSpecifier := by
  unfold importSpecifier; jauto

theorem namedImports_j :
    J.rel c true Any namedImports namedImports := by
  unfold namedImports; jauto

theorem namespaceSpecifier_j :
    J.rel c true Any namespaceSpecifier namespaceSpecifier := by
  unfold namespaceSpecifier; jauto

theorem defaultImports_j :
    J.rel c true Any defaultImports defaultImports := by
  unfold defaultImports; jauto

theorem importSpecifiers_j :
    J.rel c true Any importSpecifiers importSpecifiers := by
  unfold importSpecifiers; jauto

theorem importDecl_j :
    J.rel c true Any importDecl importDecl := by
  unfold importDecl; jauto

theorem exportSpecifier_j :
    J.rel c true Any exportSpecifier exportSpecifier := by
  unfold exportSpecifier; jauto

theorem exportAll_j :
    J.rel c true Any exportAll exportAll := by
  unfold exportAll; jauto

theorem exportNamed_j :
    J.rel c true Any exportNamed exportNamed := by
  unfold exportNamed; jauto

end

/-! ## Expressions -/

variable {R R' : Rec} [C : Closed J R R']

theorem assign_rec : J.rel true true Any R.assign R'.assign := C.assign
theorem expression_rec : J.rel true true Any R.expression R'.expression := C.expression
theorem unary_rec : J.rel true true Any R.unary R'.unary := C.unary
theorem expo_rec : J.rel true true Any R.expo R'.expo := C.expo
theorem lhs_rec : J.rel true true Any R.lhs R'.lhs := C.lhs
theorem stmt_rec : J.rel true true Any R.stmt R'.stmt := C.stmt
theorem listItem_rec : J.rel true true Any R.listItem R'.listItem := C.listItem
theorem pattern_rec (k) : J.rel true true Any (R.pattern k) (R'.pattern k) := C.pattern k

theorem objectPropertyKey_j :
    J.rel c true Any (objectPropertyKey R) (objectPropertyKey R') := by
  unfold objectPropertyKey; jauto

theorem patternWithDefault_j :
    J.rel true true Any (patternWithDefault R) (patternWithDefault R') := by
  unfold patternWithDefault; jauto

theorem restElement_j :
    J.rel c true Any (restElement R) (restElement R') := by
  unfold restElement; jauto

theorem bindingRestEl_j :
    J.rel c true Any (bindingRestEl R) (bindingRestEl R') := by
  unfold bindingRestEl; jauto

theorem arrayPattern_j :
    J.rel c true Any (arrayPattern R) (arrayPattern R') := by
  unfold arrayPattern; jauto

theorem restProp_j :
    J.rel c true Any (restProp R) (restProp R') := by
  unfold restProp; jauto

theorem propertyPattern_j :
    J.rel c true Any (propertyPattern R) (propertyPattern R') := by
  unfold propertyPattern; jauto

theorem objectPattern_j :
    J.rel c true Any (objectPattern R) (objectPattern R') := by
  unfold objectPattern; jauto

theorem pattern_j (kind) :
    J.rel c true Any (pattern R kind) (pattern R' kind) := by
  unfold pattern; jauto

theorem directive_j :
    J.rel true true Any (directive R) (directive R') := by
  unfold directive; jauto

theorem directivePrologues_j :
    J.rel true false Any (directivePrologues R) (directivePrologues R') := by
  unfold directivePrologues; jauto

theorem functionSourceEl_j :
    J.rel c true Any (functionSourceEl R) (functionSourceEl R') := by
  unfold functionSourceEl; jauto

theorem formalParam_j (simple) :
    J.rel true true Any (formalParam R simple) (formalParam R' simple) := by
  unfold formalParam; jauto

theorem formalParams_j :
    J.rel c true Any (formalParams R) (formalParams R') := by
  unfold formalParams; jauto

theorem functionDecl_j (optIdent) :
    J.rel c true Any (functionDecl R optIdent) (functionDecl R' optIdent) := by
  unfold functionDecl; jauto

theorem propertyMethodBody_j (simple) (r) :
    J.rel c true Any (propertyMethodBody R simple r) (propertyMethodBody R' simple r) := by
  unfold propertyMethodBody; jauto

theorem methodBody_j (simple) (r) :
    J.rel c true Any (methodBody R simple r) (methodBody R' simple r) := by
  unfold methodBody; jauto

theorem asyncPropertyMethod_j :
    J.rel c true Any (asyncPropertyMethod R) (asyncPropertyMethod R') := by
  unfold asyncPropertyMethod; jauto

theorem propertyMethod_j :
    J.rel c true Any (propertyMethod R) (propertyMethod R') := by
  unfold propertyMethod; jauto

theorem generatorMethod_j :
    J.rel c true Any (generatorMethod R) (generatorMethod R') := by
  unfold generatorMethod; jauto

theorem getterMethod_j :
    J.rel c true Any (getterMethod R) (getterMethod R') := by
  unfold getterMethod; jauto

theorem setterMethod_j :
    J.rel c true Any (setterMethod R) (setterMethod R') := by
  unfold setterMethod; jauto

theorem classElHead_j (token) :
    J.rel c true Any (classElHead R token) (classElHead R' token) := by
  unfold classElHead; jauto

theorem classElAccessor_j (h) :
    J.rel true false Any (classElAccessor R h) (classElAccessor R' h) := by
  unfold classElAccessor; jauto

theorem classElMethod_j (a) (b) :
    J.rel c false Any (classElMethod R a b) (classElMethod R' a b) := by
  unfold classElMethod; jauto

theorem classEl_j (hasCtor) :
    J.rel c true Any (classEl R hasCtor) (classEl R' hasCtor) := by
  unfold classEl; jauto

theorem classBody_j :
    J.rel c true Any (classBody R) (classBody R') := by
  unfold classBody; jauto

theorem classHeritage_j :
    J.rel true false Any (classHeritage R) (classHeritage R') := by
  unfold classHeritage; jauto

theorem classDecl_j (optIdent) :
    J.rel c true Any (classDecl R optIdent) (classDecl R' optIdent) := by
  unfold classDecl; jauto

theorem templateLiteral_j :
    J.rel c true Any (templateLiteral R) (templateLiteral R') := by
  unfold templateLiteral; jauto

theorem functionExpr_j :
    J.rel c true Any (functionExpr R) (functionExpr R') := by
  unfold functionExpr; jauto

theorem spreadElement_j :
    J.rel c true Any (spreadElement R) (spreadElement R') := by
  unfold spreadElement; jauto

theorem asyncArg_j :
    J.rel true true Any (asyncArg R) (asyncArg R') := by
  unfold asyncArg; jauto

theorem argList_j {m m' : P Expr} (h : J.rel true true Any m m') :
    J.rel c true Any (argList R m) (argList R' m') := by
  unfold argList; jauto

theorem args_j :
    J.rel c true Any (args R) (args R') := by
  unfold args; jauto

theorem asyncArgs_j :
    J.rel c true Any (asyncArgs R) (asyncArgs R') := by
  unfold asyncArgs; jauto

theorem objPropKey_j {start} (hstart : J.good start) :
    J.rel c true Any (objPropKey R start) (objPropKey R' start) := by
  unfold objPropKey; jauto

theorem objPropRest_j (hasProto) {start} (hstart : J.good start) (startPos) (key) (isAsync) (computed) :
    J.rel true false Any (objPropRest R hasProto start startPos key isAsync computed) (objPropRest R' hasProto start startPos key isAsync computed) := by
  unfold objPropRest; jauto

theorem objProp_j (hasProto) :
    J.rel c true Any (objProp R hasProto) (objProp R' hasProto) := by
  unfold objProp; jauto

theorem objInit_j :
    J.rel c true Any (objInit R) (objInit R') := by
  unfold objInit; jauto

theorem arrayInit_j :
    J.rel c true Any (arrayInit R) (arrayInit R') := by
  unfold arrayInit; jauto

theorem groupLoop_j (first) :
    J.rel true false Any (groupLoop R first) (groupLoop R' first) := by
  unfold groupLoop; jauto

theorem groupExpr_j :
    J.rel c true Any (groupExpr R) (groupExpr R') := by
  unfold groupExpr; jauto

theorem primaryKeyword_j :
    J.rel c true Any (primaryKeyword R) (primaryKeyword R') := by
  unfold primaryKeyword; jauto

theorem primaryPunct_j :
    J.rel c true Any (primaryPunct R) (primaryPunct R') := by
  unfold primaryPunct; jauto

theorem primaryIdent'_j :
    J.rel c true Any (primaryIdent' R) (primaryIdent' R') := by
  unfold primaryIdent'; jauto

theorem primary_j :
    J.rel c true Any (primary R) (primary R') := by
  rw [primary_eq, primary_eq]; unfold primary'; jauto

theorem newExpr_j :
    J.rel c true Any (newExpr R) (newExpr R') := by
  unfold newExpr; jauto

theorem newOrPrimary_j :
    J.rel c true Any (newOrPrimary R) (newOrPrimary R') := by
  unfold newOrPrimary; jauto

theorem computedMember_j (obj) :
    J.rel c true Any (computedMember R obj) (computedMember R' obj) := by
  unfold computedMember; jauto

theorem taggedTemplate_j (tag) :
    J.rel c true Any (taggedTemplate R tag) (taggedTemplate R' tag) := by
  unfold taggedTemplate; jauto

theorem lhsExpr_j :
    J.rel c true Any (lhsExpr R) (lhsExpr R') := by
  unfold lhsExpr; jauto

theorem callSuffix_j (isAsync) (startPos) (callee) :
    J.rel c true Any (callSuffix R isAsync startPos callee) (callSuffix R' isAsync startPos callee) := by
  unfold callSuffix; jauto

theorem lhsAllowCall_j :
    J.rel c true Any (lhsAllowCall R) (lhsAllowCall R') := by
  unfold lhsAllowCall; jauto

theorem prefixUpdate'_j :
    J.rel c true Any (prefixUpdate' R) (prefixUpdate' R') := by
  unfold prefixUpdate'; jauto

theorem updateExpr_j :
    J.rel c true Any (updateExpr R) (updateExpr R') := by
  rw [updateExpr_eq, updateExpr_eq]; unfold updateExpr'; jauto

theorem awaitExpr_j :
    J.rel c true Any (awaitExpr R) (awaitExpr R') := by
  unfold awaitExpr; jauto

theorem prefixUnary'_j :
    J.rel c true Any (prefixUnary' R) (prefixUnary' R') := by
  unfold prefixUnary'; jauto

theorem unaryExpr_j :
    J.rel c true Any (unaryExpr R) (unaryExpr R') := by
  rw [unaryExpr_eq, unaryExpr_eq]; unfold unaryExpr'; jauto

theorem expoExpr_j :
    J.rel c true Any (expoExpr R) (expoExpr R') := by
  unfold expoExpr; jauto

theorem binaryExpr_j :
    J.rel c true Any (binaryExpr R) (binaryExpr R') := by
  rw [binaryExpr_eq, binaryExpr_eq]; unfold binaryExpr'; jauto

theorem conditionalExpr_j :
    J.rel c true Any (conditionalExpr R) (conditionalExpr R') := by
  unfold conditionalExpr; jauto

theorem yieldExpr_j :
    J.rel c true Any (yieldExpr R) (yieldExpr R') := by
  unfold yieldExpr; jauto

theorem arrowBody_j (params) (isAsync) :
    J.rel c true Any (arrowBody R params isAsync) (arrowBody R' params isAsync) := by
  unfold arrowBody; jauto

theorem arrowTail_j (current) :
    J.rel c false Any (arrowTail R current) (arrowTail R' current) := by
  unfold arrowTail; jauto

theorem assignTail_j (current) :
    J.rel c true Any (assignTail R current) (assignTail R' current) := by
  unfold assignTail; jauto

theorem asyncParam_j {start} (hstart : J.good start) (a) (b) (current) :
    J.rel c false Any (asyncParam R start a b current) (asyncParam R' start a b current) := by
  unfold asyncParam; jauto

theorem assignExpr_j :
    J.rel c true Any (assignExpr R) (assignExpr R') := by
  unfold assignExpr; jauto

theorem expression_j :
    J.rel c true Any (expression R) (expression R') := by
  unfold expression; jauto

theorem block_j :
    J.rel c true Any (block R) (block R') := by
  unfold block; jauto

theorem expressionStmt_j :
    J.rel c true Any (expressionStmt R) (expressionStmt R') := by
  unfold expressionStmt; jauto

theorem initializer_j :
    J.rel true true Any (initializer R) (initializer R') := by
  unfold initializer; jauto

theorem varDecl_j (inFor) :
    J.rel true true Any (varDecl R inFor) (varDecl R' inFor) := by
  unfold varDecl; jauto

theorem varDeclList_j (inFor) :
    J.rel true true Any (varDeclList R inFor) (varDeclList R' inFor) := by
  unfold varDeclList; jauto

theorem varStmt_j :
    J.rel c true Any (varStmt R) (varStmt R') := by
  unfold varStmt; jauto

theorem variableDecl_j (inFor) :
    J.rel true true Any (variableDecl R inFor) (variableDecl R' inFor) := by
  unfold variableDecl; jauto

theorem variableDeclList_j (inFor) :
    J.rel true true Any (variableDeclList R inFor) (variableDeclList R' inFor) := by
  unfold variableDeclList; jauto

theorem lexicalInit_j (kind) (inFor) (id) :
    J.rel c false Any (lexicalInit R kind inFor id) (lexicalInit R' kind inFor id) := by
  unfold lexicalInit; jauto

theorem lexicalBinding_j (kind) (inFor) :
    J.rel true true Any (lexicalBinding R kind inFor) (lexicalBinding R' kind inFor) := by
  unfold lexicalBinding; jauto

theorem bindingList_j (kind) (inFor) :
    J.rel true true Any (bindingList R kind inFor) (bindingList R' kind inFor) := by
  unfold bindingList; jauto

theorem lexicalDecl_j (inFor) :
    J.rel c true Any (lexicalDecl R inFor) (lexicalDecl R' inFor) := by
  unfold lexicalDecl; jauto

theorem loopBody_j :
    J.rel c true Any (loopBody R) (loopBody R') := by
  unfold loopBody; jauto

theorem optExpr_j (stop) :
    J.rel true false Any (optExpr R stop) (optExpr R' stop) := by
  unfold optExpr; jauto

theorem forLoopCont_j (init) :
    J.rel c true Any (forLoopCont R init) (forLoopCont R' init) := by
  unfold forLoopCont; jauto

theorem forLoop_j (kind) :
    J.rel true true Any (forLoop R kind) (forLoop R' kind) := by
  unfold forLoop; jauto

theorem forInLoop_j (left) :
    J.rel c true Any (forInLoop R left) (forInLoop R' left) := by
  unfold forInLoop; jauto

theorem forOfLoop_j (left) (isAwait) :
    J.rel c true Any (forOfLoop R left isAwait) (forOfLoop R' left isAwait) := by
  unfold forOfLoop; jauto

theorem forVar_j (isAwait) :
    J.rel c true Any (forVar R isAwait) (forVar R' isAwait) := by
  unfold forVar; jauto

theorem forLexical'_j (isAwait) :
    J.rel c true Any (forLexical' R isAwait) (forLexical' R' isAwait) := by
  unfold forLexical'; jauto

theorem forExpr_j (isAwait) :
    J.rel true true Any (forExpr R isAwait) (forExpr R' isAwait) := by
  unfold forExpr; jauto

theorem forStmt_j :
    J.rel c true Any (forStmt R) (forStmt R') := by
  rw [forStmt_eq, forStmt_eq]; unfold forStmt'; jauto

theorem whileStmt_j :
    J.rel c true Any (whileStmt R) (whileStmt R') := by
  unfold whileStmt; jauto

theorem doWhileStmt_j :
    J.rel c true Any (doWhileStmt R) (doWhileStmt R') := by
  unfold doWhileStmt; jauto

/-- `withStmt` with its check split off. -/
def withStmt' (R : Rec) : P Stmt := do
  withGuard
  expectKeyword .with
  expectPunct .openParen
  let obj ← R.expression
  if ← atPunct .closeParen then
    expectPunct .closeParen
    let body ← R.stmt
    return .with obj body
  else
    ifNotTolerant (expectedLook (words [t!")"]))
    return .with obj .empty

omit C in
theorem withStmt_eq (R : Rec) : withStmt R = withStmt' R := by
  funext s
  rfl

theorem withStmt_j :
    J.rel c true Any (withStmt R) (withStmt R') := by
  rw [withStmt_eq, withStmt_eq]
  unfold withStmt'; jauto

theorem catchClause_j :
    J.rel c true Any (catchClause R) (catchClause R') := by
  unfold catchClause; jauto

theorem finallyClause_j :
    J.rel c true Any (finallyClause R) (finallyClause R') := by
  unfold finallyClause; jauto

theorem tryStmt_j :
    J.rel c true Any (tryStmt R) (tryStmt R') := by
  unfold tryStmt; jauto

theorem throwStmt_j :
    J.rel c true Any (throwStmt R) (throwStmt R') := by
  unfold throwStmt; jauto

theorem caseTest_j :
    J.rel c true Any (caseTest R) (caseTest R') := by
  unfold caseTest; jauto

theorem switchCase_j :
    J.rel c true Any (switchCase R) (switchCase R') := by
  unfold switchCase; jauto

theorem switchStmt_j :
    J.rel c true Any (switchStmt R) (switchStmt R') := by
  unfold switchStmt; jauto

theorem returnStmt_j :
    J.rel c true Any (returnStmt R) (returnStmt R') := by
  unfold returnStmt; jauto

theorem ifClause_j :
    J.rel true true Any (ifClause R) (ifClause R') := by
  unfold ifClause; jauto

theorem ifStmt_j :
    J.rel c true Any (ifStmt R) (ifStmt R') := by
  unfold ifStmt; jauto

theorem fnStmt_j :
    J.rel c true Any (fnStmt R) (fnStmt R') := by
  unfold fnStmt; jauto

theorem labelledBody_j :
    J.rel true true Any (labelledBody R) (labelledBody R') := by
  unfold labelledBody; jauto

theorem labelledStmt_j :
    J.rel c true Any (labelledStmt R) (labelledStmt R') := by
  unfold labelledStmt; jauto

theorem keywordStmt_j (k) :
    J.rel c true Any (keywordStmt R k) (keywordStmt R' k) := by
  unfold keywordStmt; jauto

theorem statement_j :
    J.rel c true Any (statement R) (statement R') := by
  unfold statement; jauto

theorem exportDefault_j :
    J.rel c true Any (exportDefault R) (exportDefault R') := by
  unfold exportDefault; jauto

theorem exportKeyword_j :
    J.rel c true Any (exportKeyword R) (exportKeyword R') := by
  unfold exportKeyword; jauto

theorem exportDecl_j :
    J.rel c true Any (exportDecl R) (exportDecl R') := by
  unfold exportDecl; jauto

theorem stmtPart_j :
    J.rel c true Any (stmtPart R) (stmtPart R') := by
  unfold stmtPart; jauto

theorem statementListItem_j :
    J.rel c true Any (statementListItem R) (statementListItem R') := by
  unfold statementListItem; jauto

/-- One unfolding of the recursion keeps the judgement, whether or not something has been
consumed. -/
structure StepRel (J : Judgement) (c : Bool) (R R' : Rec) : Prop where
  assign : J.rel c true Any R.assign R'.assign
  expression : J.rel c true Any R.expression R'.expression
  unary : J.rel c true Any R.unary R'.unary
  expo : J.rel c true Any R.expo R'.expo
  lhs : J.rel c true Any R.lhs R'.lhs
  stmt : J.rel c true Any R.stmt R'.stmt
  listItem : J.rel c true Any R.listItem R'.listItem
  pattern (k) : J.rel c true Any (R.pattern k) (R'.pattern k)

omit C in
theorem StepRel.closed [Base J] (h : StepRel J true R R') : Closed J R R' :=
  { h with }

theorem step_j : StepRel J c (step R) (step R') where
  assign := assignExpr_j
  expression := expression_j
  unary := unaryExpr_j
  expo := expoExpr_j
  lhs := lhsExpr_j
  stmt := statement_j
  listItem := statementListItem_j
  pattern := pattern_j

end

end Ressa
