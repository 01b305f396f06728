import Verif.Proof.Ren
import Verif.Proof.Traverse

/-!
# The traversal for two texts with other names

As `Verif.Proof.TwinTraverse`, for `RBase`.
-/

namespace Ressa

set_option linter.unusedSectionVars false

section
variable {J : TJ} {ρ : Txt → Txt} {c : Bool} [W : Words ρ]

section
variable [B : RBase J ρ]
include B

/-! ## Primitives -/

omit W in
theorem P.when_n {a a' : P Bool} {m m' : P Unit} (h : J.rel c false (RQ ρ) a a')
    (k : J.rel c false (RQ ρ) m m') : J.rel c false (RQ ρ) (P.when a m) (P.when a' m') :=
  nRenF h fun b => ren_Bool ρ b ▸ tIte (fun _ => k) fun _ => nPure rfl

omit W in
theorem P.and_n {a a' b b' : P Bool} (h : J.rel c false (RQ ρ) a a')
    (k : J.rel c false (RQ ρ) b b') : J.rel c false (RQ ρ) (P.and a b) (P.and a' b') :=
  nRenF h fun b => ren_Bool ρ b ▸ tIte (fun _ => k) fun _ => nPure rfl

omit W in
theorem P.or_n {a a' b b' : P Bool} (h : J.rel c false (RQ ρ) a a')
    (k : J.rel c false (RQ ρ) b b') : J.rel c false (RQ ρ) (P.or a b) (P.or a' b') :=
  nRenF h fun b => ren_Bool ρ b ▸ tIte (fun _ => nPure rfl) fun _ => k

omit W in
theorem P.not_n {a a' : P Bool} (h : J.rel c false (RQ ρ) a a') :
    J.rel c false (RQ ρ) (P.not a) (P.not a') :=
  nRenF h fun _ => nPure rfl

omit W
theorem nextItem_n : J.rel c true J.item nextItem nextItem := B.nextItem
theorem look_n : J.rel c false J.item look look := B.look
theorem readC_n (f : Ctx → Bool)
    (h : ∀ x o l, f { x with firstCovert := o, labelSet := l } = f x) :
    J.rel c false (RQ ρ) (readC f) (readC f) := B.readC f h
theorem lookTok_n : J.rel c false (RQ ρ) lookTok lookTok := B.lookTok
theorem lookIs_n (f) : J.rel c false (RQ ρ) (lookIs f) (lookIs f) := B.lookIs f
theorem lookPos_n : J.rel c false J.pos lookPos lookPos := B.lookPos
theorem withGuard_n : J.rel c false (RQ ρ) withGuard withGuard := B.withGuard
theorem isRestrictedTok_n {i i'} (hg : J.item i i') :
    J.rel c false (RQ ρ) (isRestrictedTok i) (isRestrictedTok i') :=
  B.isRestrictedTok hg
theorem isStrictReservedTok_n (t) :
    J.rel c false (RQ ρ) (isStrictReservedTok t) (isStrictReservedTok t) := B.isStrictReservedTok t
theorem isLiteralTok_n (t) : J.rel c false (RQ ρ) (isLiteralTok t) (isLiteralTok t) :=
  B.isLiteralTok t
theorem atImportCall_n : J.rel c false (RQ ρ) atImportCall atImportCall := B.atImportCall
theorem atLexicalDecl_n : J.rel c false (RQ ρ) atLexicalDecl atLexicalDecl := B.atLexicalDecl
theorem atAsyncFunction_n : J.rel c false (RQ ρ) atAsyncFunction atAsyncFunction :=
  B.atAsyncFunction
theorem streamSlice_n {i i'} (h : J.item i i') :
    J.rel c false (RQ ρ) (streamSlice i) (streamSlice i') := B.streamSlice h
theorem getString_n {i i'} (h : J.item i i') : J.rel c false (RQ ρ) (getString i) (getString i') :=
  B.getString h
theorem stringForOrEmpty_n {i i'} (h : J.item i i') :
    J.rel c false (RQ ρ) (stringForOrEmpty i) (stringForOrEmpty i') := B.stringForOrEmpty h
theorem expectedTokenError_n {α d} {Q : α → α → Prop} {i i'} (e e') (h : J.item i i') :
    J.rel c d Q (expectedTokenError i e) (expectedTokenError i' e') := B.expectedTokenError e e' h
theorem unexpectedTokenError_n {α d} {Q : α → α → Prop} {i i'} (e e') (h : J.item i i') :
    J.rel c d Q (unexpectedTokenError i e) (unexpectedTokenError i' e') :=
  B.unexpectedTokenError e e' h
theorem expectedLook_n {α d} {Q : α → α → Prop} (e e') :
    J.rel c d Q (expectedLook e) (expectedLook e') := B.expectedLook e e'
theorem unexpectedLook_n {α d} {Q : α → α → Prop} (e e') :
    J.rel c d Q (unexpectedLook e) (unexpectedLook e') := B.unexpectedLook e e'
theorem reinterpretError_n {α d} {Q : α → α → Prop} (a b) :
    J.rel c d Q (reinterpretError a b) (reinterpretError a b) := B.reinterpretError a b
theorem P.fail_n {α d} {Q : α → α → Prop} {e e'} (h : RFailOk J e e') :
    J.rel c d Q (P.fail e) (P.fail e') := B.fail h
theorem P.modC_n {f f'} (h : TModOk f f') : J.rel c false (RQ ρ) (P.modC f) (P.modC f') := B.modC h
theorem P.ignoreErr_n : J.rel c false (RQ ρ) (P.ignoreErr nextItem) (P.ignoreErr nextItem) :=
  B.ignoreNext
theorem expectCommaSep_n : J.rel c false (RQ ρ) expectCommaSep expectCommaSep := B.expectCommaSep
theorem templateElement_n : J.rel c true (RQ ρ) templateElement templateElement := B.templateElement
theorem regexLiteral'_n : J.rel c true (RQ ρ) regexLiteral' regexLiteral' := B.regexLiteral
theorem ifNotTolerant_n {m m' : P Empty} (h : J.rel c false (RQ ρ) m m') :
    J.rel c false (RQ ρ) (ifNotTolerant m) (ifNotTolerant m') := B.ifNotTolerant h
theorem tolerateError_n {e e'} (h : RFailOk J e e') :
    J.rel c false (RQ ρ) (tolerateError e) (tolerateError e') := B.ifNotTolerant (B.fail h)
theorem withLabel_n {α d} {Q : α → α → Prop} {m m'} (l) (h : J.rel c d Q m m') :
    J.rel c d Q (withLabel l m) (withLabel (ρ l) m') := B.withLabel l h
theorem untilP_n {σ} [Ren σ] {cond cond' : P Bool} {body body' : σ → P σ} {x x' : σ}
    (hx : x' = ren ρ x) (hc : J.rel c false (RQ ρ) cond cond')
    (hb : ∀ x, J.rel c true (RQ ρ) (body x) (body' (ren ρ x))) :
    J.rel c false (RQ ρ) (untilP cond body x) (untilP cond' body' x') := nUntilP hx hc hb
theorem loopP_n {σ α} [Ren σ] [Ren α] {test test' : σ → P (Option α)} {body body' : σ → P (σ ⊕ α)}
    {x x' : σ} (hx : x' = ren ρ x)
    (ht : ∀ x, J.rel c false (RQ ρ) (test x) (test' (ren ρ x)))
    (hb : ∀ x, J.rel c true (RQ ρ) (body x) (body' (ren ρ x))) :
    J.rel c false (RQ ρ) (loopP test body x) (loopP test' body' x') := B.loopP hx ht hb

section
variable {α : Type} {d : Bool} {Q : α → α → Prop} {m m' : P α} (h : J.rel c d Q m m')
include h

theorem isolated_n : J.rel c d Q (isolated m) (isolated m') := B.inScope .isolated h
theorem inherited_n : J.rel c d Q (inherited m) (inherited m') := B.inScope .inherited h
theorem inScope_n : J.rel c d Q (inScope id inheritCover m) (inScope id inheritCover m') :=
  B.inScope .inheritId h
theorem withAllowIn_n (b) : J.rel c d Q (withAllowIn b m) (withAllowIn b m') :=
  B.inScope (.allowIn b) h
theorem withIteration_n (b) : J.rel c d Q (withIteration b m) (withIteration b m') :=
  B.inScope (.iteration b) h
theorem savingIteration_n : J.rel c d Q (savingIteration m) (savingIteration m') :=
  B.inScope .savingIteration h
theorem withSwitch_n : J.rel c d Q (withSwitch m) (withSwitch m') := B.inScope .switch h
theorem withStrict_n : J.rel c d Q (withStrict m) (withStrict m') := B.inScope .strict h
theorem withDirective_n (b) : J.rel c d Q (withDirective b m) (withDirective b m') :=
  B.inScope (.directive b) h
theorem leakDirective_n (b) : J.rel c d Q (leakDirective b m) (leakDirective b m') :=
  B.inScope (.leakDirective b) h
theorem withAwaitYield_n (a y) : J.rel c d Q (withAwaitYield a y m) (withAwaitYield a y m') :=
  B.inScope (.awaitYield a y) h
theorem withYield_n (b) : J.rel c d Q (withYield b m) (withYield b m') := B.inScope (.yield b) h
theorem savingYield_n : J.rel c d Q (savingYield m) (savingYield m') := B.inScope .savingYield h
theorem withFunctionBody_n : J.rel c d Q (withFunctionBody m) (withFunctionBody m') :=
  B.inScope .functionBody h
end

include W
/-! ## Small functions -/

theorem notTarget_n : J.rel c false (RQ ρ) notTarget notTarget := B.modC (.same .notTarget)
theorem setYield_n (b) : J.rel c false (RQ ρ) (setYield b) (setYield b) := B.modC (.same (.setYield b))
theorem skipItem_n :
    J.rel c true (RQ ρ) skipItem skipItem := by
  unfold skipItem; rauto

theorem atPunct_n (p) :
    J.rel c false (RQ ρ) (atPunct p) (atPunct p) := by
  unfold atPunct; rauto

theorem atKeyword_n (k) :
    J.rel c false (RQ ρ) (atKeyword k) (atKeyword k) := by
  unfold atKeyword; rauto

theorem atContextual_n {t} (h : t ∈ specialWords) :
    J.rel c false (RQ ρ) (atContextual t) (atContextual t) := by
  unfold atContextual
  refine nItemF B.look fun _ _ _ hi => nRenF (B.streamSlice hi) fun w => nPure ?_
  exact Words.beq h w

theorem expectPunct_n (p) :
    J.rel c true (RQ ρ) (expectPunct p) (expectPunct p) := by
  unfold expectPunct; rauto

theorem expectKeyword_n (k) :
    J.rel c true (RQ ρ) (expectKeyword k) (expectKeyword k) := by
  unfold expectKeyword; rauto

theorem atReturnArg_n :
    J.rel c false (RQ ρ) atReturnArg atReturnArg := by
  unfold atReturnArg; rauto

theorem atQualifiedPropKey_n :
    J.rel c false (RQ ρ) atQualifiedPropKey atQualifiedPropKey := by
  unfold atQualifiedPropKey; rauto

theorem atAssign_n :
    J.rel c false (RQ ρ) atAssign atAssign := by
  unfold atAssign; rauto

theorem isStartOfExpr_n :
    J.rel c false (RQ ρ) isStartOfExpr isStartOfExpr := by
  unfold isStartOfExpr; rauto

theorem consumeSemicolon_n :
    J.rel c false (RQ ρ) consumeSemicolon consumeSemicolon := by
  unfold consumeSemicolon; rauto

theorem lookPrecedence_n :
    J.rel c false (RQ ρ) lookPrecedence lookPrecedence := by
  unfold lookPrecedence; rauto

theorem identName_n :
    J.rel c true (RQ ρ) identName identName := by
  unfold identName; rauto

theorem atPossibleIdent_n :
    J.rel c false (RQ ρ) atPossibleIdent atPossibleIdent := by
  unfold atPossibleIdent; rauto

theorem qualifiedPropName_n :
    J.rel c false (RQ ρ) qualifiedPropName qualifiedPropName := by
  unfold qualifiedPropName; rauto

theorem requireFatArrow_n :
    J.rel c false (RQ ρ) requireFatArrow requireFatArrow := by
  unfold requireFatArrow; rauto

theorem varIdent_n (v) : J.rel c true (RQ ρ) (varIdent v) (varIdent v) :=
  B.varIdent v

theorem fnName_n (isGen) :
    J.rel c true (RQ ρ) (fnName isGen) (fnName isGen) := by
  unfold fnName; rauto

theorem patternIdent_n (isVar) :
    J.rel c true (RQ ρ) (patternIdent isVar) (patternIdent isVar) := by
  unfold patternIdent; rauto

theorem functionDeclName_n (optIdent) :
    J.rel c false (NameRen J ρ) (functionDeclName optIdent) (functionDeclName optIdent) := by
  unfold functionDeclName
  refine nRenF (by rauto) fun _ => tIte (fun _ => B.pure (.none _)) fun _ => ?_
  refine nItemF B.look fun t sp sp' hs => B.weakenD (nRenT (varIdent_n _) fun id => ?_)
  refine nRenF (B.isRestrictedTok hs) fun restricted => ?_
  simp only [ren_simp]
  refine nRenF (B.readC _ fun _ _ _ => rfl) fun _ => ?_
  refine tIte (fun _ => B.expectedTokenError _ _ hs) fun _ => ?_
  refine nRenF (B.isStrictReservedTok _) fun reserved => ?_
  simp only [ren_simp]
  refine nRenF (B.readC _ fun _ _ _ => rfl) fun _ => ?_
  exact tIte (fun _ => B.pure (.some (some id) hs)) fun _ => B.pure (.none (some id))

theorem checkSetterParams_n {p p'} (hp : J.pos p p') (params) {params'} (h_params : params' = ren ρ params) :
    J.rel c false (RQ ρ) (checkSetterParams p params) (checkSetterParams p' params') := by
  subst h_params
  unfold checkSetterParams
  rcases params with _ | ⟨a, _ | ⟨b, l⟩⟩ <;> rauto

theorem classElCtor_n (hasCtor) (isStatic) (kind) (method) (computed) (key) {key'} (h_key : key' = ren ρ key) (value) {value'} (h_value : value' = ren ρ value) :
    J.rel c false (RQ ρ) (classElCtor hasCtor isStatic kind method computed key value) (classElCtor hasCtor isStatic kind method computed key' value') := by
  subst h_key; subst h_value; unfold classElCtor; rauto

theorem classElFinish_n (hasCtor) (isStatic) (b) {b'} (h_b : b' = ren ρ b) :
    J.rel c false (RQ ρ) (classElFinish hasCtor isStatic b) (classElFinish hasCtor isStatic b') := by
  subst h_b; unfold classElFinish; rauto

theorem functionExprName_n (isGen) :
    J.rel c false (RQ ρ) (functionExprName isGen) (functionExprName isGen) := by
  unfold functionExprName; rauto

theorem groupClose_n (ex) {ex'} (h_ex : ex' = ren ρ ex) :
    J.rel c true (RQ ρ) (groupClose ex) (groupClose ex') := by
  subst h_ex; unfold groupClose; rauto

theorem numberOrString'_n :
    J.rel c true (RQ ρ) numberOrString' numberOrString' := by
  unfold numberOrString'
  refine nRenF notTarget_n fun _ => nItemT B.nextItem fun t sp sp' hi => ?_
  dsimp only
  split
  · exact nRenF (B.stringForOrEmpty hi) fun _ => nPure (by simp only [ren_simp])
  · exact nRenF (B.stringForOrEmpty hi) fun _ => nPure (by simp only [ren_simp])
  · rauto

theorem booleanLiteral'_n :
    J.rel c true (RQ ρ) booleanLiteral' booleanLiteral' := by
  unfold booleanLiteral'; rauto

theorem superExpr_n :
    J.rel c true (RQ ρ) superExpr superExpr := by
  unfold superExpr; rauto

theorem dotMember_n (target) (obj) {obj'} (h_obj : obj' = ren ρ obj) :
    J.rel c true (RQ ρ) (dotMember target obj) (dotMember target obj') := by
  subst h_obj; unfold dotMember; rauto

theorem superCallee_n :
    J.rel c true (RQ ρ) superCallee superCallee := by
  unfold superCallee; rauto

theorem postfixUpdate_n {t sp sp'} (hstart : J.item ⟨t, sp⟩ ⟨t, sp'⟩) (expr) {expr'} (h_expr : expr' = ren ρ expr) :
    J.rel c true (RQ ρ) (postfixUpdate ⟨t, sp⟩ expr) (postfixUpdate ⟨t, sp'⟩ expr') := by
  subst h_expr; unfold postfixUpdate; rauto

theorem unaryOp'_n (t) :
    J.rel c false (RQ ρ) (unaryOp' t) (unaryOp' t) := by
  unfold unaryOp'; rauto

theorem mkBinary'_n (op) (l) {l'} (h_l : l' = ren ρ l) (r) {r'} (h_r : r' = ren ρ r) :
    J.rel c false (RQ ρ) (mkBinary' op l r) (mkBinary' op l' r') := by
  subst h_l; subst h_r; unfold mkBinary'; rauto

theorem reduceWhile'_n (prec) : ∀ ops stack precs {stack'}, stack' = ren ρ stack →
    J.rel c false (RQ ρ) (reduceWhile' prec ops stack precs) (reduceWhile' prec ops stack' precs)
  | op :: ops, right :: left :: stack, [], _, rfl => B.expectedLook _ _
  | op :: ops, right :: left :: stack, p :: ps, _, rfl =>
    tIte (fun _ => nRenF (mkBinary'_n _ _ rfl _ rfl) fun e =>
      reduceWhile'_n prec ops (e :: stack) ps rfl) fun _ => nPure rfl
  | [], stack, precs, _, rfl => by unfold reduceWhile'; exact nPure rfl
  | op :: ops, [], precs, _, rfl => by unfold reduceWhile'; exact nPure rfl
  | op :: ops, [_], precs, _, rfl => by unfold reduceWhile'; exact nPure rfl

theorem reduceAll'_n : ∀ ops stack cur {stack' cur'}, stack' = ren ρ stack → cur' = ren ρ cur →
    J.rel c false (RQ ρ) (reduceAll' ops stack cur) (reduceAll' ops stack' cur')
  | op :: ops, left :: stack, cur, _, _, rfl, rfl =>
    nRenF (mkBinary'_n _ _ rfl _ rfl) fun e => reduceAll'_n ops stack e rfl rfl
  | [], stack, cur, _, _, rfl, rfl => by unfold reduceAll'; exact nPure rfl
  | op :: ops, [], cur, _, _, rfl, rfl => by unfold reduceAll'; exact nPure rfl

theorem reinterpretArg_n (arg) {arg'} (h_arg : arg' = ren ρ arg) :
    J.rel c false (RQ ρ) (reinterpretArg arg) (reinterpretArg arg') := by
  subst h_arg; unfold reinterpretArg; rauto

theorem coverFormals_n (params) {params'} (h_params : params' = ren ρ params) (a) :
    J.rel c false (RQ ρ) (coverFormals params a) (coverFormals params' a) := by
  subst h_params
  unfold coverFormals
  have h1 : List.map (coverParam a) (ren ρ params) = ren ρ (List.map (coverParam a) params) := by
    rw [ren_map, ren_map, List.map_map, List.map_map]
    exact List.map_congr_left fun p _ => coverParam_ren ρ a p
  rw [h1]
  generalize List.map (coverParam a) params = l
  dsimp only
  rw [show (ren ρ l).any (fun x => x.2) = l.any (fun x => x.2) by
    induction l with
    | nil => rfl
    | cons p l ih => simp only [ren_simp, List.any_cons, ih],
    show (ren ρ l).any (fun x => isYieldArg x.1) = l.any (fun x => isYieldArg x.1) by
    induction l with
    | nil => rfl
    | cons p l ih => simp only [ren_simp, List.any_cons, ih],
    show List.map (fun x => x.1) (ren ρ l) = ren ρ (List.map (fun x => x.1) l) by
    induction l with
    | nil => rfl
    | cons p l ih => simp only [ren_simp, List.map_cons, ih]]
  refine tIte (fun _ => B.expectedLook _ _) fun _ => ?_
  exact nRenF (B.readC _ fun _ _ _ => rfl) fun _ => tIte (fun _ => B.expectedLook _ _) fun _ =>
    nPure rfl

theorem assignOp_n {t sp sp'} (hitem : J.item ⟨t, sp⟩ ⟨t, sp'⟩) :
    J.rel c false (RQ ρ) (assignOp ⟨t, sp⟩) (assignOp ⟨t, sp'⟩) := by
  unfold assignOp; rauto

theorem checkAssignTarget_n (current) {current'} (h_current : current' = ren ρ current) :
    J.rel c false (RQ ρ) (checkAssignTarget current) (checkAssignTarget current') := by
  subst h_current; unfold checkAssignTarget; rauto

theorem commaList_n {m m' : P VariableDecl} (h : J.rel true true (RQ ρ) m m') :
    J.rel true true (RQ ρ) (commaList m) (commaList m') := by
  unfold commaList; rauto

theorem lexicalKind_n {t sp sp'} (hitem : J.item ⟨t, sp⟩ ⟨t, sp'⟩) :
    J.rel c false (RQ ρ) (lexicalKind ⟨t, sp⟩) (lexicalKind ⟨t, sp'⟩) := by
  unfold lexicalKind; rauto

theorem forLexicalKind'_n {t sp sp'} (hitem : J.item ⟨t, sp⟩ ⟨t, sp'⟩) :
    J.rel c false (RQ ρ) (forLexicalKind' ⟨t, sp⟩) (forLexicalKind' ⟨t, sp'⟩) := by
  unfold forLexicalKind'; rauto

theorem optLabel_n (k) :
    J.rel c true (RQ ρ) (optLabel k) (optLabel k) := by
  unfold optLabel; rauto

theorem debuggerStmt_n :
    J.rel c true (RQ ρ) debuggerStmt debuggerStmt := by
  unfold debuggerStmt; rauto

theorem moduleSpecifier_n :
    J.rel c true (RQ ρ) moduleSpecifier moduleSpecifier := by
  unfold moduleSpecifier; rauto

theorem importSpecifier_n :
    J.rel c true (RQ ρ) importSpecifier importSpecifier := by
  unfold importSpecifier; rauto

theorem namedImports_n :
    J.rel c true (RQ ρ) namedImports namedImports := by
  unfold namedImports; rauto

theorem namespaceSpecifier_n :
    J.rel c true (RQ ρ) namespaceSpecifier namespaceSpecifier := by
  unfold namespaceSpecifier; rauto

theorem defaultImports_n :
    J.rel c true (RQ ρ) defaultImports defaultImports := by
  unfold defaultImports; rauto

theorem importSpecifiers_n :
    J.rel c true (RQ ρ) importSpecifiers importSpecifiers := by
  unfold importSpecifiers; rauto

theorem importDecl_n :
    J.rel c true (RQ ρ) importDecl importDecl := by
  unfold importDecl; rauto

theorem exportSpecifier_n :
    J.rel c true (RQ ρ) exportSpecifier exportSpecifier := by
  unfold exportSpecifier; rauto

theorem exportAll_n :
    J.rel c true (RQ ρ) exportAll exportAll := by
  unfold exportAll; rauto

theorem exportNamed_n :
    J.rel c true (RQ ρ) exportNamed exportNamed := by
  unfold exportNamed; rauto

end

/-! ## Expressions -/

variable {R R' : Rec} [C : RClosed J ρ R R']
include W C

theorem assign_nrec : J.rel true true (RQ ρ) R.assign R'.assign := C.assign
theorem expression_nrec : J.rel true true (RQ ρ) R.expression R'.expression := C.expression
theorem unary_nrec : J.rel true true (RQ ρ) R.unary R'.unary := C.unary
theorem expo_nrec : J.rel true true (RQ ρ) R.expo R'.expo := C.expo
theorem lhs_nrec : J.rel true true (RQ ρ) R.lhs R'.lhs := C.lhs
theorem stmt_nrec : J.rel true true (RQ ρ) R.stmt R'.stmt := C.stmt
theorem listItem_nrec : J.rel true true (RQ ρ) R.listItem R'.listItem := C.listItem
theorem pattern_nrec (k) : J.rel true true (RQ ρ) (R.pattern k) (R'.pattern k) := C.pattern k

theorem objectPropertyKey_n :
    J.rel c true (RQ ρ) (objectPropertyKey R) (objectPropertyKey R') := by
  unfold objectPropertyKey; rauto

theorem patternWithDefault_n :
    J.rel true true (RQ ρ) (patternWithDefault R) (patternWithDefault R') := by
  unfold patternWithDefault; rauto

theorem restElement_n :
    J.rel c true (RQ ρ) (restElement R) (restElement R') := by
  unfold restElement; rauto

theorem bindingRestEl_n :
    J.rel c true (RQ ρ) (bindingRestEl R) (bindingRestEl R') := by
  unfold bindingRestEl; rauto

theorem arrayPattern_n :
    J.rel c true (RQ ρ) (arrayPattern R) (arrayPattern R') := by
  unfold arrayPattern; rauto

theorem restProp_n :
    J.rel c true (RQ ρ) (restProp R) (restProp R') := by
  unfold restProp; rauto

theorem propertyPattern_n :
    J.rel c true (RQ ρ) (propertyPattern R) (propertyPattern R') := by
  unfold propertyPattern; rauto

theorem objectPattern_n :
    J.rel c true (RQ ρ) (objectPattern R) (objectPattern R') := by
  unfold objectPattern; rauto

theorem pattern_n (kind) :
    J.rel c true (RQ ρ) (pattern R kind) (pattern R' kind) := by
  unfold pattern; rauto

theorem directive_n :
    J.rel true true (RQ ρ) (directive R) (directive R') := by
  unfold directive
  refine nItemF C.look fun t sp sp' hi => nRenT C.expression fun e => ?_
  cases e with
  | literal l => cases l <;> rauto
  | _ => rauto

theorem directivePrologues_n :
    J.rel true false (RQ ρ) (directivePrologues R) (directivePrologues R') := by
  unfold directivePrologues; rauto

theorem functionSourceEl_n :
    J.rel c true (RQ ρ) (functionSourceEl R) (functionSourceEl R') := by
  unfold functionSourceEl; rauto

theorem formalParam_n (simple) :
    J.rel true true (RQ ρ) (formalParam R simple) (formalParam R' simple) := by
  unfold formalParam; rauto

theorem formalParams_n :
    J.rel c true (RQ ρ) (formalParams R) (formalParams R') := by
  unfold formalParams; rauto

theorem functionDecl_n (optIdent) :
    J.rel c true (RQ ρ) (functionDecl R optIdent) (functionDecl R' optIdent) := by
  unfold functionDecl; rauto

theorem propertyMethodBody_n (simple) (r) :
    J.rel c true (RQ ρ) (propertyMethodBody R simple r) (propertyMethodBody R' simple r) := by
  unfold propertyMethodBody; rauto

theorem methodBody_n (simple) (r) :
    J.rel c true (RQ ρ) (methodBody R simple r) (methodBody R' simple r) := by
  unfold methodBody; rauto

theorem asyncPropertyMethod_n :
    J.rel c true (RQ ρ) (asyncPropertyMethod R) (asyncPropertyMethod R') := by
  unfold asyncPropertyMethod; rauto

theorem propertyMethod_n :
    J.rel c true (RQ ρ) (propertyMethod R) (propertyMethod R') := by
  unfold propertyMethod; rauto

theorem generatorMethod_n :
    J.rel c true (RQ ρ) (generatorMethod R) (generatorMethod R') := by
  unfold generatorMethod; rauto

theorem getterMethod_n :
    J.rel c true (RQ ρ) (getterMethod R) (getterMethod R') := by
  unfold getterMethod; rauto

theorem setterMethod_n :
    J.rel c true (RQ ρ) (setterMethod R) (setterMethod R') := by
  unfold setterMethod; rauto

theorem classElHead_n (token) :
    J.rel c true (RQ ρ) (classElHead R token) (classElHead R' token) := by
  unfold classElHead; rauto

theorem classElAccessor_n (h) {h'} (h_h : h' = ren ρ h) :
    J.rel true false (RQ ρ) (classElAccessor R h) (classElAccessor R' h') := by
  subst h_h; unfold classElAccessor; rauto

theorem classElMethod_n (a) (b) {b'} (h_b : b' = ren ρ b) :
    J.rel c false (RQ ρ) (classElMethod R a b) (classElMethod R' a b') := by
  subst h_b; unfold classElMethod; rauto

theorem classEl_n (hasCtor) :
    J.rel c true (RQ ρ) (classEl R hasCtor) (classEl R' hasCtor) := by
  unfold classEl; rauto

theorem classBody_n :
    J.rel c true (RQ ρ) (classBody R) (classBody R') := by
  unfold classBody; rauto

theorem classHeritage_n :
    J.rel true false (RQ ρ) (classHeritage R) (classHeritage R') := by
  unfold classHeritage; rauto

theorem classDecl_n (optIdent) :
    J.rel c true (RQ ρ) (classDecl R optIdent) (classDecl R' optIdent) := by
  unfold classDecl; rauto

theorem templateLiteral_n :
    J.rel c true (RQ ρ) (templateLiteral R) (templateLiteral R') := by
  unfold templateLiteral; rauto

theorem functionExpr_n :
    J.rel c true (RQ ρ) (functionExpr R) (functionExpr R') := by
  unfold functionExpr; rauto

theorem spreadElement_n :
    J.rel c true (RQ ρ) (spreadElement R) (spreadElement R') := by
  unfold spreadElement; rauto

theorem asyncArg_n :
    J.rel true true (RQ ρ) (asyncArg R) (asyncArg R') := by
  unfold asyncArg; rauto

theorem argList_n {m m' : P Expr} (h : J.rel true true (RQ ρ) m m') :
    J.rel c true (RQ ρ) (argList R m) (argList R' m') := by
  unfold argList; rauto

theorem args_n :
    J.rel c true (RQ ρ) (args R) (args R') := by
  unfold args; rauto

theorem asyncArgs_n :
    J.rel c true (RQ ρ) (asyncArgs R) (asyncArgs R') := by
  unfold asyncArgs; rauto

theorem objPropKey_n {t sp sp'} (hstart : J.item ⟨t, sp⟩ ⟨t, sp'⟩) :
    J.rel c true (RQ ρ) (objPropKey R ⟨t, sp⟩) (objPropKey R' ⟨t, sp'⟩) := by
  unfold objPropKey; rauto

theorem objPropRest_n (hasProto) {t sp sp'} (hstart : J.item ⟨t, sp⟩ ⟨t, sp'⟩) {p p'} (hp : J.pos p p') (key) {key'} (h_key : key' = ren ρ key) (isAsync) (computed) :
    J.rel true false (RQ ρ) (objPropRest R hasProto ⟨t, sp⟩ p key isAsync computed)
      (objPropRest R' hasProto ⟨t, sp'⟩ p' key' isAsync computed) := by
  subst h_key; unfold objPropRest; rauto

theorem objProp_n (hasProto) :
    J.rel c true (RQ ρ) (objProp R hasProto) (objProp R' hasProto) := by
  unfold objProp; rauto

theorem objInit_n :
    J.rel c true (RQ ρ) (objInit R) (objInit R') := by
  unfold objInit; rauto

theorem arrayInit_n :
    J.rel c true (RQ ρ) (arrayInit R) (arrayInit R') := by
  unfold arrayInit; rauto

theorem groupLoop_n (first) {first'} (h_first : first' = ren ρ first) :
    J.rel true false (RQ ρ) (groupLoop R first) (groupLoop R' first') := by
  subst h_first; unfold groupLoop; rauto

theorem groupExpr_n :
    J.rel c true (RQ ρ) (groupExpr R) (groupExpr R') := by
  unfold groupExpr; rauto

theorem primaryKeyword_n :
    J.rel c true (RQ ρ) (primaryKeyword R) (primaryKeyword R') := by
  unfold primaryKeyword; rauto

theorem primaryPunct_n :
    J.rel c true (RQ ρ) (primaryPunct R) (primaryPunct R') := by
  unfold primaryPunct; rauto

theorem primaryIdent'_n :
    J.rel c true (RQ ρ) (primaryIdent' R) (primaryIdent' R') := by
  unfold primaryIdent'; rauto

theorem primary_n :
    J.rel c true (RQ ρ) (primary R) (primary R') := by
  rw [primary_eq, primary_eq]; unfold primary'; rauto

theorem newExpr_n :
    J.rel c true (RQ ρ) (newExpr R) (newExpr R') := by
  unfold newExpr; rauto

theorem newOrPrimary_n :
    J.rel c true (RQ ρ) (newOrPrimary R) (newOrPrimary R') := by
  unfold newOrPrimary; rauto

theorem computedMember_n (obj) {obj'} (h_obj : obj' = ren ρ obj) :
    J.rel c true (RQ ρ) (computedMember R obj) (computedMember R' obj') := by
  subst h_obj; unfold computedMember; rauto

theorem taggedTemplate_n (tag) {tag'} (h_tag : tag' = ren ρ tag) :
    J.rel c true (RQ ρ) (taggedTemplate R tag) (taggedTemplate R' tag') := by
  subst h_tag; unfold taggedTemplate; rauto

theorem lhsExpr_n :
    J.rel c true (RQ ρ) (lhsExpr R) (lhsExpr R') := by
  unfold lhsExpr; rauto

theorem callSuffix_n (isAsync) {p p'} (hp : J.pos p p') (callee) {callee'}
    (h_callee : callee' = ren ρ callee) :
    J.rel c true (RQ ρ) (callSuffix R isAsync p callee) (callSuffix R' isAsync p' callee') := by
  subst h_callee
  unfold callSuffix
  refine nPosF C.lookPos fun q q' hq => ?_
  rw [C.line hp hq]
  rauto

theorem lhsAllowCall_n :
    J.rel c true (RQ ρ) (lhsAllowCall R) (lhsAllowCall R') := by
  unfold lhsAllowCall; rauto

theorem prefixUpdate'_n :
    J.rel c true (RQ ρ) (prefixUpdate' R) (prefixUpdate' R') := by
  unfold prefixUpdate'; rauto

theorem updateExpr_n :
    J.rel c true (RQ ρ) (updateExpr R) (updateExpr R') := by
  rw [updateExpr_eq, updateExpr_eq]; unfold updateExpr'; rauto

theorem awaitExpr_n :
    J.rel c true (RQ ρ) (awaitExpr R) (awaitExpr R') := by
  unfold awaitExpr; rauto

theorem prefixUnary'_n :
    J.rel c true (RQ ρ) (prefixUnary' R) (prefixUnary' R') := by
  unfold prefixUnary'; rauto

theorem unaryExpr_n :
    J.rel c true (RQ ρ) (unaryExpr R) (unaryExpr R') := by
  rw [unaryExpr_eq, unaryExpr_eq]; unfold unaryExpr'; rauto

theorem expoExpr_n :
    J.rel c true (RQ ρ) (expoExpr R) (expoExpr R') := by
  unfold expoExpr; rauto

theorem binaryExpr_n :
    J.rel c true (RQ ρ) (binaryExpr R) (binaryExpr R') := by
  rw [binaryExpr_eq, binaryExpr_eq]; unfold binaryExpr'; rauto

theorem conditionalExpr_n :
    J.rel c true (RQ ρ) (conditionalExpr R) (conditionalExpr R') := by
  unfold conditionalExpr; rauto

theorem yieldExpr_n :
    J.rel c true (RQ ρ) (yieldExpr R) (yieldExpr R') := by
  unfold yieldExpr; rauto

theorem arrowBody_n (params) {params'} (h_params : params' = ren ρ params) (isAsync) :
    J.rel c true (RQ ρ) (arrowBody R params isAsync) (arrowBody R' params' isAsync) := by
  subst h_params; unfold arrowBody; rauto

theorem arrowTail_n (current) {current'} (h_current : current' = ren ρ current) :
    J.rel c false (RQ ρ) (arrowTail R current) (arrowTail R' current') := by
  subst h_current; unfold arrowTail; rauto

theorem assignTail_n (current) {current'} (h_current : current' = ren ρ current) :
    J.rel c true (RQ ρ) (assignTail R current) (assignTail R' current') := by
  subst h_current; unfold assignTail; rauto

theorem asyncParam_n {t sp sp'} (hstart : J.item ⟨t, sp⟩ ⟨t, sp'⟩) {a b a' b'}
    (hl : (b' == a') = (b == a)) (current) {current'} (h_current : current' = ren ρ current) :
    J.rel c false (RQ ρ) (asyncParam R ⟨t, sp⟩ a b current) (asyncParam R' ⟨t, sp'⟩ a' b' current') := by
  subst h_current; unfold asyncParam; rw [hl]; rauto

theorem assignExpr_n :
    J.rel c true (RQ ρ) (assignExpr R) (assignExpr R') := by
  unfold assignExpr
  refine nRenF (by rauto) fun _ => tIte (fun _ => by rauto) fun _ => ?_
  refine nItemF C.look fun t sp sp' hs => nPosF C.lookPos fun p p' hp => ?_
  refine nRenT (by rauto) fun _ => nPosF C.lookPos fun q q' hq => ?_
  refine nRenF (asyncParam_n hs (C.line hq hp) _ rfl) fun _ => ?_
  rauto

theorem expression_n :
    J.rel c true (RQ ρ) (expression R) (expression R') := by
  unfold expression; rauto

theorem block_n :
    J.rel c true (RQ ρ) (block R) (block R') := by
  unfold block; rauto

theorem expressionStmt_n :
    J.rel c true (RQ ρ) (expressionStmt R) (expressionStmt R') := by
  unfold expressionStmt; rauto

theorem initializer_n :
    J.rel true true (RQ ρ) (initializer R) (initializer R') := by
  unfold initializer; rauto

theorem varDecl_n (inFor) :
    J.rel true true (RQ ρ) (varDecl R inFor) (varDecl R' inFor) := by
  unfold varDecl; rauto

theorem varDeclList_n (inFor) :
    J.rel true true (RQ ρ) (varDeclList R inFor) (varDeclList R' inFor) := by
  unfold varDeclList; rauto

theorem varStmt_n :
    J.rel c true (RQ ρ) (varStmt R) (varStmt R') := by
  unfold varStmt; rauto

theorem variableDecl_n (inFor) :
    J.rel true true (RQ ρ) (variableDecl R inFor) (variableDecl R' inFor) := by
  unfold variableDecl; rauto

theorem variableDeclList_n (inFor) :
    J.rel true true (RQ ρ) (variableDeclList R inFor) (variableDeclList R' inFor) := by
  unfold variableDeclList; rauto

theorem lexicalInit_n (kind) (inFor) (id) {id'} (h_id : id' = ren ρ id) :
    J.rel c false (RQ ρ) (lexicalInit R kind inFor id) (lexicalInit R' kind inFor id') := by
  subst h_id; unfold lexicalInit; rauto

theorem lexicalBinding_n (kind) (inFor) :
    J.rel true true (RQ ρ) (lexicalBinding R kind inFor) (lexicalBinding R' kind inFor) := by
  unfold lexicalBinding; rauto

theorem bindingList_n (kind) (inFor) :
    J.rel true true (RQ ρ) (bindingList R kind inFor) (bindingList R' kind inFor) := by
  unfold bindingList; rauto

theorem lexicalDecl_n (inFor) :
    J.rel c true (RQ ρ) (lexicalDecl R inFor) (lexicalDecl R' inFor) := by
  unfold lexicalDecl; rauto

theorem loopBody_n :
    J.rel c true (RQ ρ) (loopBody R) (loopBody R') := by
  unfold loopBody; rauto

theorem optExpr_n (stop) :
    J.rel true false (RQ ρ) (optExpr R stop) (optExpr R' stop) := by
  unfold optExpr; rauto

theorem forLoopCont_n (init) {init'} (h_init : init' = ren ρ init) :
    J.rel c true (RQ ρ) (forLoopCont R init) (forLoopCont R' init') := by
  subst h_init; unfold forLoopCont; rauto

theorem forLoop_n (kind) :
    J.rel true true (RQ ρ) (forLoop R kind) (forLoop R' kind) := by
  unfold forLoop; rauto

theorem forInLoop_n (left) {left'} (h_left : left' = ren ρ left) :
    J.rel c true (RQ ρ) (forInLoop R left) (forInLoop R' left') := by
  subst h_left; unfold forInLoop; rauto

theorem forOfLoop_n (left) {left'} (h_left : left' = ren ρ left) (isAwait) :
    J.rel c true (RQ ρ) (forOfLoop R left isAwait) (forOfLoop R' left' isAwait) := by
  subst h_left; unfold forOfLoop; rauto

theorem forVar_n (isAwait) :
    J.rel c true (RQ ρ) (forVar R isAwait) (forVar R' isAwait) := by
  unfold forVar
  refine nRenT skipItem_n fun _ => C.weakenD (nRenT (by rauto) fun l => ?_)
  rcases l with _ | ⟨a, _ | ⟨b, l⟩⟩ <;> rauto

theorem forLexical'_n (isAwait) :
    J.rel c true (RQ ρ) (forLexical' R isAwait) (forLexical' R' isAwait) := by
  unfold forLexical'
  refine nItemT C.nextItem fun t sp sp' hi => nRenF (by rauto) fun kind => ?_
  refine nRenF (by rauto) fun b => tIte (fun _ => ?_) fun _ => ?_
  · rauto
  · refine C.weakenD (nRenT (by rauto) fun l => ?_)
    rcases l with _ | ⟨a, _ | ⟨b, l⟩⟩ <;> rauto

theorem forExpr_n (isAwait) :
    J.rel true true (RQ ρ) (forExpr R isAwait) (forExpr R' isAwait) := by
  unfold forExpr; rauto

theorem forStmt_n :
    J.rel c true (RQ ρ) (forStmt R) (forStmt R') := by
  rw [forStmt_eq, forStmt_eq]; unfold forStmt'; rauto

theorem whileStmt_n :
    J.rel c true (RQ ρ) (whileStmt R) (whileStmt R') := by
  unfold whileStmt; rauto

theorem doWhileStmt_n :
    J.rel c true (RQ ρ) (doWhileStmt R) (doWhileStmt R') := by
  unfold doWhileStmt; rauto

theorem withStmt_n :
    J.rel c true (RQ ρ) (withStmt R) (withStmt R') := by
  rw [withStmt_eq, withStmt_eq]
  unfold withStmt'; rauto

theorem catchClause_n :
    J.rel c true (RQ ρ) (catchClause R) (catchClause R') := by
  unfold catchClause; rauto

theorem finallyClause_n :
    J.rel c true (RQ ρ) (finallyClause R) (finallyClause R') := by
  unfold finallyClause; rauto

theorem tryStmt_n :
    J.rel c true (RQ ρ) (tryStmt R) (tryStmt R') := by
  unfold tryStmt; rauto

theorem throwStmt_n :
    J.rel c true (RQ ρ) (throwStmt R) (throwStmt R') := by
  unfold throwStmt; rauto

theorem caseTest_n :
    J.rel c true (RQ ρ) (caseTest R) (caseTest R') := by
  unfold caseTest; rauto

theorem switchCase_n :
    J.rel c true (RQ ρ) (switchCase R) (switchCase R') := by
  unfold switchCase; rauto

theorem switchStmt_n :
    J.rel c true (RQ ρ) (switchStmt R) (switchStmt R') := by
  unfold switchStmt; rauto

theorem returnStmt_n :
    J.rel c true (RQ ρ) (returnStmt R) (returnStmt R') := by
  unfold returnStmt; rauto

theorem ifClause_n :
    J.rel true true (RQ ρ) (ifClause R) (ifClause R') := by
  unfold ifClause; rauto

theorem ifStmt_n :
    J.rel c true (RQ ρ) (ifStmt R) (ifStmt R') := by
  unfold ifStmt; rauto

theorem fnStmt_n :
    J.rel c true (RQ ρ) (fnStmt R) (fnStmt R') := by
  unfold fnStmt; rauto

theorem labelledBody_n :
    J.rel true true (RQ ρ) (labelledBody R) (labelledBody R') := by
  unfold labelledBody; rauto

theorem labelledStmt_n :
    J.rel c true (RQ ρ) (labelledStmt R) (labelledStmt R') := by
  unfold labelledStmt; rauto

theorem keywordStmt_n (k) :
    J.rel c true (RQ ρ) (keywordStmt R k) (keywordStmt R' k) := by
  unfold keywordStmt; rauto

theorem statement_n :
    J.rel c true (RQ ρ) (statement R) (statement R') := by
  unfold statement; rauto

theorem exportDefault_n :
    J.rel c true (RQ ρ) (exportDefault R) (exportDefault R') := by
  unfold exportDefault; rauto

theorem exportKeyword_n :
    J.rel c true (RQ ρ) (exportKeyword R) (exportKeyword R') := by
  unfold exportKeyword; rauto

theorem exportDecl_n :
    J.rel c true (RQ ρ) (exportDecl R) (exportDecl R') := by
  unfold exportDecl; rauto

theorem stmtPart_n :
    J.rel c true (RQ ρ) (stmtPart R) (stmtPart R') := by
  unfold stmtPart; rauto

theorem statementListItem_n :
    J.rel c true (RQ ρ) (statementListItem R) (statementListItem R') := by
  unfold statementListItem; rauto

/-- One unfolding of the recursion keeps the judgement, whether or not something has been
consumed. -/
structure RStepRel (J : TJ) (ρ : Txt → Txt) (c : Bool) (R R' : Rec) : Prop where
  assign : J.rel c true (RQ ρ) R.assign R'.assign
  expression : J.rel c true (RQ ρ) R.expression R'.expression
  unary : J.rel c true (RQ ρ) R.unary R'.unary
  expo : J.rel c true (RQ ρ) R.expo R'.expo
  lhs : J.rel c true (RQ ρ) R.lhs R'.lhs
  stmt : J.rel c true (RQ ρ) R.stmt R'.stmt
  listItem : J.rel c true (RQ ρ) R.listItem R'.listItem
  pattern (k) : J.rel c true (RQ ρ) (R.pattern k) (R'.pattern k)

omit C in
theorem RStepRel.closed [RBase J ρ] (h : RStepRel J ρ true R R') : RClosed J ρ R R' :=
  { h with }

theorem step_n : RStepRel J ρ c (step R) (step R') where
  assign := assignExpr_n
  expression := expression_n
  unary := unaryExpr_n
  expo := expoExpr_n
  lhs := lhsExpr_n
  stmt := statement_n
  listItem := statementListItem_n
  pattern := pattern_n

end

end Ressa
