import Verif.Model.State

/-!
# Expressions, patterns, functions and classes

Each Rust method `parse_x` becomes a non-recursive definition taking a record `R : Rec` of the
mutually recursive entry points.  `Verif.Model.Api` ties the knot.  A call goes through `R`
exactly where the source recurses after having consumed at least one item; a call that happens
before anything has been consumed is direct, which is possible because those calls are acyclic.
-/

namespace Ressa

/-- The mutually recursive entry points. -/
structure Rec where
  /-- `parse_assignment_expr` -/
  assign : P Expr
  /-- `parse_expression` -/
  expression : P Expr
  /-- `parse_unary_expression` -/
  unary : P Expr
  /-- `parse_exponentiation_expression` -/
  expo : P Expr
  /-- `parse_left_hand_side_expr` -/
  lhs : P Expr
  /-- `parse_statement` -/
  stmt : P Stmt
  /-- `parse_statement_list_item` -/
  listItem : P ProgramPart
  /-- `parse_pattern`.  Its `params` argument is only ever pushed to, never read, and is
  dropped here and in every caller. -/
  pattern : Option VariableKind → P (Bool × Pat)

/-- An expectation list made of literal texts. -/
def words (l : List Txt) : List Expect := l.map .text

/-! ## Tests on syntax -/

/-- `is_ident` (src/lib.rs:3766-3771). -/
def isIdentExpr : Expr → Bool
  | .ident _ => true
  | _ => false

/-- `is_ident` and `is_restricted_word` on the name (src/lib.rs:3696-3699, 3729-3731). -/
def isRestrictedIdent : Expr → Bool
  | .ident i => isRestrictedWord i
  | _ => false

/-- `is_pat_ident` (src/lib.rs:1633-1638). -/
def isPatIdent : Pat → Bool
  | .identifier _ => true
  | _ => false

/-- `is_restricted` on patterns (src/lib.rs:1675-1680). -/
def isRestrictedPat : Pat → Bool
  | .identifier i => isRestrictedWord i
  | _ => false

/-- `is_key` (src/lib.rs:1989-2004); `is_static` (2017-2032) is `is_key(key, "static")`. -/
def isKey (key : PropertyKey) (other : Txt) : Bool :=
  match key with
  | .literal (.string s) => s == other
  | .expr (.ident s) => s == other
  | .pat (.identifier s) => s == other
  | _ => false

/-- `is_generator` (src/lib.rs:2006-2015). -/
def isGeneratorValue : PropertyValue → Bool
  | .expr (.function (.mk _ _ _ g _)) => g
  | .expr (.arrowBlock _ _ _ g _) => g
  | .expr (.arrowExpr _ _ _ g _) => g
  | _ => false

/-- `is_rest` (src/lib.rs:2153-2164). -/
def isRestArg : FunctionArg → Bool
  | .expr (.spread _) => true
  | .pat (.restElement _) => true
  | _ => false

/-- `is_proto_` (src/lib.rs:2664-2672). -/
def isProto : PropertyKey → Bool
  | .literal (.string s) => s == t!"_proto_"
  | _ => false

/-- `is_valid_property_key_literal` together with the match that follows it
(src/lib.rs:2224-2234, 2253-2261): the inner `_` arm cannot be reached. -/
def computedKey : Expr → PropertyKey
  | .literal (.string s) => .literal (.string s)
  | .literal (.number s) => .literal (.number s)
  | .literal (.boolean b) => .literal (.boolean b)
  | e => .expr e

/-- `is_async` (src/lib.rs:3189-3196). -/
def isAsyncExpr : Expr → Bool
  | .function (.mk _ _ _ _ a) => a
  | .arrowBlock _ _ _ _ a => a
  | .arrowExpr _ _ _ _ a => a
  | .arrowParamPlaceHolder _ b => b
  | _ => false

/-- `is_arrow_param_placeholder` (src/lib.rs:3219-3224). -/
def isPlaceHolder : Expr → Bool
  | .arrowParamPlaceHolder _ _ => true
  | _ => false

/-- `is_await` (src/lib.rs:3303-3314). -/
def isAwaitArg : FunctionArg → Bool
  | .expr (.ident i) => i == t!"await"
  | .pat (.identifier i) => i == t!"await"
  | _ => false

/-- `is_simple` (src/lib.rs:3329-3340). -/
def isSimpleArg : FunctionArg → Bool
  | .pat (.identifier _) => true
  | .expr (.ident _) => true
  | _ => false

/-- `assignment_operator` (src/lib.rs:3198-3217). -/
def assignmentOperator : Punct → Option AssignmentOperator
  | .assign => some .equal
  | .addAssign => some .plusEqual
  | .subtractAssign => some .minusEqual
  | .multiplyAssign => some .timesEqual
  | .divideAssign => some .divEqual
  | .moduloAssign => some .modEqual
  | .leftShiftAssign => some .leftShiftEqual
  | .rightShiftAssign => some .rightShiftEqual
  | .unsignedRightShiftAssign => some .unsignedRightShiftEqual
  | .bitwiseOrAssign => some .orEqual
  | .bitwiseXOrAssign => some .xOrEqual
  | .bitwiseAndAssign => some .andEqual
  | .exponentAssign => some .powerOfEqual
  | _ => none

/-- `unary_operator` (src/lib.rs:3609-3626). -/
def unaryOperator : Token → Option UnaryOperator
  | .punct .minus => some .minus
  | .punct .plus => some .plus
  | .punct .not => some .not
  | .punct .bitwiseNot => some .tilde
  | .keyword .typeOf => some .typeOf
  | .keyword .void => some .void
  | .keyword .delete => some .delete
  | _ => none

/-- `binary_operator` (src/lib.rs:3628-3659). -/
def binaryOperator : Token → Option BinaryOperator
  | .keyword .instanceOf => some .instanceOf
  | .keyword .in => some .in
  | .punct .equal => some .equal
  | .punct .notEqual => some .notEqual
  | .punct .strictEquals => some .strictEqual
  | .punct .strictNotEquals => some .strictNotEqual
  | .punct .lessThan => some .lessThan
  | .punct .lessThanEqual => some .lessThanEqual
  | .punct .greaterThan => some .greaterThan
  | .punct .greaterThanEqual => some .greaterThanEqual
  | .punct .leftShift => some .leftShift
  | .punct .rightShift => some .rightShift
  | .punct .unsignedRightShift => some .unsignedRightShift
  | .punct .plus => some .plus
  | .punct .minus => some .minus
  | .punct .asterisk => some .times
  | .punct .forwardSlash => some .over
  | .punct .modulo => some .mod
  | .punct .and => some .and
  | .punct .pipe => some .or
  | .punct .caret => some .xOr
  | _ => none

/-- `logical_operator` (src/lib.rs:3661-3670). -/
def logicalOperator : Token → Option LogicalOperator
  | .punct .logicalAnd => some .and
  | .punct .logicalOr => some .or
  | _ => none

/-- `determine_precedence` (src/lib.rs:4075-4097). -/
def determinePrecedence : Punct → Nat
  | .closeParen | .semiColon | .comma | .assign | .closeBracket => 0
  | .logicalOr => 1
  | .logicalAnd => 2
  | .pipe => 3
  | .caret => 4
  | .and => 5
  | .equal | .notEqual | .strictEquals | .strictNotEquals => 6
  | .greaterThan | .lessThan | .lessThanEqual | .greaterThanEqual => 7
  | .leftShift | .rightShift | .unsignedRightShift => 8
  | .plus | .minus => 9
  | .asterisk | .forwardSlash | .modulo => 11
  | _ => 0

/-- `bin_precedence` (src/lib.rs:4060-4072). -/
def binPrecedence (allowIn : Bool) : Token → Nat
  | .punct p => determinePrecedence p
  | .keyword k => if k == .instanceOf || (allowIn && k == .in) then 7 else 0
  | _ => 0

/-- `self.bin_precedence(&self.look_ahead.token)`. -/
def lookPrecedence : P Nat := do
  let a ← readC (·.allowIn)
  return binPrecedence a (← lookTok)

/-! ## Identifiers -/

/-- `parse_ident_name` (src/lib.rs:2792-2809).  The first `get_string` (2794) only feeds a log
line and has no effect. -/
def identName : P Txt := do
  let ident ← nextItem
  getString ident

/-- The end of `parse_var_ident` (src/lib.rs:2830-2835). -/
def varIdentText (ident : Item) : P Txt :=
  match ident.token with
  | .ident => stringForOrEmpty ident
  | .keyword k => pure k.text
  | _ => expectedTokenError ident (words [t!"variable identifier"])

/-- `parse_var_ident` (src/lib.rs:2811-2836). -/
def varIdent (isVar : Bool) : P Txt := do
  let ident ← nextItem
  if ident.token.matchesKeyword .yield then
    if ← readC (fun c => c.strict || !c.allowYield) then
      expectedTokenError ident (words [t!"variable identifier"])
    else varIdentText ident
  else if !ident.token.isIdent then
    if ← P.and (readC (·.strict)) (isStrictReservedTok ident.token) then
      expectedTokenError ident (words [t!"variable identifier"])
    else if ← readC (fun c => c.strict || ident.token.matchesKeyword .let || !isVar) then
      expectedTokenError ident (words [t!"variable identifier"])
    else varIdentText ident
  else if ← P.and (P.or readModule (readC (·.await)))
      (do return (← streamSlice ident) == t!"await") then
    expectedTokenError ident (words [t!"variable identifier"])
  else varIdentText ident

/-- `parse_fn_name` (src/lib.rs:2783-2790). -/
def fnName (isGen : Bool) : P Txt := do
  if ← P.and (readC (fun c => c.strict && !isGen)) (atKeyword .yield) then identName
  else varIdent false

/-- `at_possible_ident` (src/lib.rs:2674-2679). -/
def atPossibleIdent : P Bool := lookIs fun t => t.isIdent || t.isKeyword || t.isBool || t.isNull

/-- `Self::qualified_prop_name(&self.look_ahead.token)` (src/lib.rs:2192-2198). -/
def qualifiedPropName : P Bool := do
  let tok ← lookTok
  P.or (pure (tok.isIdent || tok.isKeyword))
    (P.or (isLiteralTok tok) (pure (tok.matchesPunct .openBracket)))

/-! ## Property keys and patterns -/

/-- `parse_object_property_key` (src/lib.rs:2200-2251).  The arm at 2210 cannot be reached: the
token is a string or a number there. -/
def objectPropertyKey (R : Rec) : P PropertyKey := do
  let item ← nextItem
  if item.token.isString then
    return .literal (.string (← getString item))
  else if item.token.isNumber then
    return .literal (.number (← getString item))
  else if item.token.isIdent || item.token.isBool || item.token.isNull || item.token.isKeyword then
    return .expr (.ident (← getString item))
  else if item.token.matchesPunct .openBracket then
    let key ← isolated R.assign
    expectPunct .closeBracket
    return computedKey key
  else
    expectedTokenError item (words [t!"[string]", t!"[number]", t!"[ident]", t!"[boolean]",
      t!"null", t!"[keyword]", t!"["])

/-- `parse_pattern_with_default` (src/lib.rs:2903-2923). -/
def patternWithDefault (R : Rec) : P (Bool × Pat) := do
  let (restricted, ret) ← R.pattern none
  if ← atPunct .assign then
    skipItem
    let right ← withYield true (isolated R.assign)
    return (restricted, .assignment ret right)
  else return (restricted, ret)

/-- `parse_rest_element` (src/lib.rs:2883-2895). -/
def restElement (R : Rec) : P (Bool × Pat) := do
  expectPunct .spread
  let (restricted, arg) ← R.pattern none
  if ← atPunct .assign then expectedLook (words [t!"not assignment"])
  else if ← atPunct .closeParen then return (restricted, .restElement arg)
  else expectedLook (words [t!")"])

/-- `parse_binding_rest_el` (src/lib.rs:2897-2901). -/
def bindingRestEl (R : Rec) : P (Bool × Pat) := do
  expectPunct .spread
  R.pattern none

/-- `parse_array_pattern` (src/lib.rs:2957-2985). -/
def arrayPattern (R : Rec) : P (Bool × Pat) := do
  expectPunct .openBracket
  let elements ← loopP
    (fun (acc : List (Option ArrayPatPart)) => do
      if ← atPunct .closeBracket then pure (some acc) else pure none)
    (fun acc => do
      if ← atPunct .comma then
        skipItem
        return .inl (acc ++ [none])
      else if ← atPunct .spread then
        let (_, el) ← bindingRestEl R
        return .inr (acc ++ [some (.pat el)])
      else
        let (_, el) ← patternWithDefault R
        P.when (P.not (atPunct .closeBracket)) (expectPunct .comma)
        return .inl (acc ++ [some (.pat el)]))
    []
  expectPunct .closeBracket
  return (false, .array elements)

/-- `parse_rest_prop` (src/lib.rs:3006-3019). -/
def restProp (R : Rec) : P ObjectPatPart := do
  expectPunct .spread
  let (_, arg) ← R.pattern none
  return .rest (.restElement arg)

/-- `parse_property_pattern` (src/lib.rs:3021-3058). -/
def propertyPattern (R : Rec) : P ObjectPatPart := do
  if ← lookIs (·.isIdent) then
    let name ← varIdent false
    if ← atPunct .assign then
      expectPunct .assign
      let e ← R.assign
      return .assignment (.mk (.expr (.ident name)) (.expr e) .init false false true)
    else if ← atPunct .colon then
      expectPunct .colon
      let (_, p) ← patternWithDefault R
      return .assignment (.mk (.expr (.ident name)) (.pat p) .init false false false)
    else
      return .assignment (.mk (.expr (.ident name)) .none .init false false true)
  else
    let computed ← atPunct .openBracket
    let key ← objectPropertyKey R
    expectPunct .colon
    let (_, v) ← patternWithDefault R
    return .assignment (.mk key (.pat v) .init false computed false)

/-- `parse_object_pattern` (src/lib.rs:2987-3004). -/
def objectPattern (R : Rec) : P (Bool × Pat) := do
  expectPunct .openBrace
  let body ← untilP (atPunct .closeBrace)
    (fun (acc : List ObjectPatPart) => do
      let el ← (do if ← atPunct .spread then restProp R else propertyPattern R : P ObjectPatPart)
      P.when (P.not (atPunct .closeBrace)) (expectPunct .comma)
      return acc ++ [el])
    []
  expectPunct .closeBrace
  return (false, .object body)

/-- The identifier case of `parse_pattern` (src/lib.rs:2950-2953). -/
def patternIdent (isVar : Bool) : P (Bool × Pat) := do
  let ident ← varIdent isVar
  return (isRestrictedWord ident, .identifier ident)

/-- `parse_pattern` (src/lib.rs:2925-2955). -/
def pattern (R : Rec) (kind : Option VariableKind) : P (Bool × Pat) := do
  if ← atPunct .openBracket then arrayPattern R
  else if ← atPunct .openBrace then objectPattern R
  else
    match kind with
    | some .const | some .let =>
      if ← atKeyword .let then expectedLook (words [t!"identifier"]) else patternIdent false
    | some .var | none => patternIdent true

/-! ## Function bodies and parameters -/

/-- `parse_directive` (src/lib.rs:524-546).  `Literal::Template` is the separate constructor
`Expr.template` and takes the arm of line 539 like every other non-string literal. -/
def directive (R : Rec) : P ProgramPart := do
  let orig ← look
  let expr ← R.expression
  match expr with
  | .literal (.string s) =>
    if ← readC (fun c => !c.allowStrictDirective && s == t!"use strict") then
      unexpectedTokenError orig t!"use strict in an invalid location"
    else
      consumeSemicolon
      return .dir s (trimQuotes s)
  | .literal lit => return .stmt (.expr (.literal lit))
  | .template es qs => return .stmt (.expr (.template es qs))
  | e =>
    consumeSemicolon
    return .stmt (.expr e)

/-- `parse_directive_prologues` (src/lib.rs:512-522). -/
def directivePrologues (R : Rec) : P (List ProgramPart) :=
  untilP (lookIs (fun t => !t.isString)) (fun acc => do return acc ++ [← directive R]) []

/-- `parse_function_source_el` (src/lib.rs:1754-1778). -/
def functionSourceEl (R : Rec) : P (List ProgramPart) := do
  expectPunct .openBrace
  let dirs ← directivePrologues R
  withFunctionBody do
    let body ← untilP (P.or (lookIs (·.isEof)) (atPunct .closeBrace))
      (fun acc => do return acc ++ [← R.listItem]) dirs
    expectPunct .closeBrace
    pure body

/-- `FormalParams` (src/lib.rs:4567-4572).  `strict` is always `false` (2863). -/
structure FormalParams where
  simple : Bool
  params : List FunctionArg
  foundRestricted : Bool

/-- `parse_formal_param` (src/lib.rs:2869-2881). -/
def formalParam (R : Rec) (simple : Bool) : P (Bool × Bool × FunctionArg) := do
  let (restricted, pat) ←
    (do if ← atPunct .spread then restElement R else patternWithDefault R : P (Bool × Pat))
  return (simple && isSimpleArg (.pat pat), restricted, .pat pat)

/-- `parse_formal_params` (src/lib.rs:2838-2867). -/
def formalParams (R : Rec) : P FormalParams := do
  expectPunct .openParen
  let ps ← (do
    if ← atPunct .closeParen then pure ⟨true, [], false⟩
    else
      loopP
        (fun (acc : FormalParams) => do
          if ← lookIs (·.isEof) then pure (some acc) else pure none)
        (fun acc => do
          let (s, r, arg) ← formalParam R acc.simple
          let acc' : FormalParams :=
            ⟨acc.simple && s, acc.params ++ [arg], acc.foundRestricted || r⟩
          if ← atPunct .closeParen then return .inr acc'
          else
            expectPunct .comma
            if ← atPunct .closeParen then return .inr acc' else return .inl acc')
        ⟨true, [], false⟩ : P FormalParams)
  expectPunct .closeParen
  pure ps

/-- The optional name of a function declaration and `first_restricted`
(src/lib.rs:1700-1720). -/
def functionDeclName (optIdent : Bool) : P (Option Txt × Option Item) := do
  if ← P.and (pure optIdent) (atPunct .openParen) then pure (none, none)
  else
    let start ← look
    let id ← varIdent false
    let restricted ← isRestrictedTok start
    if ← readC (fun c => c.strict && restricted) then expectedTokenError start []
    else
      let reserved ← isStrictReservedTok start.token
      if ← readC (fun c => !c.strict && (restricted || reserved)) then pure (some id, some start)
      else pure (some id, none)

/-- `parse_function_decl` (src/lib.rs:1682-1752).  The check at 1738-1740 needs
`formal_params.strict`, which is always `false`. -/
def functionDecl (R : Rec) (optIdent : Bool) : P Function := do
  let isAsync ← (do
    if ← atContextual t!"async" then
      skipItem
      pure true
    else pure false : P Bool)
  expectKeyword .function
  let isGen ← (do
    if ← P.and (pure (!isAsync)) (atPunct .asterisk) then
      skipItem
      pure true
    else pure false : P Bool)
  let (id, firstRestricted) ← functionDeclName optIdent
  withAwaitYield isAsync (!isGen) do
    let ps ← formalParams R
    withDirective ps.simple do
      let body ← functionSourceEl R
      match firstRestricted with
      | some item =>
        if ← readC (·.strict) then expectedTokenError item []
        else return .mk id ps.params body isGen isAsync
      | none => return .mk id ps.params body isGen isAsync

/-! ## Methods and classes -/

/-- `parse_property_method_body` (src/lib.rs:2166-2190). -/
def propertyMethodBody (R : Rec) (simple foundRestricted : Bool) : P (List ProgramPart) := do
  notTarget
  withDirective simple do
    let startPos ← lookPos
    let ret ← inherited (functionSourceEl R)
    P.when (readC (fun c => c.strict && foundRestricted))
      (tolerateError (.nonStrictFeatureInStrictContext startPos t!"restriced ident"))
    pure ret

/-- `parse_method_body` (src/lib.rs:2109-2126). -/
def methodBody (R : Rec) (simple foundRestricted : Bool) : P (List ProgramPart) := do
  notTarget
  withDirective simple do
    let start ← look
    let body ← isolated (functionSourceEl R)
    P.when (readC (fun c => c.strict && foundRestricted))
      (ifNotTolerant (unexpectedTokenError start t!"restricted ident"))
    pure body

/-- `parse_async_property_method` (src/lib.rs:2034-2052). -/
def asyncPropertyMethod (R : Rec) : P PropertyValue :=
  withAwaitYield true false do
    let ps ← formalParams R
    let body ← propertyMethodBody R ps.simple ps.foundRestricted
    return .expr (.function (.mk none ps.params body false true))

/-- `parse_property_method` (src/lib.rs:2054-2069). -/
def propertyMethod (R : Rec) : P PropertyValue :=
  withYield false do
    let ps ← formalParams R
    let body ← propertyMethodBody R ps.simple ps.foundRestricted
    return .expr (.function (.mk none ps.params body false false))

/-- `parse_generator_method` (src/lib.rs:2071-2087). -/
def generatorMethod (R : Rec) : P PropertyValue :=
  withYield true do
    let ps ← formalParams R
    setYield false
    let body ← methodBody R ps.simple ps.foundRestricted
    return .expr (.function (.mk none ps.params body true false))

/-- `parse_getter_method` (src/lib.rs:2089-2107). -/
def getterMethod (R : Rec) : P PropertyValue :=
  savingYield do
    let startPos ← lookPos
    let ps ← formalParams R
    P.when (pure (decide (ps.params.length > 0))) (tolerateError (.invalidGetterParams startPos))
    let body ← methodBody R ps.simple ps.foundRestricted
    return .expr (.function (.mk none ps.params body false false))

/-- The parameter check of `parse_setter_method` (src/lib.rs:2135-2141). -/
def checkSetterParams (startPos : Position) (params : List FunctionArg) : P Unit :=
  match params with
  | [param] =>
    if isRestArg param then tolerateError (.invalidSetterParams startPos) else pure ()
  | _ => tolerateError (.invalidSetterParams startPos)

/-- `parse_setter_method` (src/lib.rs:2128-2151). -/
def setterMethod (R : Rec) : P PropertyValue := do
  let startPos ← lookPos
  let ps ← withYield true (formalParams R)
  checkSetterParams startPos ps.params
  let body ← propertyMethodBody R ps.simple ps.foundRestricted
  return .expr (.function (.mk none ps.params body false false))

/-- What `parse_class_el` knows about an element before its body (the locals `token`, `key`,
`computed` and `is_static`). -/
structure ElHead where
  token : Token
  key : Option PropertyKey
  computed : Bool
  isStatic : Bool

/-- `parse_class_el`, up to the key (src/lib.rs:1849-1883). -/
def classElHead (R : Rec) (token : Token) : P ElHead := do
  if ← atPunct .asterisk then
    skipItem
    return ⟨token, none, false, false⟩
  else
    let computed ← atPunct .openBracket
    let newKey ← objectPropertyKey R
    let h ← (do
      if ← P.and (pure (isKey newKey t!"static")) (P.or qualifiedPropName (atPunct .asterisk)) then
        let token ← lookTok
        let computed ← atPunct .openBracket
        if ← atPunct .asterisk then
          skipItem
          return ⟨token, none, computed, true⟩
        else
          let key ← objectPropertyKey R
          return ⟨token, some key, computed, true⟩
      else return ⟨token, some newKey, computed, false⟩ : P ElHead)
    if ← P.and (pure h.token.isIdent) (P.and (readC (fun c => !c.hasLineTerm))
        (atContextual t!"async")) then
      if ← lookIs (fun t => !t.matchesPunct .colon && !t.matchesPunct .openParen &&
          !t.matchesPunct .asterisk) then
        expectedLook (words [t!":", t!"(", t!"*"])
      else pure h
    else pure h

/-- The locals `kind`, `method`, `key`, `value` and `computed` of `parse_class_el` once the body
of the element has been looked at. -/
structure ElBody where
  kind : Option PropertyKind
  method : Bool
  key : Option PropertyKey
  value : Option PropertyValue
  computed : Bool

/-- `parse_class_el`, getter/setter/generator (src/lib.rs:1885-1917). -/
def classElAccessor (R : Rec) (h : ElHead) : P ElBody := do
  let lookKey ← qualifiedPropName
  if h.token.isIdent then
    match h.key with
    | some k =>
      if isKey k t!"get" && lookKey then
        let computed ← atPunct .openBracket
        setYield false
        let key ← objectPropertyKey R
        let value ← getterMethod R
        return ⟨some .get, false, some key, some value, computed⟩
      else if isKey k t!"set" && lookKey then
        let computed ← atPunct .openBracket
        let key ← objectPropertyKey R
        let value ← setterMethod R
        return ⟨some .set, false, some key, some value, computed⟩
      else return ⟨none, false, h.key, none, h.computed⟩
    | none => return ⟨none, false, h.key, none, h.computed⟩
  else if h.token.matchesPunct .asterisk && lookKey then
    let computed ← atPunct .openBracket
    let key ← objectPropertyKey R
    let value ← generatorMethod R
    return ⟨some .init, true, some key, some value, computed⟩
  else return ⟨none, false, h.key, none, h.computed⟩

/-- `parse_class_el`, plain methods (src/lib.rs:1919-1927). -/
def classElMethod (R : Rec) (isAsync : Bool) (b : ElBody) : P ElBody := do
  if ← P.and (pure (b.kind.isNone && b.key.isSome)) (atPunct .openParen) then
    let value ← (if isAsync then asyncPropertyMethod R else propertyMethod R)
    return ⟨some .init, true, b.key, some value, b.computed⟩
  else pure b

/-- The checks on a method called `constructor` (src/lib.rs:1944-1968); returns the kind and
`has_ctor`. -/
def classElCtor (hasCtor isStatic : Bool) (kind : PropertyKind) (method computed : Bool)
    (key : PropertyKey) (value : Option PropertyValue) : P (PropertyKind × Bool) :=
  if computed then pure (kind, hasCtor)
  else if isStatic && isKey key t!"prototype" then expectedLook []
  else if !isStatic && isKey key t!"constructor" then
    if kind != .method || !method then expectedLook (words [t!"[constructor declaration]"])
    else if (value.map isGeneratorValue).getD false then
      expectedLook (words [t!"[non-generator function declaration]"])
    else if hasCtor then expectedLook []
    else pure (.ctor, true)
  else pure (kind, hasCtor)

/-- `parse_class_el`, final checks (src/lib.rs:1929-1986). -/
def classElFinish (hasCtor isStatic : Bool) (b : ElBody) : P (Bool × Property) :=
  match b.kind with
  | none => expectedLook (words [t!"method identifier"])
  | some k =>
    match b.key with
    | none => expectedLook []
    | some key => do
      let (kind, hasCtor) ← classElCtor hasCtor isStatic (if k == .init then .method else k)
        b.method b.computed key b.value
      match b.value with
      | none => expectedLook []
      | some value => return (hasCtor, .mk key value kind b.method b.computed false)

/-- `parse_class_el` (src/lib.rs:1836-1987). -/
def classEl (R : Rec) (hasCtor : Bool) : P (Bool × Property) := do
  let token ← lookTok
  let isAsync ← (do
    if ← atContextual t!"async" then
      skipItem
      pure true
    else pure false : P Bool)
  let h ← classElHead R token
  let b ← classElAccessor R h
  let b ← classElMethod R isAsync b
  classElFinish hasCtor h.isStatic b

/-- `parse_class_body` (src/lib.rs:1818-1834). -/
def classBody (R : Rec) : P (List Property) := do
  expectPunct .openBrace
  let (_, ret) ← untilP (atPunct .closeBrace)
    (fun (acc : Bool × List Property) => do
      if ← atPunct .semiColon then
        skipItem
        pure acc
      else
        let (ctor, el) ← classEl R acc.1
        return (ctor, acc.2 ++ [el]))
    (false, [])
  expectPunct .closeBrace
  pure ret

/-- `extends` and its operand, if present (src/lib.rs:1785-1793 and 1799-1807). -/
def classHeritage (R : Rec) : P (Option Expr) := do
  if ← atContextual t!"extends" then
    skipItem
    return some (← isolated R.lhs)
  else pure none

/-- `parse_class_decl` (src/lib.rs:1780-1816).  As in the source, the superclass found before the
name is dropped: line 1799 overwrites it with `None`. -/
def classDecl (R : Rec) (optIdent : Bool) : P Class :=
  withStrict do
    expectKeyword .class
    let super1 ← classHeritage R
    let id ← (do
      if ← P.and (pure optIdent) (lookIs (fun t => !t.isIdent)) then pure none
      else return some (← varIdent false) : P (Option Txt))
    let super2 ← (if super1.isNone then classHeritage R else pure none)
    let body ← classBody R
    return .mk id super2 body

/-! ## Primary expressions -/

/-- `parse_template_element` (src/lib.rs:2704-2719).  The slices `raw[1..raw.len() - 2]` and
`raw[1..raw.len() - 1]` panic when the text is too short or cut inside a character. -/
def templateElement : P TemplateElement := do
  let item ← nextItem
  match item.token with
  | .template .head | .template .body =>
    let raw ← getString item
    let cooked ← P.ofOption (if 2 ≤ blen raw then sliceB raw 1 (blen raw - 2) else none)
    return ⟨raw, cooked, false⟩
  | .template .tail | .template .noSub =>
    let raw ← getString item
    let cooked ← P.ofOption (if 1 ≤ blen raw then sliceB raw 1 (blen raw - 1) else none)
    return ⟨raw, cooked, true⟩
  | _ => expectedLook (words [t!"Template part"])

/-- `parse_template_literal` (src/lib.rs:2681-2702). -/
def templateLiteral (R : Rec) : P (List Expr × List TemplateElement) := do
  if ← lookIs (·.isTemplateHead) then
    let quasi ← templateElement
    loopP
      (fun (st : List Expr × List TemplateElement × Bool) =>
        if st.2.2 then pure (some (st.1, st.2.1)) else pure none)
      (fun st => do
        let e ← R.expression
        let quasi ← templateElement
        return .inl (st.1 ++ [e], st.2.1 ++ [quasi], quasi.tail))
      ([], [quasi], quasi.tail)
  else expectedLook (words [t!"template head", t!"template no sub"])

/-- The name of a function expression and whether it is restricted (src/lib.rs:2736-2756). -/
def functionExprName (isGen : Bool) : P (Option Txt × Bool) := do
  if ← atPunct .openParen then pure (none, false)
  else
    let item ← look
    let id ← fnName isGen
    let restricted ← isRestrictedTok item
    let reserved ← isStrictReservedTok item.token
    let strict ← readC (·.strict)
    if restricted && strict then
      ifNotTolerant (unexpectedTokenError item t!"restricted ident in strict context")
      pure (some id, reserved)
    else pure (some id, restricted || reserved)

/-- `parse_function_expr` (src/lib.rs:2721-2781). -/
def functionExpr (R : Rec) : P Expr := do
  let isAsync ← (do
    if ← atContextual t!"async" then
      skipItem
      pure true
    else pure false : P Bool)
  expectKeyword .function
  let isGen ← (do
    if ← atPunct .asterisk then
      skipItem
      pure true
    else pure false : P Bool)
  withAwaitYield isAsync (!isGen) do
    let (id, restricted) ← functionExprName isGen
    let ps ← formalParams R
    leakDirective ps.simple do
      let start ← look
      let body ← functionSourceEl R
      P.when (readC (fun c => c.strict && (restricted || ps.foundRestricted)))
        (ifNotTolerant (unexpectedTokenError start t!"restricted ident in strict context"))
      return .function (.mk id ps.params body isGen isAsync)

/-- `parse_spread_element` (src/lib.rs:3983-3990). -/
def spreadElement (R : Rec) : P Expr := do
  expectPunct .spread
  let arg ← inherited R.assign
  return .spread arg

/-- `expect_comma_sep` (src/lib.rs:3964-3980). -/
def expectCommaSep : P Unit := fun s =>
  if s.tolerant then
    (do if ← atPunct .comma then skipItem else pure () : P Unit) s
  else expectPunct .comma s

/-- `parse_async_arg` (src/lib.rs:3955-3960). -/
def asyncArg (R : Rec) : P Expr := do
  let expr ← R.assign
  P.modC fun c => { c with firstCovert := none }
  pure expr

/-- The argument loop shared by `parse_args` (src/lib.rs:3992-4018) and `parse_async_args`
(3926-3952), which differ only in how an argument without `...` is parsed. -/
def argList (R : Rec) (arg : P Expr) : P (List Expr) := do
  expectPunct .openParen
  let args ← (do
    if ← atPunct .closeParen then pure []
    else
      loopP (fun _ => pure none)
        (fun (acc : List Expr) => do
          let e ← (do if ← atPunct .spread then spreadElement R else isolated arg : P Expr)
          if ← atPunct .closeParen then return .inr (acc ++ [e])
          else
            expectCommaSep
            if ← atPunct .closeParen then return .inr (acc ++ [e])
            else return .inl (acc ++ [e]))
        [] : P (List Expr))
  expectPunct .closeParen
  pure args

/-- `parse_args` (src/lib.rs:3992-4018). -/
def args (R : Rec) : P (List Expr) := argList R R.assign

/-- `parse_async_args` (src/lib.rs:3926-3952). -/
def asyncArgs (R : Rec) : P (List Expr) := argList R (asyncArg R)

/-- The key of an object property, `is_async` and `computed` (src/lib.rs:2533-2555). -/
def objPropKey (R : Rec) (start : Item) : P (Option PropertyKey × Bool × Bool) := do
  if start.token.isIdent then
    let id ← stringForOrEmpty start
    skipItem
    let computed ← atPunct .openBracket
    if id == t!"async" then
      let key ← objectPropertyKey R
      return (some key, true, computed)
    else return (some (.expr (.ident id)), false, computed)
  else if ← atPunct .asterisk then
    skipItem
    return (none, false, false)
  else
    let computed ← atPunct .openBracket
    let key ← objectPropertyKey R
    return (some key, false, computed)

/-- The last branch of `parse_obj_prop` (src/lib.rs:2590-2660). -/
def objPropRest (R : Rec) (hasProto : Bool) (start : Item) (startPos : Position)
    (key : PropertyKey) (isAsync computed : Bool) : P (Bool × ObjectProperty) := do
  if ← P.and (atPunct .colon) (pure (!isAsync)) then
    let proto := !computed && isProto key
    P.when (pure (proto && hasProto))
      (tolerateError (.redecl startPos t!"prototype can only be declared once"))
    skipItem
    let value ← inScope id inheritCover R.assign
    return (hasProto || proto, .property (.mk key (.expr value) .init false computed false))
  else if ← atPunct .openParen then
    let value ← (if isAsync then asyncPropertyMethod R else propertyMethod R)
    return (hasProto, .property (.mk key value .init true computed false))
  else if start.token.isIdent then
    if ← atPunct .assign then
      let eq ← look
      P.modC fun c => { c with firstCovert := some eq }
      skipItem
      let inner ← isolated R.assign
      return (hasProto, .property (.mk key (.expr inner) .init false computed true))
    else return (hasProto, .property (.mk key .none .init false computed true))
  else expectedTokenError start (words [t!"object property value"])

/-- `parse_obj_prop` (src/lib.rs:2528-2662). -/
def objProp (R : Rec) (hasProto : Bool) : P (Bool × ObjectProperty) := do
  let start ← look
  let startPos ← lookPos
  let (key, isAsync, computed) ← objPropKey R start
  let atQualified ← atQualifiedPropKey
  let word ← streamSlice start
  if word == t!"get" && atQualified && !isAsync then
    let computed ← atPunct .openBracket
    let key ← objectPropertyKey R
    let value ← getterMethod R
    return (hasProto, .property (.mk key value .get false computed false))
  else if word == t!"set" && atQualified && !isAsync then
    let computed ← atPunct .openBracket
    let key ← objectPropertyKey R
    let value ← setterMethod R
    return (hasProto, .property (.mk key value .set false computed false))
  else if start.token.matchesPunct .asterisk && atQualified then
    let computed ← atPunct .openBracket
    let key ← objectPropertyKey R
    let value ← generatorMethod R
    return (hasProto, .property (.mk key value .init true computed false))
  else
    match key with
    | some key => objPropRest R hasProto start startPos key isAsync computed
    | none => expectedTokenError start (words [t!"object property key"])

/-- `parse_obj_init` (src/lib.rs:2505-2526). -/
def objInit (R : Rec) : P Expr := do
  expectPunct .openBrace
  let (_, props) ← untilP (atPunct .closeBrace)
    (fun (acc : Bool × List ObjectProperty) => do
      let (hasProto, prop) ← (do
        if ← atPunct .spread then
          let s ← spreadElement R
          return (acc.1, .spread s)
        else
          let (found, prop) ← objProp R acc.1
          return (acc.1 || found, prop) : P (Bool × ObjectProperty))
      P.when (P.not (atPunct .closeBrace)) expectCommaSep
      return (hasProto, acc.2 ++ [prop]))
    (false, [])
  expectPunct .closeBrace
  return .object props

/-- `parse_array_init` (src/lib.rs:2477-2504). -/
def arrayInit (R : Rec) : P Expr := do
  expectPunct .openBracket
  let elements ← untilP (atPunct .closeBracket)
    (fun (acc : List (Option Expr)) => do
      if ← atPunct .comma then
        skipItem
        return acc ++ [none]
      else if ← atPunct .spread then
        let el ← spreadElement R
        P.when (P.not (atPunct .closeBracket)) (do notTarget; expectPunct .comma)
        return acc ++ [some el]
      else
        let el ← inherited R.assign
        P.when (P.not (atPunct .closeBracket)) (expectPunct .comma)
        return acc ++ [some el])
    []
  expectPunct .closeBracket
  return .array elements

/-- `if !self.at_punct(FatArrow) { self.expect_punct(FatArrow)?; }` (src/lib.rs:2396-2398,
2406-2408): nothing is consumed when the arrow is there. -/
def requireFatArrow : P Unit :=
  P.when (P.not (atPunct .fatArrow)) (expectPunct .fatArrow)

/-- The end of `parse_group_expr` (src/lib.rs:2450-2472). -/
def groupClose (ex : Expr) : P Expr := do
  expectPunct .closeParen
  if ← atPunct .fatArrow then
    if isIdentExpr ex then
      P.modC fun c => { c with isBindingElement := false }
      return .arrowParamPlaceHolder [.expr ex] false
    else if ← readC (fun c => !c.isBindingElement) then
      expectedLook (words [t!"binding element"])
    else
      match ex with
      | .sequence seq => return .arrowParamPlaceHolder (seq.map .expr) false
      | ex => return .arrowParamPlaceHolder [.expr ex] false
  else pure ex

/-- The loop of `parse_group_expr` over the expressions after the first comma
(src/lib.rs:2415-2447): `.inl` is an early return, `.inr` the collected expressions. -/
def groupLoop (R : Rec) (first : Expr) : P (Expr ⊕ List Expr) :=
  loopP
    (fun (exprs : List Expr) => do
      if ← P.or (lookIs (·.isEof)) (P.not (atPunct .comma)) then pure (some (.inr exprs))
      else pure none)
    (fun exprs => do
      skipItem
      if ← atPunct .closeParen then
        skipItem
        return .inr (.inl (.arrowParamPlaceHolder (exprs.map .expr) false))
      else if ← atPunct .spread then
        if ← readC (fun c => !c.isBindingElement) then expectedLook (words [t!"not ..."])
        else
          let (_, rest) ← restElement R
          expectPunct .closeParen
          return .inr (.inl (.arrowParamPlaceHolder (exprs.map .expr ++ [.pat rest]) false))
      else
        let e ← inherited R.assign
        return .inl (exprs ++ [e]))
    [first]

/-- `parse_group_expr` (src/lib.rs:2391-2475). -/
def groupExpr (R : Rec) : P Expr := do
  expectPunct .openParen
  if ← atPunct .closeParen then
    skipItem
    requireFatArrow
    return .arrowParamPlaceHolder [] false
  else if ← atPunct .spread then
    let (_, rest) ← restElement R
    expectPunct .closeParen
    requireFatArrow
    return .arrowParamPlaceHolder [.pat rest] false
  else
    P.modC fun c => { c with isBindingElement := true }
    let ex ← inherited R.assign
    if ← atPunct .comma then
      match ← groupLoop R ex with
      | .inl e => pure e
      | .inr exprs => groupClose (.sequence exprs)
    else groupClose ex

/-- A numeric or string literal (src/lib.rs:2280-2296). -/
def numberOrString : P Expr := do
  notTarget
  let item ← nextItem
  match item.token with
  | .numeric => return .literal (.number (← stringForOrEmpty item))
  | .string => return .literal (.string (← stringForOrEmpty item))
  | _ => P.panic

/-- A boolean literal (src/lib.rs:2297-2305). -/
def booleanLiteral : P Expr := do
  notTarget
  let item ← nextItem
  match item.token with
  | .boolean b => return .literal (.boolean b)
  | _ => P.panic

/-- A regular expression literal (src/lib.rs:2322-2338). -/
def regexLiteral : P Expr := do
  notTarget
  let item ← nextItem
  match item.token with
  | .regex =>
    let raw ← stringForOrEmpty item
    match splitLastSlash raw with
    | none =>
      let pos ← curPos
      P.fail (.unexpectedToken pos (.raw t!"malformed regex"))
    | some (before, flags) =>
      let pattern ← P.ofOption (sliceB before 1 (blen before))
      return .literal (.regex ⟨pattern, flags⟩)
  | _ => P.panic

/-- The keyword cases of `parse_primary_expression` (src/lib.rs:2339-2370). -/
def primaryKeyword (R : Rec) : P Expr := do
  if ← P.and (readC (fun c => !c.strict))
      (P.or (P.and (readC (·.allowYield)) (atKeyword .yield)) (atKeyword .let)) then
    return .ident (← identName)
  else if ← P.and (readC (fun c => !c.strict)) (do isStrictReservedTok (← lookTok)) then
    return .ident (← identName)
  else
    notTarget
    if ← atKeyword .function then functionExpr R
    else if ← atKeyword .this then
      skipItem
      return .this
    else if ← atKeyword .class then
      let cls ← classDecl R true
      return .class cls
    else if ← atImportCall then return .ident (← identName)
    else expectedLook (words [t!"function", t!"this", t!"class", t!"import"])

/-- The punctuation cases of `parse_primary_expression` (src/lib.rs:2309-2321). -/
def primaryPunct (R : Rec) : P Expr :=
  inherited do
    if ← atPunct .openParen then groupExpr R
    else if ← atPunct .openBracket then arrayInit R
    else if ← atPunct .openBrace then objInit R
    else expectedLook (words [t!"{", t!"[", t!"("])

/-- The identifier case of `parse_primary_expression` (src/lib.rs:2265-2279).  The check of
2266-2273 asks an identifier token to be the keyword `await`, so it never fires; it is kept. -/
def primaryIdent (R : Rec) : P Expr := do
  P.when (P.and (P.or readModule (readC (·.await))) (atKeyword .await))
    (ifNotTolerant (unexpectedLook
      t!"Modules do not allow 'await' to be used as an identifier"))
  if ← atAsyncFunction then functionExpr R
  else
    let ident ← nextItem
    return .ident (← getString ident)

/-- `parse_primary_expression` (src/lib.rs:2263-2389). -/
def primary (R : Rec) : P Expr := do
  if ← lookIs (·.isIdent) then primaryIdent R
  else if ← lookIs (fun t => t.isNumber || t.isString) then numberOrString
  else if ← lookIs (·.isBool) then booleanLiteral
  else if ← lookIs (·.isTemplate) then
    let (es, qs) ← templateLiteral R
    return .template es qs
  else if ← lookIs (·.isPunct) then primaryPunct R
  else if ← lookIs (·.isRegex) then regexLiteral
  else if ← lookIs (·.isKeyword) then primaryKeyword R
  else
    expectedLook (words [t!"[identifier]", t!"async", t!"[Number]", t!"[String]", t!"[RegEx]",
      t!"yield", t!"let", t!"function", t!"this", t!"class", t!"import"])

/-! ## Left-hand sides -/

/-- `parse_new_expr` (src/lib.rs:4022-4056). -/
def newExpr (R : Rec) : P Expr := do
  expectKeyword .new
  if ← atPunct .period then
    skipItem
    if ← P.and (atContextual t!"target") (readC (·.inFunctionBody)) then
      let property ← identName
      return .metaProperty t!"new" property
    else expectedLook (words [t!"[constructor function call]"])
  else if ← atKeyword .import then expectedLook (words [t!"not import"])
  else
    let callee ← isolated R.lhs
    let as ← (do if ← atPunct .openParen then args R else pure [] : P (List Expr))
    notTarget
    return .new callee as

/-- `parse_super` (src/lib.rs:3829-3835). -/
def superExpr : P Expr := do
  expectKeyword .super
  if ← lookIs (fun t => !t.matchesPunct .openBracket && !t.matchesPunct .period) then
    expectedLook (words [t!"[", t!"."])
  else return .super

/-- `if self.at_keyword(New) { parse_new_expr } else { parse_primary_expression }` inside the
inherit idiom (src/lib.rs:3780-3787, 3854-3861). -/
def newOrPrimary (R : Rec) : P Expr :=
  inherited do if ← atKeyword .new then newExpr R else primary R

/-- `[` expression `]` after an object (src/lib.rs:3790-3804, 3896-3910). -/
def computedMember (R : Rec) (obj : Expr) : P Expr := do
  P.modC fun c => { c with isAssignmentTarget := true, isBindingElement := false }
  expectPunct .openBracket
  let prop ← isolated R.expression
  expectPunct .closeBracket
  return .member obj prop true

/-- `.` name after an object; `target` is the value given to `is_assignment_target`
(`false` at src/lib.rs:3805-3815, `true` at 3864-3873). -/
def dotMember (target : Bool) (obj : Expr) : P Expr := do
  P.modC fun c => { c with isAssignmentTarget := target, isBindingElement := false }
  expectPunct .period
  let prop ← identName
  return .member obj (.ident prop) false

/-- A template after an expression (src/lib.rs:3816-3821, 3911-3917). -/
def taggedTemplate (R : Rec) (tag : Expr) : P Expr := do
  let (es, qs) ← templateLiteral R
  return .taggedTemplate tag es qs

/-- `parse_left_hand_side_expr` (src/lib.rs:3773-3827). -/
def lhsExpr (R : Rec) : P Expr := do
  let expr ← (do
    if ← P.and (atKeyword .super) (readC (·.inFunctionBody)) then superExpr
    else newOrPrimary R : P Expr)
  loopP
    (fun (e : Expr) => do
      if ← lookIs (fun t => t.matchesPunct .openBracket || t.matchesPunct .period ||
          t.isTemplate) then pure none
      else pure (some e))
    (fun e => do
      if ← atPunct .openBracket then return .inl (← computedMember R e)
      else if ← atPunct .period then return .inl (← dotMember false e)
      else return .inl (← taggedTemplate R e))
    expr

/-- A call suffix in `parse_left_hand_side_expr_allow_call` (src/lib.rs:3875-3895). -/
def callSuffix (R : Rec) (isAsync : Bool) (startPos : Position) (callee : Expr) : P Expr := do
  let currentPos ← lookPos
  let asyncArrow := isAsync && startPos.line == currentPos.line
  notTarget
  let as ← (if asyncArrow then asyncArgs R else args R)
  if ← P.and (pure asyncArrow) (atPunct .fatArrow) then
    return .arrowParamPlaceHolder (as.map .expr) true
  else return .call callee as

/-- `super` in `parse_left_hand_side_expr_allow_call` (src/lib.rs:3844-3852). -/
def superCallee : P Expr := do
  skipItem
  if ← lookIs (fun t => !t.matchesPunct .openParen && !t.matchesPunct .period &&
      !t.matchesPunct .openBracket) then
    expectedLook (words [t!"(", t!".", t!"["])
  else return .super

/-- `parse_left_hand_side_expr_allow_call` (src/lib.rs:3837-3924). -/
def lhsAllowCall (R : Rec) : P Expr := do
  let startPos ← lookPos
  let isAsync ← atContextual t!"async"
  withAllowIn true do
    let expr ← (do
      if ← P.and (atKeyword .super) (readC (·.inFunctionBody)) then superCallee
      else newOrPrimary R : P Expr)
    loopP
      (fun (e : Expr) => do
        if ← lookIs (fun t => t.matchesPunct .period || t.matchesPunct .openParen ||
            t.matchesPunct .openBracket || t.isTemplateHead) then pure none
        else pure (some e))
      (fun e => do
        if ← atPunct .period then return .inl (← dotMember true e)
        else if ← atPunct .openParen then return .inl (← callSuffix R isAsync startPos e)
        else if ← atPunct .openBracket then return .inl (← computedMember R e)
        else return .inl (← taggedTemplate R e))
      expr

/-! ## Operators -/

/-- Prefix `++`/`--` (src/lib.rs:3683-3721). -/
def prefixUpdate (R : Rec) : P Expr := do
  let op ← nextItem
  let operator ← (match op.token with
    | .punct .increment => pure .increment
    | .punct .decrement => pure .decrement
    | _ => P.panic : P UpdateOperator)
  let start ← look
  let ex ← inherited R.unary
  P.when (readC (fun c => c.strict && isRestrictedIdent ex))
    (ifNotTolerant (unexpectedTokenError start t!"restricted ident"))
  P.when (readC (fun c => !c.isAssignmentTarget))
    (ifNotTolerant (unexpectedTokenError op t!"Cannot increment when not at assignment target"))
  notTarget
  return .update operator ex true

/-- Postfix `++`/`--` (src/lib.rs:3727-3760). -/
def postfixUpdate (start : Item) (expr : Expr) : P Expr := do
  P.when (readC (fun c => c.strict && isRestrictedIdent expr)) (expectedTokenError start [])
  let op ← nextItem
  P.when (readC (fun c => !c.isAssignmentTarget))
    (ifNotTolerant (unexpectedTokenError op t!"Cannot increment when not at assignment target"))
  notTarget
  if op.token.matchesPunct .increment then return .update .increment expr false
  else if op.token.matchesPunct .decrement then return .update .decrement expr false
  else expectedTokenError op (words [t!"++", t!"--"])

/-- `parse_update_expr` (src/lib.rs:3679-3764). -/
def updateExpr (R : Rec) : P Expr := do
  let start ← look
  if ← P.or (atPunct .increment) (atPunct .decrement) then prefixUpdate R
  else
    let expr ← inherited (lhsAllowCall R)
    if ← P.and (readC (fun c => !c.hasLineTerm)) (P.or (atPunct .increment) (atPunct .decrement))
    then postfixUpdate start expr
    else pure expr

/-- `parse_await_expr` (src/lib.rs:3672-3677). -/
def awaitExpr (R : Rec) : P Expr := do
  skipItem
  let arg ← R.unary
  return .await arg

/-- `unary_operator(..).ok_or(op_error)?` (src/lib.rs:3595-3596). -/
def unaryOp (t : Token) : P UnaryOperator :=
  match unaryOperator t with
  | some op => pure op
  | none => opError t!"Unable to convert unary operator"

/-- A prefix operator (src/lib.rs:3581-3601). -/
def prefixUnary (R : Rec) : P Expr := do
  let op ← nextItem
  let arg ← inherited R.unary
  P.when (readC (fun c => op.token.matchesKeyword .delete && c.strict && isIdentExpr arg))
    (ifNotTolerant (unexpectedTokenError op t!"Cannot delete ident in strict mode"))
  notTarget
  let operator ← unaryOp op.token
  return .unary operator arg true

/-- `parse_unary_expression` (src/lib.rs:3571-3607). -/
def unaryExpr (R : Rec) : P Expr := do
  if ← lookIs (fun t => t.matchesPunct .plus || t.matchesPunct .minus ||
      t.matchesPunct .bitwiseNot || t.matchesPunct .not || t.matchesKeyword .delete ||
      t.matchesKeyword .void || t.matchesKeyword .typeOf) then prefixUnary R
  else if ← P.and (readC (·.await)) (atKeyword .await) then awaitExpr R
  else updateExpr R

/-- `parse_exponentiation_expression` (src/lib.rs:3548-3569). -/
def expoExpr (R : Rec) : P Expr := do
  let expr ← inherited (unaryExpr R)
  if ← atPunct .exponent then
    skipItem
    notTarget
    let right ← isolated R.expo
    return .binary .powerOf expr right
  else pure expr

/-- Build the node for an operator (src/lib.rs:3490-3505, 3522-3542). -/
def mkBinary (op : Token) (left right : Expr) : P Expr :=
  if op.matchesPunct .logicalAnd || op.matchesPunct .logicalOr then
    match logicalOperator op with
    | some o => pure (.logical o left right)
    | none => opError t!"Unable to convert logical operator"
  else
    match binaryOperator op with
    | some o => pure (.binary o left right)
    | none => opError t!"Unable to convert binary operator"

/-- The vectors `stack`, `ops` and `precs` of `parse_binary_expression`; the head of a list is
the end of the vector. -/
structure BinStack where
  stack : List Expr
  ops : List Token
  precs : List Nat

/-- The inner `while` of `parse_binary_expression` (src/lib.rs:3477-3506). -/
def reduceWhile (prec : Nat) : List Token → List Expr → List Nat → P BinStack
  | op :: ops, right :: left :: stack, precs =>
    match precs with
    | [] => P.panic
    | p :: ps =>
      if prec ≤ p then do
        let e ← mkBinary op left right
        reduceWhile prec ops (e :: stack) ps
      else pure ⟨right :: left :: stack, op :: ops, p :: ps⟩
  | ops, stack, precs => pure ⟨stack, ops, precs⟩

/-- The last `while` of `parse_binary_expression` (src/lib.rs:3518-3543). -/
def reduceAll : List Token → List Expr → Expr → P Expr
  | op :: ops, left :: stack, current => do
    let e ← mkBinary op left current
    reduceAll ops stack e
  | _, _, current => pure current

/-- `parse_binary_expression` (src/lib.rs:3445-3546). -/
def binaryExpr (R : Rec) : P Expr := do
  let current ← inherited (expoExpr R)
  let tok ← lookTok
  let prec ← lookPrecedence
  if prec > 0 then
    skipItem
    notTarget
    let right ← isolated (expoExpr R)
    let st ← loopP
      (fun (st : BinStack) => do
        if (← lookPrecedence) = 0 then pure (some st) else pure none)
      (fun st => do
        let prec ← lookPrecedence
        let st ← reduceWhile prec st.ops st.stack st.precs
        let op ← nextItem
        let exp ← isolated (expoExpr R)
        return .inl ⟨exp :: st.stack, op.token :: st.ops, prec :: st.precs⟩)
      ⟨[right, current], [tok], [prec]⟩
    match st.stack with
    | [] => opError t!"invalid binary operation, too few expressions"
    | top :: stack => reduceAll st.ops stack top
  else pure current

/-- `parse_conditional_expr` (src/lib.rs:3414-3443). -/
def conditionalExpr (R : Rec) : P Expr := do
  let expr ← inherited (binaryExpr R)
  if ← atPunct .questionMark then
    skipItem
    let ifTrue ← withAllowIn true (isolated R.assign)
    expectPunct .colon
    let ifFalse ← isolated R.assign
    notTarget
    return .conditional expr ifFalse ifTrue
  else pure expr

/-- `parse_yield_expr` (src/lib.rs:3390-3412). -/
def yieldExpr (R : Rec) : P Expr := do
  expectKeyword .yield
  if ← readC (·.hasLineTerm) then return .yield none false
  else
    withYield false do
      if ← atPunct .asterisk then
        skipItem
        let arg ← R.assign
        return .yield (some arg) true
      else if ← isStartOfExpr then
        let arg ← R.assign
        return .yield (some arg) false
      else return .yield none false

/-! ## Assignment and arrow functions -/

mutual
/-- `reinterpret_expr_as_pat` (src/lib.rs:3342-3388); `none` is the error of line 3386. -/
def reinterpretPat : Expr → Option Pat
  | .array es => some (.array (es.map (Option.map .expr)))
  | .spread e => (reinterpretPat e).map .restElement
  | .object ps => (reinterpretProps ps).map .object
  | .assignment _ l r => (reinterpretPat l).map (.assignment · r)
  | .ident i => some (.identifier i)
  | _ => none
/-- The loop over object properties (src/lib.rs:3363-3371). -/
def reinterpretProps : List ObjectProperty → Option (List ObjectPatPart)
  | [] => some []
  | p :: ps =>
    match reinterpretProp p with
    | none => none
    | some q => (reinterpretProps ps).map (q :: ·)
/-- One object property (src/lib.rs:3364-3370). -/
def reinterpretProp : ObjectProperty → Option ObjectPatPart
  | .property p => some (.assignment p)
  | .spread e => (reinterpretPat e).map .rest
end

/-- `self.reinterpret_expr_as_pat(arg)?` (src/lib.rs:3075). -/
def reinterpretArg (arg : Expr) : P Pat :=
  match reinterpretPat arg with
  | some p => pure p
  | none => reinterpretError t!"expression" t!"pattern"

/-- The closure of `reinterpret_as_cover_formals_list` (src/lib.rs:3237-3276): the new parameter
and whether it sets `invalid_param`. -/
def coverParam (asyncArrow : Bool) : FunctionArg → FunctionArg × Bool
  | .pat (.assignment _ (.yield none _)) => (.pat (.identifier t!"yield"), false)
  | .pat (.assignment l (.yield (some a) d)) => (.pat (.assignment l (.yield (some a) d)), true)
  | .pat (.assignment l r) => (.pat (.assignment l r), false)
  | .expr (.assignment _ _ (.yield none _)) => (.expr (.ident t!"yield"), false)
  | .expr (.assignment op l (.yield (some a) d)) =>
    (.expr (.assignment op l (.yield (some a) d)), true)
  | .expr (.assignment op l r) => (.expr (.assignment op l r), false)
  | p => (p, asyncArrow && isAwaitArg p)

/-- `FunctionArg::Expr(Expr::Yield(_))` (src/lib.rs:3287-3288). -/
def isYieldArg : FunctionArg → Bool
  | .expr (.yield _ _) => true
  | _ => false

/-- `reinterpret_as_cover_formals_list` (src/lib.rs:3226-3301) once the parameters and
`async_arrow` are known. -/
def coverFormals (params : List FunctionArg) (asyncArrow : Bool) : P (List FunctionArg) := do
  let ps := params.map (coverParam asyncArrow)
  if ps.any (·.2) then
    expectedLook (words [t!"not a yield expression in a function param"])
  else if ← readC (fun c => c.strict && !c.allowYield && ps.any (fun p => isYieldArg p.1)) then
    expectedLook (words [t!"not a yield expression in a function param"])
  else return ps.map (·.1)

/-- The first step of `reinterpret_as_cover_formals_list` (src/lib.rs:3227-3233). -/
def coverSource : Expr → Option (List FunctionArg × Bool)
  | .ident i => some ([.expr (.ident i)], false)
  | .arrowParamPlaceHolder params a => some (params, a)
  | _ => none

/-- The body of an arrow function (src/lib.rs:3088-3114). -/
def arrowBody (R : Rec) (params : List FunctionArg) (isAsync : Bool) : P Expr := do
  expectPunct .fatArrow
  if ← atPunct .openBrace then
    let body ← withAllowIn true (functionSourceEl R)
    return .arrowBlock params body false false isAsync
  else
    let a ← isolated R.assign
    return .arrowExpr params a true false isAsync

/-- The arrow function branch of `parse_assignment_expr` (src/lib.rs:3083-3115). -/
def arrowTail (R : Rec) (current : Expr) : P Expr := do
  notTarget
  match coverSource current with
  | none => pure current
  | some (params, asyncArrow) =>
    let params ← coverFormals params asyncArrow
    arrowBody R params (isAsyncExpr current)

/-- `self.assignment_operator` on the consumed item (src/lib.rs:3150-3173). -/
def assignOp (item : Item) : P AssignmentOperator :=
  match item.token with
  | .punct p =>
    match assignmentOperator p with
    | some op => pure op
    | none => expectedTokenError item (words [t!"=", t!"+=", t!"-=", t!"/=", t!"*=", t!"**=",
        t!"|=", t!"&=", t!"~=", t!"%=", t!"<<=", t!">>=", t!">>>="])
  | _ => expectedTokenError item (words [t!"=", t!"+=", t!"-=", t!"/=", t!"*=", t!"**=",
        t!"|=", t!"&=", t!"~=", t!"%=", t!"<<=", t!">>=", t!">>>="])

/-- The checks before an assignment operator (src/lib.rs:3118-3141). -/
def checkAssignTarget (current : Expr) : P Unit := do
  P.when (readC (fun c => !c.isAssignmentTarget))
    (ifNotTolerant (unexpectedLook t!"Not at assignment target"))
  match current with
  | .ident i =>
    P.when (readC (fun c => c.strict && (isRestrictedWord i || isStrictReservedWord i)))
      (expectedLook (words [t!"not " ++ i]))
  | _ => pure ()

/-- The assignment branch of `parse_assignment_expr` (src/lib.rs:3117-3183). -/
def assignTail (R : Rec) (current : Expr) : P Expr := do
  checkAssignTarget current
  P.when (P.not (atPunct .assign)) notTarget
  let item ← nextItem
  let op ← assignOp item
  let right ← isolated R.assign
  P.modC fun c => { c with firstCovert := none }
  return .assignment op current right

/-- `async x` before `=>` (src/lib.rs:3070-3078). -/
def asyncParam (R : Rec) (start : Item) (startLine currLine : Nat) (current : Expr) : P Expr := do
  let word ← streamSlice start
  if ← P.and (pure (word == t!"async" && currLine == startLine))
      (P.or (lookIs (·.isIdent)) (atKeyword .yield)) then
    let arg ← primary R
    let arg ← reinterpretArg arg
    return .arrowParamPlaceHolder [.pat arg] true
  else pure current

/-- `parse_assignment_expr` (src/lib.rs:3060-3187). -/
def assignExpr (R : Rec) : P Expr := do
  if ← P.and (readC (fun c => !c.allowYield)) (atKeyword .yield) then yieldExpr R
  else
    let start ← look
    let startPos ← lookPos
    let current ← conditionalExpr R
    let currPos ← lookPos
    let current ← asyncParam R start startPos.line currPos.line current
    if ← P.or (pure (isPlaceHolder current)) (atPunct .fatArrow) then arrowTail R current
    else if ← atAssign then assignTail R current
    else pure current

/-- `parse_expression` (src/lib.rs:1531-1551). -/
def expression (R : Rec) : P Expr := do
  let ret ← isolated (assignExpr R)
  if ← atPunct .comma then
    let list ← untilP (P.or (lookIs (·.isEof)) (P.not (atPunct .comma)))
      (fun (acc : List Expr) => do
        skipItem
        let e ← isolated R.assign
        return acc ++ [e])
      [ret]
    return .sequence list
  else pure ret

end Ressa
