import Verif.Model.Expr

/-!
# Statements, declarations, imports and exports

Same conventions as `Verif.Model.Expr`.  Empty `if .. { //error }` blocks of the source have no
effect and are left out, except that their condition is kept when evaluating it can panic.
-/

namespace Ressa

/-- `parse_block` (src/lib.rs:1553-1572). -/
def block (R : Rec) : P (List ProgramPart) := do
  expectPunct .openBrace
  let ret ← untilP (atPunct .closeBrace) (fun acc => do return acc ++ [← R.listItem]) []
  expectPunct .closeBrace
  pure ret

/-- `parse_expression_statement` (src/lib.rs:1524-1529). -/
def expressionStmt (R : Rec) : P Expr := do
  let ret ← expression R
  consumeSemicolon
  pure ret

/-! ## Variables -/

/-- `isolate_cover_grammar`, `parse_assignment_expr`, `set_isolate_cover_grammar_state` after an
already consumed `=` (src/lib.rs:1001-1004, 1620-1623, 1653-1656, 1665-1668). -/
def initializer (R : Rec) : P (Option Expr) := do
  let init ← isolated R.assign
  return some init

/-- `parse_var_decl` (src/lib.rs:994-1011). -/
def varDecl (R : Rec) (inFor : Bool) : P VariableDecl := do
  let (_, patt) ← R.pattern (some .var)
  if ← atPunct .assign then
    skipItem
    let init ← initializer R
    return .mk patt init
  else if !isPatIdent patt && !inFor then expectedLook (words [t!"="])
  else return .mk patt none

/-- `while self.at_punct(Comma) { next_item; ret.push(item) }` after a first item
(src/lib.rs:986-991, 1593-1598, 1602-1607). -/
def commaList (item : P VariableDecl) : P (List VariableDecl) := do
  let first ← item
  untilP (P.not (atPunct .comma))
    (fun acc => do
      skipItem
      let d ← item
      return acc ++ [d])
    [first]

/-- `parse_var_decl_list` (src/lib.rs:985-992). -/
def varDeclList (R : Rec) (inFor : Bool) : P (List VariableDecl) := commaList (varDecl R inFor)

/-- `parse_var_stmt` (src/lib.rs:976-983). -/
def varStmt (R : Rec) : P Stmt := do
  expectKeyword .var
  let decls ← varDeclList R false
  consumeSemicolon
  return .var decls

/-- `parse_variable_decl` (src/lib.rs:1610-1631). -/
def variableDecl (R : Rec) (inFor : Bool) : P VariableDecl := do
  let start ← look
  let (_, id) ← R.pattern (some .var)
  P.when (readC (fun c => c.strict && isRestrictedPat id))
    (ifNotTolerant (unexpectedTokenError start t!"restricted word"))
  if ← atPunct .assign then
    skipItem
    let init ← initializer R
    return .mk id init
  else if !isPatIdent id && !inFor then
    expectPunct .assign
    return .mk id none
  else return .mk id none

/-- `parse_variable_decl_list` (src/lib.rs:1601-1608). -/
def variableDeclList (R : Rec) (inFor : Bool) : P (List VariableDecl) :=
  commaList (variableDecl R inFor)

/-- The initializer of `parse_lexical_binding` (src/lib.rs:1649-1671). -/
def lexicalInit (R : Rec) (kind : VariableKind) (inFor : Bool) (id : Pat) : P (Option Expr) := do
  if kind == .const then
    if ← P.and (P.not (atKeyword .in)) (P.not (atContextual t!"of")) then
      if ← atPunct .assign then
        skipItem
        initializer R
      else expectedLook (words [t!"="])
    else pure none
  else if ← P.or (pure (!inFor && !isPatIdent id)) (atPunct .assign) then
    expectPunct .assign
    initializer R
  else pure none

/-- `parse_lexical_binding` (src/lib.rs:1640-1673). -/
def lexicalBinding (R : Rec) (kind : VariableKind) (inFor : Bool) : P VariableDecl := do
  let start ← look
  let (_, id) ← R.pattern (some kind)
  P.when (readC (fun c => c.strict && isRestrictedPat id))
    (ifNotTolerant (unexpectedTokenError start t!"restricted word"))
  let init ← lexicalInit R kind inFor id
  return .mk id init

/-- `parse_binding_list` (src/lib.rs:1591-1599). -/
def bindingList (R : Rec) (kind : VariableKind) (inFor : Bool) : P (List VariableDecl) :=
  commaList (lexicalBinding R kind inFor)

/-- The keyword of a lexical declaration (src/lib.rs:1578-1585). -/
def lexicalKind (item : Item) : P VariableKind :=
  match item.token with
  | .keyword .let => pure .let
  | .keyword .const => pure .const
  | _ => expectedTokenError item (words [t!"let", t!"const"])

/-- `parse_lexical_decl` (src/lib.rs:1574-1589). -/
def lexicalDecl (R : Rec) (inFor : Bool) : P Decl := do
  let next ← nextItem
  let kind ← lexicalKind next
  let decl ← bindingList R kind inFor
  consumeSemicolon
  return .variable kind decl

/-! ## Loops -/

/-- `parse_loop_body` (src/lib.rs:1412-1422). -/
def loopBody (R : Rec) : P Stmt := do
  expectPunct .closeParen
  withIteration true (isolated R.stmt)

/-- An optional expression: absent when `stop` is next (src/lib.rs:1365-1369, 1373-1377). -/
def optExpr (R : Rec) (stop : Punct) : P (Option Expr) := do
  if ← atPunct stop then pure none
  else
    let e ← R.expression
    return some e

/-- `parse_for_loop_cont` (src/lib.rs:1362-1385). -/
def forLoopCont (R : Rec) (init : Option LoopInit) : P Stmt := do
  expectPunct .semiColon
  let test ← optExpr R .semiColon
  expectPunct .semiColon
  let update ← optExpr R .closeParen
  let body ← loopBody R
  return .for init test update body

/-- `parse_for_loop` (src/lib.rs:1351-1360). -/
def forLoop (R : Rec) (kind : VariableKind) : P Stmt := do
  if ← atPunct .semiColon then forLoopCont R none
  else
    let list ← variableDeclList R true
    forLoopCont R (some (.variable kind list))

/-- `parse_for_in_loop` (src/lib.rs:1387-1397); the same steps are inlined at 1258-1271,
1285-1291 and 1314-1321. -/
def forInLoop (R : Rec) (left : LoopLeft) : P Stmt := do
  skipItem
  let right ← R.expression
  let body ← loopBody R
  return .forIn left right body

/-- `parse_for_of_loop` (src/lib.rs:1399-1410); the same steps are inlined at 1323-1332. -/
def forOfLoop (R : Rec) (left : LoopLeft) (isAwait : Bool) : P Stmt := do
  skipItem
  let right ← R.assign
  let body ← loopBody R
  return .forOf left right body isAwait

/-- `for (var ..` (src/lib.rs:1216-1246). -/
def forVar (R : Rec) (isAwait : Bool) : P Stmt := do
  skipItem
  let bindings ← withAllowIn false (variableDeclList R true)
  match bindings with
  | [decl] =>
    if ← atKeyword .in then forInLoop R (.variable .var decl)
    else if ← atContextual t!"of" then forOfLoop R (.variable .var decl) isAwait
    else forLoopCont R (some (.variable .var [decl]))
  | bindings => forLoopCont R (some (.variable .var bindings))

/-- The keyword of `for (const ..` or `for (let ..` (src/lib.rs:1248-1256). -/
def forLexicalKind (item : Item) : P VariableKind :=
  match item.token with
  | .keyword .const => pure .const
  | .keyword .let => pure .let
  | .keyword _ => P.panic
  | _ => expectedTokenError item (words [t!"const", t!"let"])

/-- The keyword as an identifier (src/lib.rs:1260-1264). -/
def kindName : VariableKind → Txt
  | .var => t!"var"
  | .let => t!"let"
  | .const => t!"const"

/-- `decl.init.is_none()`. -/
def noInit : VariableDecl → Bool
  | .mk _ init => init.isNone

/-- `for (const ..` and `for (let ..` (src/lib.rs:1247-1305). -/
def forLexical (R : Rec) (isAwait : Bool) : P Stmt := do
  let item ← nextItem
  let kind ← forLexicalKind item
  if ← P.and (readC (fun c => !c.strict)) (atKeyword .in) then
    forInLoop R (.expr (.ident (kindName kind)))
  else
    let decls ← withAllowIn false (bindingList R kind true)
    match decls with
    | [decl] =>
      if ← P.and (pure (noInit decl)) (atKeyword .in) then forInLoop R (.variable kind decl)
      else if ← P.and (pure (noInit decl)) (atContextual t!"of") then
        forOfLoop R (.variable kind decl) isAwait
      else forLoopCont R (some (.variable kind [decl]))
    | decls => forLoopCont R (some (.variable kind decls))

/-- `for (` expression (src/lib.rs:1306-1348). -/
def forExpr (R : Rec) (isAwait : Bool) : P Stmt := do
  let init ← withAllowIn false (inherited R.assign)
  if ← atKeyword .in then forInLoop R (.expr init)
  else if ← atContextual t!"of" then forOfLoop R (.expr init) isAwait
  else if ← atPunct .comma then
    let seq ← untilP (P.not (atPunct .comma))
      (fun acc => do
        skipItem
        let e ← inherited R.assign
        return acc ++ [e])
      [init]
    forLoopCont R (some (.expr (.sequence seq)))
  else forLoopCont R (some (.expr init))

/-- `parse_for_stmt` (src/lib.rs:1195-1349). -/
def forStmt (R : Rec) : P Stmt := do
  expectKeyword .for
  let isAwait ← (do
    if ← atKeyword .await then
      skipItem
      pure true
    else pure false : P Bool)
  expectPunct .openParen
  if ← atPunct .semiColon then forLoop R .var
  else if ← atKeyword .var then forVar R isAwait
  else if ← P.or (atKeyword .const) (atKeyword .let) then forLexical R isAwait
  else forExpr R isAwait

/-- `parse_while_stmt` (src/lib.rs:953-974). -/
def whileStmt (R : Rec) : P Stmt := do
  expectKeyword .while
  expectPunct .openParen
  let test ← R.expression
  if ← atPunct .closeParen then
    expectPunct .closeParen
    let body ← savingIteration R.stmt
    return .while test body
  else
    ifNotTolerant (expectedLook (words [t!")"]))
    return .while test .empty

/-- `parse_do_while_stmt` (src/lib.rs:1424-1442). -/
def doWhileStmt (R : Rec) : P Stmt := do
  expectKeyword .do
  let body ← withIteration true R.stmt
  expectKeyword .while
  expectPunct .openParen
  let test ← R.expression
  expectPunct .closeParen
  P.when (atPunct .semiColon) (expectPunct .semiColon)
  return .doWhile test body

/-! ## Other statements -/

/-- `parse_with_stmt` (src/lib.rs:925-951). -/
def withStmt (R : Rec) : P Stmt := do
  let pos ← curPos
  P.when (readC (·.strict))
    (tolerateError (.nonStrictFeatureInStrictContext pos t!"with statements"))
  expectKeyword .with
  expectPunct .openParen
  let obj ← R.expression
  if ← atPunct .closeParen then
    expectPunct .closeParen
    let body ← R.stmt
    return .with obj body
  else
    ifNotTolerant (expectedLook (words [t!")"]))
    return .with obj .empty

/-- `parse_catch_clause` (src/lib.rs:1037-1054). -/
def catchClause (R : Rec) : P CatchClause := do
  expectKeyword .catch
  let param ← (do
    if ← atPunct .openParen then
      expectPunct .openParen
      let (_, param) ← R.pattern none
      expectPunct .closeParen
      pure (some param)
    else pure none : P (Option Pat))
  let body ← block R
  return .mk param body

/-- `parse_finally_clause` (src/lib.rs:1056-1060). -/
def finallyClause (R : Rec) : P (List ProgramPart) := do
  expectKeyword .finally
  block R

/-- `parse_try_stmt` (src/lib.rs:1013-1035). -/
def tryStmt (R : Rec) : P Stmt := do
  expectKeyword .try
  let b ← block R
  let handler ← (do
    if ← atKeyword .catch then
      let c ← catchClause R
      pure (some c)
    else pure none : P (Option CatchClause))
  let finalizer ← (do
    if ← atKeyword .finally then
      let f ← finallyClause R
      pure (some f)
    else pure none : P (Option (List ProgramPart)))
  return .try b handler finalizer

/-- `parse_throw_stmt` (src/lib.rs:1062-1071). -/
def throwStmt (R : Rec) : P Stmt := do
  expectKeyword .throw
  let arg ← R.expression
  consumeSemicolon
  return .throw arg

/-- The label of a switch case (src/lib.rs:1108-1114). -/
def caseTest (R : Rec) : P (Option Expr) := do
  if ← atKeyword .default then
    expectKeyword .default
    pure none
  else
    expectKeyword .case
    let e ← R.expression
    return some e

/-- `parse_switch_case` (src/lib.rs:1106-1127). -/
def switchCase (R : Rec) : P SwitchCase := do
  let test ← caseTest R
  expectPunct .colon
  let consequent ← untilP
    (P.or (atPunct .closeBrace) (P.or (atKeyword .default) (atKeyword .case)))
    (fun acc => do return acc ++ [← R.listItem]) []
  return .mk test consequent

/-- `case.test.is_none()`. -/
def isDefault : SwitchCase → Bool
  | .mk test _ => test.isNone

/-- `parse_switch_stmt` (src/lib.rs:1073-1104). -/
def switchStmt (R : Rec) : P Stmt := do
  expectKeyword .switch
  expectPunct .openParen
  let discriminant ← R.expression
  expectPunct .closeParen
  expectPunct .openBrace
  let cases ← withSwitch do
    let (_, cases) ← untilP (atPunct .closeBrace)
      (fun (acc : Bool × List SwitchCase) => do
        let c ← switchCase R
        P.when (pure (isDefault c && acc.1)) (expectedLook [])
        return (acc.1 || isDefault c, acc.2 ++ [c]))
      (false, [])
    expectPunct .closeBrace
    pure cases
  return .switch discriminant cases

/-- `parse_return_stmt` (src/lib.rs:1129-1149). -/
def returnStmt (R : Rec) : P Stmt := do
  if ← readC (·.inFunctionBody) then
    expectKeyword .return
    let ret ← (do
      if ← atReturnArg then
        let e ← R.expression
        pure (some e)
      else pure none : P (Option Expr))
    consumeSemicolon
    return .return ret
  else unexpectedLook t!"cannot return in the global context"

/-- `parse_if_clause` (src/lib.rs:1179-1187). -/
def ifClause (R : Rec) : P Stmt := do
  P.when (P.and (readC (·.strict)) (atKeyword .function)) (ifNotTolerant (unexpectedLook []))
  R.stmt

/-- `parse_if_stmt` (src/lib.rs:1151-1177). -/
def ifStmt (R : Rec) : P Stmt := do
  expectKeyword .if
  expectPunct .openParen
  let test ← R.expression
  if ← atPunct .closeParen then
    expectPunct .closeParen
    let c ← ifClause R
    if ← atKeyword .else then
      skipItem
      let a ← ifClause R
      return .if test c (some a)
    else return .if test c none
  else
    ifNotTolerant (expectedLook (words [t!")"]))
    return .if test .empty none

/-- `parse_fn_stmt` (src/lib.rs:1189-1193). -/
def fnStmt (R : Rec) : P Stmt := do
  let decl ← functionDecl R true
  return .expr (.function decl)

/-- `parse_optionally_labeled_statement` (src/lib.rs:1454-1471), called by `parse_break_stmt`
(1444-1447) and `parse_continue_stmt` (1449-1452). -/
def optLabel (k : Keyword) : P (Option Txt) := do
  expectKeyword k
  let ret ← (do
    if ← P.and (lookIs (·.isIdent)) (readC (fun c => !c.hasLineTerm)) then
      let id ← varIdent false
      pure (some id)
    else pure none : P (Option Txt))
  consumeSemicolon
  pure ret

/-- `parse_debugger_stmt` (src/lib.rs:1473-1478). -/
def debuggerStmt : P Stmt := do
  expectKeyword .debugger
  consumeSemicolon
  return .debugger

/-- The statement after a label (src/lib.rs:1493-1512). -/
def labelledBody (R : Rec) : P Stmt := do
  if ← atKeyword .class then
    let cls ← nextItem
    ifNotTolerant (unexpectedTokenError cls [])
    let body ← classBody R
    return .expr (.class (.mk none none body))
  else if ← atKeyword .function then
    let f ← functionDecl R true
    return .expr (.function f)
  else R.stmt

/-- `parse_labelled_statement` (src/lib.rs:1480-1522).  The `else` of 1487-1489 cannot be reached:
the expression is an identifier there. -/
def labelledStmt (R : Rec) : P Stmt := do
  let ret ← expression R
  match ret with
  | .ident id =>
    if ← atPunct .colon then
      skipItem
      let body ← withLabel id (labelledBody R)
      return .labeled id body
    else
      consumeSemicolon
      return .expr (.ident id)
  | ret =>
    consumeSemicolon
    return .expr ret

/-- The keyword arm of `parse_statement` (src/lib.rs:903-919). -/
def keywordStmt (R : Rec) (k : Keyword) : P Stmt :=
  match k with
  | .break => do
    let l ← optLabel .break
    return .break l
  | .continue => do
    let l ← optLabel .continue
    return .continue l
  | .debugger => debuggerStmt
  | .do => doWhileStmt R
  | .for => forStmt R
  | .function => fnStmt R
  | .if => ifStmt R
  | .return => returnStmt R
  | .switch => switchStmt R
  | .throw => throwStmt R
  | .try => tryStmt R
  | .var => varStmt R
  | .while => whileStmt R
  | .with => withStmt R
  | _ => do
    let e ← expressionStmt R
    return .expr e

/-- `parse_statement` (src/lib.rs:864-923). -/
def statement (R : Rec) : P Stmt := do
  match ← lookTok with
  | .boolean _ | .null | .numeric | .string | .regex | .template _ =>
    let e ← expressionStmt R
    return .expr e
  | .punct .openBrace =>
    let b ← block R
    return .block b
  | .punct .semiColon =>
    skipItem
    return .empty
  | .punct _ =>
    let e ← expressionStmt R
    return .expr e
  | .ident =>
    if ← atAsyncFunction then
      let f ← functionDecl R true
      return .expr (.function f)
    else labelledStmt R
  | .keyword k => keywordStmt R k
  | _ => expectedLook []

/-! ## Modules -/

/-- `parse_module_specifier` (src/lib.rs:856-862). -/
def moduleSpecifier : P Txt := do
  let item ← nextItem
  if item.token.isString then getString item
  else expectedTokenError item (words [t!"[string]"])

/-- `parse_import_specifier` (src/lib.rs:695-716).  Line 699 discards the error of `next_item`. -/
def importSpecifier : P ImportSpecifier := do
  if ← lookIs (·.isIdent) then
    let imported ← varIdent false
    if ← atContextual t!"as" then
      P.ignoreErr nextItem
      let local_ ← varIdent false
      return .normal imported (some local_)
    else return .normal imported none
  else
    let imported ← identName
    if ← atContextual t!"as" then
      skipItem
      let local_ ← varIdent false
      return .normal imported (some local_)
    else return .normal imported none

/-- `parse_named_imports` (src/lib.rs:682-693). -/
def namedImports : P (List ImportSpecifier) := do
  expectPunct .openBrace
  let ret ← untilP (atPunct .closeBrace)
    (fun acc => do
      let sp ← importSpecifier
      P.when (P.not (atPunct .closeBrace)) (expectPunct .comma)
      return acc ++ [sp])
    []
  expectPunct .closeBrace
  pure ret

/-- `parse_import_namespace_specifier` (src/lib.rs:718-726). -/
def namespaceSpecifier : P ImportSpecifier := do
  expectPunct .asterisk
  if ← atContextual t!"as" then
    skipItem
    let ident ← identName
    return .namespace ident
  else expectedLook (words [t!"as"])

/-- The specifiers after a default import (src/lib.rs:642-659); the default specifier itself is
`parse_import_default_specifier` (728-731). -/
def defaultImports : P (List ImportSpecifier) := do
  let ident ← identName
  if ← atPunct .comma then
    skipItem
    if ← atPunct .asterisk then
      let n ← namespaceSpecifier
      return [.default ident, n]
    else if ← atPunct .openBrace then
      let named ← namedImports
      return .default ident :: named
    else expectedLook (words [t!"{", t!"*"])
  else return [.default ident]

/-- The specifiers of an import (src/lib.rs:635-664). -/
def importSpecifiers : P (List ImportSpecifier) := do
  if ← atPunct .openBrace then namedImports
  else if ← atPunct .asterisk then
    let n ← namespaceSpecifier
    return [n]
  else if ← P.and atPossibleIdent (P.not (atKeyword .default)) then defaultImports
  else expectedLook (words [t!"{", t!"*", t!"[ident]", t!"[string]"])

/-- `parse_import_decl` (src/lib.rs:618-677). -/
def importDecl : P ModImport := do
  expectKeyword .import
  if ← lookIs (·.isString) then
    let source ← moduleSpecifier
    consumeSemicolon
    return ⟨[], source⟩
  else
    let specifiers ← importSpecifiers
    if ← atContextual t!"from" then
      skipItem
      let source ← moduleSpecifier
      consumeSemicolon
      return ⟨specifiers, source⟩
    else expectedLook (words [t!"from"])

/-- `parse_export_specifier` (src/lib.rs:845-854). -/
def exportSpecifier : P ExportSpecifier := do
  let local_ ← identName
  if ← atContextual t!"as" then
    skipItem
    let exported ← identName
    return ⟨local_, some exported⟩
  else return ⟨local_, none⟩

/-- `export default` (src/lib.rs:738-770).  The condition at 756 reads the slice that 746 already
read. -/
def exportDefault (R : Rec) : P ModExport := do
  skipItem
  if ← atKeyword .function then
    let f ← functionDecl R true
    return .defaultDecl (.function f)
  else if ← atKeyword .class then
    let c ← classDecl R true
    return .defaultDecl (.class c)
  else if ← atContextual t!"async" then
    if ← atAsyncFunction then
      let f ← functionDecl R true
      return .defaultDecl (.function f)
    else
      let e ← R.assign
      return .defaultExpr e
  else if ← atPunct .openBrace then
    let e ← objInit R
    return .defaultExpr e
  else if ← atPunct .openBracket then
    let e ← arrayInit R
    return .defaultExpr e
  else
    let e ← R.assign
    return .defaultExpr e

/-- `export *` (src/lib.rs:771-779).  The condition at 773 has no effect but its slice can
panic. -/
def exportAll : P ModExport := do
  skipItem
  let _ ← atContextual t!"from"
  skipItem
  let source ← moduleSpecifier
  consumeSemicolon
  return .all source

/-- `export` before a declaration keyword (src/lib.rs:780-809). -/
def exportKeyword (R : Rec) : P ModExport := do
  if ← P.or (atKeyword .let) (atKeyword .const) then
    let lex ← lexicalDecl R false
    consumeSemicolon
    return .namedDecl lex
  else if ← atKeyword .var then
    skipItem
    let decls ← variableDeclList R false
    consumeSemicolon
    return .namedDecl (.variable .var decls)
  else if ← atKeyword .class then
    let c ← classDecl R true
    return .namedDecl (.class c)
  else if ← atKeyword .function then
    let f ← functionDecl R true
    return .namedDecl (.function f)
  else expectedLook (words [t!"let", t!"var", t!"const", t!"class", t!"function"])

/-- `export { .. }` (src/lib.rs:815-842). -/
def exportNamed : P ModExport := do
  expectPunct .openBrace
  let (foundDefault, specifiers) ← untilP (atPunct .closeBrace)
    (fun (acc : Bool × List ExportSpecifier) => do
      let d ← atKeyword .default
      let sp ← exportSpecifier
      P.when (P.not (atPunct .closeBrace)) (expectPunct .comma)
      return (acc.1 || d, acc.2 ++ [sp]))
    (false, [])
  skipItem
  if ← atContextual t!"from" then
    skipItem
    let source ← moduleSpecifier
    consumeSemicolon
    return .namedSpecifier specifiers (some source)
  else if foundDefault then expectedLook (words [[]])
  else
    consumeSemicolon
    return .namedSpecifier specifiers none

/-- `parse_export_decl` (src/lib.rs:733-843). -/
def exportDecl (R : Rec) : P ModExport := do
  expectKeyword .export
  if ← atKeyword .default then exportDefault R
  else if ← atPunct .asterisk then exportAll
  else if ← lookIs (·.isKeyword) then exportKeyword R
  else if ← atAsyncFunction then
    let f ← functionDecl R false
    return .namedDecl (.function f)
  else exportNamed

/-- `ProgramPart::Stmt(self.parse_statement()?)` (e.g. src/lib.rs:603-604). -/
def stmtPart (R : Rec) : P ProgramPart := do
  let s ← statement R
  return .stmt s

/-- `parse_statement_list_item` (src/lib.rs:551-608). -/
def statementListItem (R : Rec) : P ProgramPart := do
  P.modC fun c => { c with isAssignmentTarget := true, isBindingElement := true }
  match ← lookTok with
  | .keyword .import =>
    if ← atImportCall then stmtPart R
    else
      let i ← importDecl
      return .decl (.import i)
  | .keyword .export =>
    let e ← exportDecl R
    return .decl (.export e)
  | .keyword .const =>
    let d ← lexicalDecl R false
    return .decl d
  | .keyword .function =>
    let f ← functionDecl R true
    return .decl (.function f)
  | .keyword .class =>
    let c ← classDecl R false
    return .decl (.class c)
  | .keyword .let =>
    if ← atLexicalDecl then
      let d ← lexicalDecl R false
      return .decl d
    else stmtPart R
  | _ => stmtPart R

end Ressa
