import Verif.Proof.CoreFacts

/-!
# What the parser does on the phrases of `Core`

`Means C Γ nt i o` states the run belonging to a phrase: which method succeeds on the items `i`,
with which result, and that it stops in front of `o`.  The theorems of the following modules derive
it along the rules of `Core`, one theorem for each rule.
-/

namespace Ressa

/-! ## The loops of the methods -/

/-- The loop of `arrayPattern`. -/
abbrev patElemLoop (R : Rec) (acc : List (Option ArrayPatPart)) : P (List (Option ArrayPatPart)) :=
  loopP
    (fun (acc : List (Option ArrayPatPart)) => do
      if ← atPunct .closeBracket then pure (some acc) else pure none)
    (fun acc => do
      if ← atPunct .comma then
        skipItem
        return .inl (acc ++ [none])
      else if ← atPunct .spread then
        let (_, el) ← bindingRestEl R
        return .inr (acc ++ [some (.pat el)])
      else
        let (_, el) ← patternWithDefault R
        P.when (P.not (atPunct .closeBracket)) (expectPunct .comma)
        return .inl (acc ++ [some (.pat el)]))
    acc

/-- An element of `objectPattern`. -/
abbrev patProp (R : Rec) : P ObjectPatPart := do
  if ← atPunct .spread then restProp R else propertyPattern R

/-- The loop of `objectPattern`. -/
abbrev patPropLoop (R : Rec) (acc : List ObjectPatPart) : P (List ObjectPatPart) :=
  untilP (atPunct .closeBrace)
    (fun (acc : List ObjectPatPart) => do
      let el ← (do if ← atPunct .spread then restProp R else propertyPattern R : P ObjectPatPart)
      P.when (P.not (atPunct .closeBrace)) (expectPunct .comma)
      return acc ++ [el])
    acc

/-- The loop of `directivePrologues`. -/
abbrev prologueLoop (R : Rec) (acc : List ProgramPart) : P (List ProgramPart) :=
  untilP (lookIs (fun t => !t.isString)) (fun acc => do return acc ++ [← directive R]) acc

/-- Statement list items up to a token. -/
abbrev itemLoop (R : Rec) (φ : Token → Bool) (acc : List ProgramPart) : P (List ProgramPart) :=
  untilP (lookIs φ) (fun acc => do return acc ++ [← R.listItem]) acc

/-- The loop of `formalParams`. -/
abbrev paramLoop (R : Rec) (acc : FormalParams) : P FormalParams :=
  loopP
    (fun (acc : FormalParams) => do
      if ← lookIs (·.isEof) then pure (some acc) else pure none)
    (fun acc => do
      let (s, r, arg) ← formalParam R acc.simple
      let acc' : FormalParams :=
        ⟨acc.simple && s, acc.params ++ [arg], acc.foundRestricted || r⟩
      if ← atPunct .closeParen then return .inr acc'
      else
        expectPunct .comma
        if ← atPunct .closeParen then return .inr acc' else return .inl acc')
    acc

/-- The part of `classElHead` after `static`. -/
abbrev staticHead (R : Rec) : P ElHead := do
  let token ← lookTok
  let computed ← atPunct .openBracket
  if ← atPunct .asterisk then
    skipItem
    return ⟨token, none, computed, true⟩
  else
    let key ← objectPropertyKey R
    return ⟨token, some key, computed, true⟩

/-- The loop of `classBody`. -/
abbrev classLoop (R : Rec) (acc : Bool × List Property) : P (Bool × List Property) :=
  untilP (atPunct .closeBrace)
    (fun (acc : Bool × List Property) => do
      if ← atPunct .semiColon then
        skipItem
        pure acc
      else
        let (ctor, el) ← classEl R acc.1
        return (ctor, acc.2 ++ [el]))
    acc

/-- The name of a class. -/
abbrev className (optIdent : Bool) : P (Option Txt) := do
  if ← P.and (pure optIdent) (lookIs (fun t => !t.isIdent)) then pure none
  else return some (← varIdent false)

/-- The loop of `templateLiteral`. -/
abbrev tplLoop (R : Rec) (st : List Expr × List TemplateElement × Bool) :
    P (List Expr × List TemplateElement) :=
  loopP
    (fun (st : List Expr × List TemplateElement × Bool) =>
      if st.2.2 then pure (some (st.1, st.2.1)) else pure none)
    (fun st => do
      let e ← R.expression
      let quasi ← templateElement
      return .inl (st.1 ++ [e], st.2.1 ++ [quasi], quasi.tail))
    st

/-- An argument. -/
abbrev oneArg (R : Rec) (arg : P Expr) : P Expr := do
  if ← atPunct .spread then spreadElement R else isolated arg

/-- The loop of `argList`. -/
abbrev argLoop (R : Rec) (arg : P Expr) (acc : List Expr) : P (List Expr) :=
  loopP (fun _ => pure none)
    (fun (acc : List Expr) => do
      let e ← (do if ← atPunct .spread then spreadElement R else isolated arg : P Expr)
      if ← atPunct .closeParen then return .inr (acc ++ [e])
      else
        expectCommaSep
        if ← atPunct .closeParen then return .inr (acc ++ [e])
        else return .inl (acc ++ [e]))
    acc

/-- An element of `objInit`. -/
abbrev propElem (R : Rec) (acc : Bool × List ObjectProperty) : P (Bool × ObjectProperty) := do
  if ← atPunct .spread then
    let s ← spreadElement R
    return (acc.1, .spread s)
  else
    let (found, prop) ← objProp R acc.1
    return (acc.1 || found, prop)

/-- The loop of `objInit`. -/
abbrev propLoop (R : Rec) (acc : Bool × List ObjectProperty) : P (Bool × List ObjectProperty) :=
  untilP (atPunct .closeBrace)
    (fun (acc : Bool × List ObjectProperty) => do
      let (hasProto, prop) ← (do
        if ← atPunct .spread then
          let s ← spreadElement R
          return (acc.1, .spread s)
        else
          let (found, prop) ← objProp R acc.1
          return (acc.1 || found, prop) : P (Bool × ObjectProperty))
      P.when (P.not (atPunct .closeBrace)) expectCommaSep
      return (hasProto, acc.2 ++ [prop]))
    acc

/-- The loop of `arrayInit`. -/
abbrev elemLoop (R : Rec) (acc : List (Option Expr)) : P (List (Option Expr)) :=
  untilP (atPunct .closeBracket)
    (fun (acc : List (Option Expr)) => do
      if ← atPunct .comma then
        skipItem
        return acc ++ [none]
      else if ← atPunct .spread then
        let el ← spreadElement R
        P.when (P.not (atPunct .closeBracket)) (do notTarget; expectPunct .comma)
        return acc ++ [some el]
      else
        let el ← inherited R.assign
        P.when (P.not (atPunct .closeBracket)) (expectPunct .comma)
        return acc ++ [some el])
    acc

/-- The loop of `lhsExpr`. -/
abbrev memLoop (R : Rec) (e : Expr) : P Expr :=
  loopP
    (fun (e : Expr) => do
      if ← lookIs (fun t => t.matchesPunct .openBracket || t.matchesPunct .period ||
          t.isTemplate) then pure none
      else pure (some e))
    (fun e => do
      if ← atPunct .openBracket then return .inl (← computedMember R e)
      else if ← atPunct .period then return .inl (← dotMember false e)
      else return .inl (← taggedTemplate R e))
    e

/-- The loop of `lhsAllowCall`. -/
abbrev callLoop (R : Rec) (isAsync : Bool) (startPos : Position) (e : Expr) : P Expr :=
  loopP
    (fun (e : Expr) => do
      if ← lookIs (fun t => t.matchesPunct .period || t.matchesPunct .openParen ||
          t.matchesPunct .openBracket || t.isTemplateHead) then pure none
      else pure (some e))
    (fun e => do
      if ← atPunct .period then return .inl (← dotMember true e)
      else if ← atPunct .openParen then return .inl (← callSuffix R isAsync startPos e)
      else if ← atPunct .openBracket then return .inl (← computedMember R e)
      else return .inl (← taggedTemplate R e))
    e

/-- The loop of `groupLoop`. -/
abbrev groupGo (R : Rec) (exprs : List Expr) : P (Expr ⊕ List Expr) :=
  loopP
    (fun (exprs : List Expr) => do
      if ← P.or (lookIs (·.isEof)) (P.not (atPunct .comma)) then pure (some (.inr exprs))
      else pure none)
    (fun exprs => do
      skipItem
      if ← atPunct .closeParen then
        skipItem
        return .inr (.inl (.arrowParamPlaceHolder (exprs.map .expr) false))
      else if ← atPunct .spread then
        if ← readC (fun c => !c.isBindingElement) then expectedLook (words [t!"not ..."])
        else
          let (_, rest) ← restElement R
          expectPunct .closeParen
          return .inr (.inl (.arrowParamPlaceHolder (exprs.map .expr ++ [.pat rest]) false))
      else
        let e ← inherited R.assign
        return .inl (exprs ++ [e]))
    exprs

/-- The loop of `expression`. -/
abbrev exprLoop (R : Rec) (acc : List Expr) : P (List Expr) :=
  untilP (P.or (lookIs (·.isEof)) (P.not (atPunct .comma)))
    (fun (acc : List Expr) => do
      skipItem
      let e ← isolated R.assign
      return acc ++ [e])
    acc

/-- The loop of `forExpr`. -/
abbrev forExprLoop (R : Rec) (acc : List Expr) : P (List Expr) :=
  untilP (P.not (atPunct .comma))
    (fun acc => do
      skipItem
      let e ← inherited R.assign
      return acc ++ [e])
    acc

/-- The loop of `binaryExpr`. -/
abbrev opLoop (R : Rec) (st : BinStack) : P BinStack :=
  loopP
    (fun (st : BinStack) => do
      if (← lookPrecedence) = 0 then pure (some st) else pure none)
    (fun st => do
      let prec ← lookPrecedence
      let st ← reduceWhile prec st.ops st.stack st.precs
      let op ← nextItem
      let exp ← isolated (expoExpr R)
      return .inl ⟨exp :: st.stack, op.token :: st.ops, prec :: st.precs⟩)
    st

/-- The loop of `commaList`. -/
abbrev commaLoop (item : P VariableDecl) (acc : List VariableDecl) : P (List VariableDecl) :=
  untilP (P.not (atPunct .comma))
    (fun acc => do
      skipItem
      let d ← item
      return acc ++ [d])
    acc

/-- `forStmt` after `(`. -/
def forRest (R : Rec) (isAwait : Bool) : P Stmt := do
  if ← atPunct .semiColon then forLoop R .var
  else if ← atKeyword .var then forVar R isAwait
  else if ← P.or (atKeyword .const) (atKeyword .let) then forLexical R isAwait
  else forExpr R isAwait

/-- The parameter of `catchClause`. -/
abbrev catchParam (R : Rec) : P (Option Pat) := do
  if ← atPunct .openParen then
    expectPunct .openParen
    let (_, param) ← R.pattern none
    expectPunct .closeParen
    pure (some param)
  else pure none

/-- The handler of `tryStmt`. -/
abbrev tryHandler (R : Rec) : P (Option CatchClause) := do
  if ← atKeyword .catch then
    let c ← catchClause R
    pure (some c)
  else pure none

/-- The finalizer of `tryStmt`. -/
abbrev tryFinalizer (R : Rec) : P (Option (List ProgramPart)) := do
  if ← atKeyword .finally then
    let f ← finallyClause R
    pure (some f)
  else pure none

/-- The loop of `switchStmt`. -/
abbrev caseLoop (R : Rec) (acc : Bool × List SwitchCase) : P (Bool × List SwitchCase) :=
  untilP (atPunct .closeBrace)
    (fun (acc : Bool × List SwitchCase) => do
      let c ← switchCase R
      P.when (pure (isDefault c && acc.1)) (expectedLook [])
      return (acc.1 || isDefault c, acc.2 ++ [c]))
    acc

/-- `optLabel` after the keyword. -/
abbrev labelRest : P (Option Txt) := do
  let ret ← (do
    if ← P.and (lookIs (·.isIdent)) (readC (fun c => !c.hasLineTerm)) then
      let id ← varIdent false
      pure (some id)
    else pure none : P (Option Txt))
  consumeSemicolon
  pure ret

/-- The loop of `namedImports`. -/
abbrev importLoop (acc : List ImportSpecifier) : P (List ImportSpecifier) :=
  untilP (atPunct .closeBrace)
    (fun acc => do
      let sp ← importSpecifier
      P.when (P.not (atPunct .closeBrace)) (expectPunct .comma)
      return acc ++ [sp])
    acc

/-- The loop of `exportNamed`. -/
abbrev exportLoop (acc : Bool × List ExportSpecifier) : P (Bool × List ExportSpecifier) :=
  untilP (atPunct .closeBrace)
    (fun (acc : Bool × List ExportSpecifier) => do
      let d ← atKeyword .default
      let sp ← exportSpecifier
      P.when (P.not (atPunct .closeBrace)) (expectPunct .comma)
      return (acc.1 || d, acc.2 ++ [sp]))
    acc

/-- The loop of `parse`. -/
abbrev partLoop (acc : List ProgramPart) : P (List ProgramPart) :=
  untilP (lookIs (·.isEof)) (fun acc => do return acc ++ [← nextPart]) acc

namespace Gr

/-- Nothing is known of the expression. -/
abbrev Flags.none : Flags := (false, false)
/-- Everything is known of the expression. -/
abbrev Flags.all : Flags := (true, true)

/-- A list whose items are separated by commas: the first item, and the loop over the others. -/
def CommaSep (C : Cfg) (Γ : Env) (item : P VariableDecl) (l : List VariableDecl) (i o : List Tok) :
    Prop :=
  ∃ d r j, l = d :: r ∧ j.length < i.length ∧ (∀ f, plainDecl d = true → Exec C Γ f i item d f j) ∧
    (∀ f, Exec C Γ f i item d .none j) ∧ (r = [] → j = o ∧ head o ≠ .punct .comma) ∧
    ∀ f acc, Exec C Γ f j (commaLoop item acc) (acc ++ r) .none o

/-- The three vectors of `binaryExpr` after the operand `x` and the operators and operands `l`: every
operand but the first stands behind its operator, the operators on the stack bind stronger from
bottom to top, and within the last operand every operator has at least the level `L`. -/
inductive Held (x : Expr) :
    List (Op × Expr) → Nat → List Expr → List Token → List Nat → Prop
  | one {l L e} : Groups x l e → (∀ p ∈ l, L ≤ p.1.level) → Held x l L [e] [] []
  | push {l L e stack ops precs op y r b} : Held x l op.level (e :: stack) ops precs →
      op ≠ .bin .powerOf → Groups y r b → (∀ p ∈ r, L ≤ p.1.level) → op.level < L →
      Held x (l ++ (op, y) :: r) L (b :: e :: stack) (op.token :: ops) (op.level :: precs)

/-- The loop of `binaryExpr` reads the operators and operands `l`. -/
def OpRun (C : Cfg) (Γ : Env) (l : List (Op × Expr)) (i o : List Tok) : Prop :=
  ∀ x l₀ st, Held x l₀ 12 st.stack st.ops st.precs →
    ∃ st' : BinStack, Held x (l₀ ++ l) 12 st'.stack st'.ops st'.precs ∧
      ∀ f, Exec C Γ f i (opLoop full st) st' f o

/-- The pattern `p` is read; the flags stay as they are if it is a name. -/
def PatRun (C : Cfg) (Γ : Env) (k : Option VariableKind) (b : Bool) (p : Pat) (i o : List Tok) :
    Prop :=
  (∀ f, isPatIdent p = true → Exec C Γ f i (pattern full k) (b, p) f o) ∧
    ∀ f, Exec C Γ f i (pattern full k) (b, p) .none o

/-- See above. -/
def Means (C : Cfg) (Γ : Env) (nt : CT) (i o : List Tok) : Prop :=
  match nt with
  | .ident n => ∀ f b, Exec C Γ f i (varIdent b) n f o
  | .key k => ∀ f, Exec C Γ f i (objectPropertyKey full) k f o
  | .semi => ∀ f, Exec C Γ f i consumeSemicolon () f o
  | .pattern b p => (PatRun C Γ none b p i o ∧ PatRun C Γ (some .var) b p i o) ∧
      (lexStart (head i) = true → ∀ k, PatRun C Γ (some k) b p i o)
  | .patDefault b p => ∀ f, Exec C Γ f i (patternWithDefault full) (b, p) .none o
  | .patElems l => ∀ f acc, Exec C Γ f i (patElemLoop full acc) (acc ++ l) .none o
  | .patProp p => ∀ f, Exec C Γ f i (patProp full) p .none o
  | .patProps l => ∀ f acc, Exec C Γ f i (patPropLoop full acc) (acc ++ l) .none o
  | .prologue l => ∀ f acc, Exec C Γ f i (prologueLoop full acc) (acc ++ l) .none o
  | .items l => ∀ f acc (φ : Token → Bool),
      (∀ t, t ≠ .punct .closeBrace → t ≠ .eof → t ≠ .keyword .case → t ≠ .keyword .default →
        φ t = false) → φ (head o) = true →
      Exec C Γ f i (itemLoop full φ acc) (acc ++ l) .none o
  | .body l => ∀ f, Exec C Γ f i (functionSourceEl full) l .none o
  | .param b a => ∀ f s, Exec C Γ f i (formalParam full s) (s && isSimpleArg a, b, a) .none o
  | .paramSeq b l => ∀ f acc, Exec C Γ f i (paramLoop full acc)
      ⟨acc.simple && l.all isSimpleArg, acc.params ++ l, acc.foundRestricted || b⟩ .none o
  | .params b l => ∀ f, Exec C Γ f i (formalParams full) ⟨l.all isSimpleArg, l, b⟩ .none o
  | .star g => g = false ∧ i = o ∧ head o ≠ .punct .asterisk ∨
      g = true ∧ ∃ t, i = t :: o ∧ Is t .asterisk
  | .fnStart a => a = false ∧ (∃ t, i = t :: o ∧ Kw t .function ∧ C.text t ≠ t!"async") ∨
      a = true ∧ ∃ t t', i = t :: t' :: o ∧ t.item.token = .ident ∧ C.text t = t!"async" ∧
        Kw t' .function ∧ C.joined t t'
  | .declName opt id => ∃ r : Option Item, (r ≠ none → Γ.strict = false) ∧
      ∀ f, Exec C Γ f i (functionDeclName opt) (id, r) f o
  | .fnDecl opt fn => ∀ f, Exec C Γ f i (functionDecl full opt) fn .none o
  | .exprName id => ∃ r : Bool, (Γ.strict = true → r = true → C.tolerant = true) ∧
      ∀ f g, g = Γ.gen → Exec C Γ f i (functionExprName g) (id, r) f o
  | .fnExpr e => ∀ f, Exec C Γ f i (functionExpr full) e .none o
  | .method false false v => ∀ f, Exec C Γ f i (propertyMethod full) v .none o
  | .method false true v => ∀ f, Exec C Γ f i (generatorMethod full) v .none o
  | .method true _ v => ∀ f, Exec C Γ f i (asyncPropertyMethod full) v .none o
  | .getter v => ∀ f, Exec C Γ f i (getterMethod full) v .none o
  | .setter v => ∀ f, Exec C Γ f i (setterMethod full) v .none o
  | .elBody s b => ∃ (h : ElHead) (b' : ElBody) (j m : List Tok), h.isStatic = s ∧
      (h.token.isIdent = true → C.other t!"async" j) ∧
      (s = false → h.token = head i ∧ ∀ f, Exec C Γ f i (classElHead full (head i)) h f j) ∧
      (s = true → ∀ f, Exec C Γ f i (staticHead full) h f j) ∧
      (∀ f, Exec C Γ f j (classElAccessor full h) b' .none m) ∧
      ∀ f, Exec C Γ f m (classElMethod full false b') b .none o
  | .classEl c c' p => ∀ f, Exec C Γ f i (classEl full c) (c', p) .none o
  | .classEls c l => ∃ c', ∀ f acc, Exec C Γ f i (classLoop full (c, acc)) (c', acc ++ l) .none o
  | .classBody l => ∀ f, Exec C Γ f i (classBody full) l .none o
  | .heritage e => ∀ f, Exec C Γ f i (classHeritage full) e f o
  | .className opt id => ∀ f, Exec C Γ f i (className opt) id f o
  | .cls opt c => ∀ f, Exec C Γ f i (classDecl full opt) c .none o
  | .tplTail es qs => ∀ f es' qs', Exec C Γ f i (tplLoop full (es', qs', false))
      (es' ++ es, qs' ++ qs) f o
  | .tpl es qs => ∀ f, Exec C Γ f i (templateLiteral full) (es, qs) f o
  | .arg e => (∀ f, Exec C Γ f i (oneArg full full.assign) e .none o) ∧
      ∀ f, Exec C Γ f i (oneArg full (asyncArg full)) e .none o
  | .argSeq l => (∀ f acc, Exec C Γ f i (argLoop full full.assign acc) (acc ++ l) .none o) ∧
      ∀ f acc, Exec C Γ f i (argLoop full (asyncArg full) acc) (acc ++ l) .none o
  | .args l => (∀ f, Exec C Γ f i (args full) l .none o) ∧
      ∀ f, Exec C Γ f i (asyncArgs full) l .none o
  | .propKey k c => ∃ t j, i = t :: j ∧ (t.item.token ≠ .punct .asterisk) ∧
      ∀ f, Exec C Γ f i (objPropKey full t.item) (some k, false, c) f o
  | .prop f p g => ∀ acc, (acc.1 = true → isProtoInit p = true → C.tolerant = true) →
      Exec C Γ f i (propElem full acc) (acc.1 || isProtoInit p, p) g o
  | .props f l g => ∀ acc, acc.1.toNat + (l.filter isProtoInit).length ≤ 1 ∨ C.tolerant = true →
      Exec C Γ f i (propLoop full acc) (acc.1 || l.any isProtoInit, acc.2 ++ l) g o
  | .elems f l => ∀ f' acc, Exec C Γ f' i (elemLoop full acc) (acc ++ l) (f.and f') o
  | .primary f e => Exec C Γ .all i (primary full) e f o
  | .newExpr f e => Exec C Γ .all i (newExpr full) e f o
  | .operand f e => ∀ f', Exec C Γ f' i (newOrPrimary full) e (f.and f') o
  | .memTail e e' => ∀ f, Exec C Γ f i (memLoop full e) e' .none o
  | .member e => ∀ f, Exec C Γ f i (lhsExpr full) e .none o
  | .callTail a f e f' e' => ∀ b pos, (b = true → a = true) →
      Exec C Γ f i (callLoop full b pos e) e' f' o
  | .call f e => Exec C Γ .all i (lhsAllowCall full) e f o
  | .update f e => Exec C Γ .all i (updateExpr full) e f o
  | .unary f e => Exec C Γ .all i (unaryExpr full) e f o
  | .expo f e => Exec C Γ .all i (expoExpr full) e f o
  | .opTail l => OpRun C Γ l i o ∧ ∀ op y r, l = (op, y) :: r → ∃ t j f k, i = t :: j ∧
      t.item.token = op.token ∧ op ≠ .bin .powerOf ∧ (op = .bin .in → Γ.allowIn = true) ∧
      Exec C Γ .all j (expoExpr full) y f k ∧ OpRun C Γ r k o
  | .bin f e => Exec C Γ .all i (binaryExpr full) e f o
  | .cond f e => ∀ f', Exec C Γ f' i (conditionalExpr full) e (f.and f') o
  | .groupTail r l => ∀ f acc, (r = true → f.2 = true) →
      Exec C Γ f i (groupGo full acc) (.inl (.arrowParamPlaceHolder (acc.map .expr ++ l) false))
        .none o
  | .arrowHead l => Exec C Γ .all i (primary full) (.arrowParamPlaceHolder l false) .none o
  | .arrowBody a l e => ∀ f, Exec C Γ f i (arrowBody full l a) e .none o
  | .single f e => ∀ f', Exec C Γ f' i (assignExpr full) e (f.and f') o
  | .assign f e => ∀ f', f'.1 = true ∨ C.tolerant = true →
      Exec C Γ f' i (assignExpr full) e (f.and f') o
  | .seqTail f l => (∀ f' acc, Exec C Γ f' i (groupGo full acc) (.inr (acc ++ l)) (f.and f') o) ∧
      (∀ f acc, Exec C Γ f i (exprLoop full acc) (acc ++ l) f o) ∧
      ∀ f acc, Exec C Γ f i (forExprLoop full acc) (acc ++ l) .none o
  | .expression e => ∀ f, Exec C Γ f i (expression full) e f o
  | .block l => ∀ f, Exec C Γ f i (block full) l .none o
  | .varD false b d => (∀ f, plainDecl d = true → Exec C Γ f i (varDecl full b) d f o) ∧
      ∀ f, Exec C Γ f i (varDecl full b) d .none o
  | .varD true b d => (∀ f, plainDecl d = true → Exec C Γ f i (variableDecl full b) d f o) ∧
      ∀ f, Exec C Γ f i (variableDecl full b) d .none o
  | .varDs false b l => CommaSep C Γ (varDecl full b) l i o
  | .varDs true b l => CommaSep C Γ (variableDecl full b) l i o
  | .lexD k b d =>
      (∀ f, plainDecl d = true → Exec C Γ f i (lexicalBinding full k b) d f o) ∧
      ∀ f, Exec C Γ f i (lexicalBinding full k b) d .none o
  | .lexDs k b l => CommaSep C Γ (lexicalBinding full k b) l i o
  | .lexical d => ∀ f, Exec C Γ f i (lexicalDecl full false) d .none o
  | .loopBody s => ∀ f, Exec C Γ f i (loopBody full) s .none o
  | .optExpr p e => ∀ f, Exec C Γ f i (optExpr full p) e f o
  | .forCont x s => ∀ f, Exec C Γ f i (forLoopCont full x) s .none o
  | .forIn x s => ∀ f, Exec C Γ f i (forInLoop full x) s .none o
  | .forOf free a x s => ∀ f, (free = true → f.1 = true ∨ C.tolerant = true) →
      Exec C Γ f i (forOfLoop full x a) s .none o
  | .forHead free a s => ∀ f, (free = true → f.1 = true ∨ C.tolerant = true) →
      Exec C Γ f i (forRest full a) s .none o
  | .forStmt free s => ∀ f, (free = true → f.1 = true ∨ C.tolerant = true) →
      Exec C Γ f i (statement full) s .none o
  | .catchParam p => ∀ f, Exec C Γ f i (catchParam full) p .none o
  | .handler c => ∀ f, Exec C Γ f i (tryHandler full) c .none o
  | .finalizer l => ∀ f, Exec C Γ f i (tryFinalizer full) l .none o
  | .switchCase c => ∀ f, Exec C Γ f i (switchCase full) c .none o
  | .cases b l => ∃ b', ∀ f acc, Exec C Γ f i (caseLoop full (b, acc)) (b', acc ++ l) .none o
  | .optLabel l => ∀ f, Exec C Γ f i labelRest l f o
  | .labelBody s => ∀ f, Exec C Γ f i (labelledBody full) s .none o
  | .clause s => ∀ f, Exec C Γ f i (ifClause full) s .none o
  | .stmt s => ∀ f, Exec C Γ f i (statement full) s .none o
  | .importSpec s => ∀ f, Exec C Γ f i importSpecifier s f o
  | .importSeq l => ∀ f acc, Exec C Γ f i (importLoop acc) (acc ++ l) f o
  | .named l => ∀ f, Exec C Γ f i namedImports l f o
  | .nsImport s => ∀ f, Exec C Γ f i namespaceSpecifier s f o
  | .imports l => ∀ f, Exec C Γ f i importSpecifiers l f o
  | .importDecl d => ∀ f, Exec C Γ f i importDecl d f o
  | .exportSpec d s => (head i).matchesKeyword .default = d ∧ ∀ f, Exec C Γ f i exportSpecifier s f o
  | .exportSeq d l => ∀ f acc, Exec C Γ f i (exportLoop acc) (acc.1 || d, acc.2 ++ l) f o
  | .exportDecl e => Exec C Γ .all i (exportDecl full) e .none o
  | .listItem p => ∀ f, Exec C Γ f i (statementListItem full) p .none o
  | .parts past l => ∀ s acc, Stand C Γ .none i s → s.ctx.pastProlog = past →
      ∃ s', partLoop acc s = .ok (acc ++ l) s' ∧ Stand C Γ .none o s' ∧
        mu s' + i.length ≤ mu s + o.length

/-- A phrase whose run is known. -/
def Ok (C : Cfg) (Γ : Env) (nt : CT) (i o : List Tok) : Prop := Core C Γ nt i o ∧ Means C Γ nt i o

theorem Ok.core {C : Cfg} {Γ : Env} {nt : CT} {i o : List Tok} (h : Ok C Γ nt i o) :
    Core C Γ nt i o := h.1

theorem Ok.means {C : Cfg} {Γ : Env} {nt : CT} {i o : List Tok} (h : Ok C Γ nt i o) :
    Means C Γ nt i o := h.2

theorem Ok.start {C : Cfg} {Γ : Env} {nt : CT} {i o : List Tok} (h : Ok C Γ nt i o) :
    nt.Start C i o := h.1.start

theorem Ok.length {C : Cfg} {Γ : Env} {nt : CT} {i o : List Tok} (h : Ok C Γ nt i o) :
    o.length + nt.least ≤ i.length := h.1.length

theorem Core.seqComma {C : Cfg} {Γ : Env} {f : Flags} {l : List Expr} {i o : List Tok}
    (h : Core C Γ (.seqTail f l) i o) (hl : l ≠ []) : head i = .punct .comma := by
  generalize hx : CT.seqTail f l = nt at h
  cases h with
  | seqStop => cases hx; exact absurd rfl hl
  | seqMore ht => exact ht
  | _ => exact nomatch hx

theorem head_split {i : List Tok} {t : Token} (h : head i = t) (ht : t ≠ .eof) :
    ∃ u j, i = u :: j ∧ u.item.token = t := by
  cases i with
  | nil => exact absurd h.symm ht
  | cons u j => exact ⟨u, j, rfl, h⟩

theorem other_split {C : Cfg} {i : List Tok} {w : Txt} (h : C.other w i) :
    ∃ u j, i = u :: j ∧ C.text u ≠ w := by
  cases i with
  | nil => exact absurd h id
  | cons u j => exact ⟨u, j, rfl, h⟩

/-- Tokens with which no expression starts. -/
theorem exprStart_ne {t : Token} (h : exprStart t = true) : t ≠ .eof ∧ t ≠ .punct .closeParen ∧
    t ≠ .punct .closeBracket ∧ t ≠ .punct .closeBrace ∧ t ≠ .punct .comma ∧
    t ≠ .punct .semiColon ∧ t ≠ .punct .colon ∧ t ≠ .punct .spread ∧ t ≠ .punct .period ∧
    t ≠ .punct .fatArrow ∧ t ≠ .punct .assign ∧ t ≠ .punct .asterisk := by
  refine ⟨?_, ?_, ?_, ?_, ?_, ?_, ?_, ?_, ?_, ?_, ?_, ?_⟩ <;> rintro rfl <;>
    simp [exprStart] at h

/-- Tokens with which no pattern starts. -/
theorem patStart_ne {t : Token} (h : patStart t = true) :
    t ≠ .eof ∧ t ≠ .punct .closeParen ∧
    t ≠ .punct .closeBracket ∧ t ≠ .punct .closeBrace ∧ t ≠ .punct .comma ∧
    t ≠ .punct .semiColon ∧ t ≠ .punct .colon ∧ t ≠ .punct .spread ∧
    t ≠ .punct .assign ∧ t ≠ .keyword .let := by
  refine ⟨?_, ?_, ?_, ?_, ?_, ?_, ?_, ?_, ?_, ?_⟩ <;> rintro rfl <;>
    simp [patStart] at h

theorem lexStart_ne {t : Token} (h : lexStart t = true) : t ≠ .keyword .in := by
  rintro rfl
  simp [lexStart] at h

theorem noAsyncFn_split {C : Cfg} {i : List Tok} (h : C.noAsyncFn i) :
    ∃ u j, i = u :: j ∧ (C.text u ≠ t!"async" ∨ head j ≠ .keyword .function) := by
  cases i with
  | nil => exact absurd h id
  | cons u j => exact ⟨u, j, rfl, h⟩

theorem paramStart_ne {t : Token} (h : patStart t = true ∨ t = .punct .spread) :
    t ≠ .eof ∧ t ≠ .punct .closeParen ∧ t ≠ .punct .comma := by
  rcases h with h | rfl
  · have := patStart_ne h; simp [this]
  · simp

theorem argStart_ne {t : Token} (h : exprStart t = true ∨ t = .punct .spread) :
    t ≠ .eof ∧ t ≠ .punct .closeParen ∧ t ≠ .punct .comma := by
  rcases h with h | rfl
  · have := exprStart_ne h; simp [this]
  · simp

/-- Tokens with which no property key starts. -/
theorem keyStart_nes {t : Token} (h : keyStart t = true) : t ≠ .eof ∧ t ≠ .punct .closeParen ∧
    t ≠ .punct .closeBracket ∧ t ≠ .punct .closeBrace ∧ t ≠ .punct .comma ∧
    t ≠ .punct .semiColon ∧ t ≠ .punct .colon ∧ t ≠ .punct .spread ∧ t ≠ .punct .asterisk ∧
    t ≠ .punct .openParen := by
  refine ⟨?_, ?_, ?_, ?_, ?_, ?_, ?_, ?_, ?_, ?_⟩ <;> rintro rfl <;>
    simp [keyStart] at h

end Gr

end Ressa

namespace ExecTac

open Lean Meta Elab Tactic

/-- Split the conjunctions and existential statements of a hypothesis. -/
partial def splitHyp (g : MVarId) (h : FVarId) : MetaM MVarId := g.withContext do
  let t ← whnfR (← instantiateMVars (← h.getType))
  let t := if t.isAppOf ``Ressa.Gr.PatRun then mkConst ``And else t
  if t.isAppOf ``And || t.isAppOf ``Exists then
    let subs ← g.cases h
    match subs with
    | #[s] =>
      let mut g := s.mvarId
      for x in s.fields do
        if x.isFVar then g ← splitHyp g x.fvarId!
      return g
    | _ => return g
  return g

def addFact (g : MVarId) (pf : Expr) (type : Expr) : MetaM MVarId := do
  let g ← g.assert `h type pf
  let (h, g) ← g.intro1
  splitHyp g h

/-- What is known of the parts of a phrase. -/
elab "unpack" : tactic => liftMetaTactic fun g => do
  let mut g := g
  let hs ← g.withContext do
    return (← getLCtx).decls.toArray.filterMap id |>.filter fun d => d.type.isAppOf ``Ressa.Gr.Ok
  for d in hs do
    let h := mkFVar d.fvarId
    g ← g.withContext do
      let pf ← mkAppM ``Ressa.Gr.Ok.length #[h]
      addFact g pf (← inferType pf)
    g ← g.withContext do
      let pf ← mkAppM ``Ressa.Gr.Ok.start #[h]
      let t ← inferType pf
      let some t' ← delta? t | throwError "unpack"
      let t' ← whnfCore t'
      if t'.isConstOf ``True then return g
      let mut g ← addFact g pf t'
      for l in [``Ressa.Gr.exprStart_ne, ``Ressa.Gr.patStart_ne, ``Ressa.Gr.lexStart_ne,
          ``Ressa.Gr.paramStart_ne, ``Ressa.Gr.argStart_ne, ``Ressa.Gr.keyStart_nes] do
        for x in (← g.withContext getLCtx).decls.toArray.filterMap id do
          if x.index < d.index then continue
          g ← g.withContext do
            if x.isImplementationDetail then return g
            let s ← Meta.saveState
            let c ← mkConstWithFreshMVarLevels l
            let (ms, _, _) ← forallMetaTelescope (← inferType c)
            let goal := ms.back!
            if ← withReducible (isDefEq (← inferType goal) x.type) then
              let pf ← instantiateMVars (mkAppN c (ms.pop.push (mkFVar x.fvarId)))
              addFact g pf (← inferType pf)
            else
              s.restore
              return g
      return g
    g ← g.withContext do
      let pf ← mkAppM ``Ressa.Gr.Ok.means #[h]
      let t ← inferType pf
      let some t' ← delta? t | throwError "unpack"
      let t' ← whnfCore t'
      addFact g pf t'
  return [g]

/-- Compare lengths. -/
macro "len" : tactic => `(tactic| (simp only [List.length_cons, Ressa.Gr.CT.least] at *; omega))

/-- Prepare the run of the phrase. -/
macro "pre" : tactic => `(tactic| (
  unpack
  try subst_vars
  try simp only [Ressa.Gr.Means]
  try simp only [Ressa.Gr.head_cons] at *
  intros
  try apply Ressa.Exec.to_bot))

/-- Follow the run of the phrase. -/
macro "fw" : tactic => `(tactic| (pre; ex))

/-- One round of a loop. -/
macro "more" : tactic => `(tactic| (
  first
  | apply Ressa.Exec.untilStep'
  | apply Ressa.Exec.loopStep
  · ex
  · ex
  · len
  try (ex; done)))

/-- The last round of a loop. -/
macro "final" : tactic => `(tactic| (apply Ressa.Exec.loopBreak <;> ex))

/-- The end of a loop. -/
macro "halt" : tactic => `(tactic| (
  first
  | apply Ressa.Exec.untilExit'
  | apply Ressa.Exec.loopExit
  ex))

end ExecTac
