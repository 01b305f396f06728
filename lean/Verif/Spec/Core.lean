import Verif.Spec.Operators
import Verif.Spec.Scanner

/-!
# Programs that are accepted

`Core C Γ nt i o`: in the environment `Γ` the items `i` begin with a phrase of the kind `nt`, and
`o` is what remains.  Unlike `G`, which every accepted program satisfies, these rules are meant to
be *sufficient*: what follows a phrase is restricted wherever the parser would otherwise go on
reading, and the conditions under which it reports an error are excluded.  `Verif.Props.Accept`
proves that the parser accepts every program of this grammar and returns exactly its tree.

The index `f : Flags` of an expression says what is known of it: whether it may be assigned to, and
whether it may stand for parameters of an arrow function.

Not covered: `yield` as a name, except for function expressions in strict mode.
-/

namespace Ressa.Gr

/-- The first item is spelled differently. -/
def Cfg.other (C : Cfg) (w : Txt) : List Tok → Prop
  | [] => False
  | t :: _ => C.text t ≠ w

/-- No `async` in front of `function`. -/
def Cfg.noAsyncFn (C : Cfg) : List Tok → Prop
  | [] => False
  | t :: o => C.text t ≠ t!"async" ∨ head o ≠ .keyword .function

/-- The two items stand on one line, with nothing but blanks in between. -/
def Cfg.joined (C : Cfg) (t t' : Tok) : Prop :=
  LfOnly C.stream ∧
    (∃ gap, sliceB C.stream t.item.span.stop t'.item.span.start = some gap ∧
      ∀ c ∈ gap, c = ' ' ∨ c = '\t') ∧
    ∃ c w, C.text t' = c :: w ∧ c ≠ '\n'

/-- The keyword is not also an identifier. -/
def Cfg.hard (C : Cfg) (Γ : Env) (k : Keyword) : Prop :=
  Γ.strict = false → C.ext.isStrictReserved (.keyword k) = false

/-- May an expression start with this token? -/
def exprStart : Token → Bool
  | .eof | .comment _ => false
  | .punct p => p == .openParen || p == .openBracket || p == .openBrace || p == .plus ||
      p == .minus || p == .not || p == .bitwiseNot || p == .increment || p == .decrement
  | _ => true

/-- Does an operand of `yield` start with this token?  *(quirk)* Not with `{`. -/
def yieldStart : Token → Bool
  | .punct p => p == .openBracket || p == .openParen || p == .plus || p == .minus || p == .not ||
      p == .bitwiseNot || p == .increment || p == .decrement
  | .keyword k => k == .class || k == .delete || k == .function || k == .let || k == .new ||
      k == .super || k == .this || k == .typeOf || k == .void || k == .yield
  | _ => true

/-- Is a statement that starts with this token an expression statement? -/
def exprStmtStart : Token → Bool
  | .eof | .comment _ => false
  | .punct p => p != .openBrace && p != .semiColon
  | .keyword k => match k with
    | .break | .continue | .debugger | .do | .for | .function | .if | .return | .switch | .throw
    | .try | .var | .while | .with | .case | .default => false
    | _ => true
  | _ => true

/-- Is a statement list item that starts with this token neither a declaration nor a module
item, whatever comes next? -/
def itemIsStmt : Token → Bool
  | .keyword k => match k with
    | .import | .export | .const | .function | .class | .let => false
    | _ => true
  | _ => true

/-- May the first binding of `let` or `const` start with this token? -/
def lexStart : Token → Bool
  | .keyword _ => false
  | _ => true

/-- Does `let` in front of this token declare something? -/
def letDecl : Token → Bool
  | .ident => true
  | .punct p => p == .openBracket || p == .openBrace
  | .keyword k => k == .let || k == .yield
  | _ => false

/-- Does a token continue a call expression? -/
def callMore : Token → Bool
  | .punct p => p == .period || p == .openParen || p == .openBracket
  | .template k => k == .head || k == .noSub
  | _ => false

/-- Does a token continue a member expression? -/
def memberMore : Token → Bool
  | .punct p => p == .period || p == .openBracket
  | .template _ => true
  | _ => false

/-- Is the token an assignment operator? -/
def isAssignOp : Token → Bool
  | .punct p => (assignmentOperator p).isSome
  | _ => false

/-- The operand of `return` starts here. -/
def Cfg.returnArg (C : Cfg) (i : List Tok) : Bool :=
  if C.nl i then (head i).isString || (head i).isTemplate
  else head i != .punct .semiColon && head i != .punct .closeBrace && head i != .eof

/-- May a default import have this name?  *(quirk)* Keywords, `true`, `false` and `null` too. -/
def importable (t : Token) : Bool :=
  (t.isIdent || t.isKeyword || t.isBool || t.isNull) && t != .keyword .default

/-- No `yield` expression among the defaults of a parameter. -/
def plainArg : FunctionArg → Bool
  | .pat (.assignment _ (.yield _ _)) => false
  | .expr (.assignment _ _ (.yield _ _)) => false
  | .expr (.yield _ _) => false
  | _ => true

/-- Not the name `await`. -/
def notAwait : Expr → Bool
  | .ident n => n != t!"await"
  | _ => true

/-- A declaration of a single name. -/
def plainDecl : VariableDecl → Bool
  | .mk p _ => isPatIdent p

/-- The kinds of phrases.  `isAsync` of the rest of a call says that the call may start with `async`,
`rest` of the rest of a group that it ends in `...`.  `free` of loop heads says that no flag of the cover grammar has been
cleared in front of the loop. -/
inductive CT
  -- names
  | ident (n : Txt)
  | key (k : PropertyKey)
  | semi
  -- patterns
  | pattern (restricted : Bool) (p : Pat)
  | patDefault (restricted : Bool) (p : Pat)
  | patElems (l : List (Option ArrayPatPart))
  | patProp (p : ObjectPatPart)
  | patProps (l : List ObjectPatPart)
  -- functions
  | prologue (l : List ProgramPart)
  | items (l : List ProgramPart)
  | body (l : List ProgramPart)
  | param (restricted : Bool) (a : FunctionArg)
  | paramSeq (restricted : Bool) (l : List FunctionArg)
  | params (restricted : Bool) (l : List FunctionArg)
  | fnStart (isAsync : Bool)
  | star (g : Bool)
  | declName (optIdent : Bool) (id : Option Txt)
  | fnDecl (optIdent : Bool) (f : Function)
  | exprName (id : Option Txt)
  | fnExpr (e : Expr)
  | method (isAsync gen : Bool) (v : PropertyValue)
  | getter (v : PropertyValue)
  | setter (v : PropertyValue)
  -- classes
  | elBody (isStatic : Bool) (b : ElBody)
  | classEl (ctor ctor' : Bool) (p : Property)
  | classEls (ctor : Bool) (l : List Property)
  | classBody (l : List Property)
  | heritage (e : Option Expr)
  | className (optIdent : Bool) (id : Option Txt)
  | cls (optIdent : Bool) (c : Class)
  -- expressions
  | tplTail (es : List Expr) (qs : List TemplateElement)
  | tpl (es : List Expr) (qs : List TemplateElement)
  | arg (e : Expr)
  | argSeq (l : List Expr)
  | args (l : List Expr)
  | propKey (k : PropertyKey) (computed : Bool)
  | prop (f : Flags) (p : ObjectProperty) (g : Flags)
  | props (f : Flags) (l : List ObjectProperty) (g : Flags)
  | elems (f : Flags) (l : List (Option Expr))
  | primary (f : Flags) (e : Expr)
  | newExpr (f : Flags) (e : Expr)
  | operand (f : Flags) (e : Expr)
  | memTail (e e' : Expr)
  | member (e : Expr)
  | callTail (isAsync : Bool) (f : Flags) (e : Expr) (f' : Flags) (e' : Expr)
  | call (f : Flags) (e : Expr)
  | update (f : Flags) (e : Expr)
  | unary (f : Flags) (e : Expr)
  | expo (f : Flags) (e : Expr)
  | opTail (l : List (Op × Expr))
  | bin (f : Flags) (e : Expr)
  | cond (f : Flags) (e : Expr)
  | groupTail (rest : Bool) (l : List FunctionArg)
  | arrowHead (l : List FunctionArg)
  | arrowBody (isAsync : Bool) (l : List FunctionArg) (e : Expr)
  | single (f : Flags) (e : Expr)
  | assign (f : Flags) (e : Expr)
  | seqTail (f : Flags) (l : List Expr)
  | expression (e : Expr)
  -- statements
  | block (l : List ProgramPart)
  | varD (strictly inFor : Bool) (d : VariableDecl)
  | varDs (strictly inFor : Bool) (l : List VariableDecl)
  | lexD (k : VariableKind) (inFor : Bool) (d : VariableDecl)
  | lexDs (k : VariableKind) (inFor : Bool) (l : List VariableDecl)
  | lexical (d : Decl)
  | loopBody (s : Stmt)
  | optExpr (stop : Punct) (e : Option Expr)
  | forCont (init : Option LoopInit) (s : Stmt)
  | forIn (left : LoopLeft) (s : Stmt)
  | forOf (free isAwait : Bool) (left : LoopLeft) (s : Stmt)
  | forHead (free isAwait : Bool) (s : Stmt)
  | forStmt (free : Bool) (s : Stmt)
  | catchParam (p : Option Pat)
  | handler (c : Option CatchClause)
  | finalizer (l : Option (List ProgramPart))
  | switchCase (c : SwitchCase)
  | cases (found : Bool) (l : List SwitchCase)
  | optLabel (l : Option Txt)
  | labelBody (s : Stmt)
  | clause (s : Stmt)
  | stmt (s : Stmt)
  -- modules
  | importSpec (s : ImportSpecifier)
  | importSeq (l : List ImportSpecifier)
  | named (l : List ImportSpecifier)
  | nsImport (s : ImportSpecifier)
  | imports (l : List ImportSpecifier)
  | importDecl (i : ModImport)
  | exportSpec (dflt : Bool) (s : ExportSpecifier)
  | exportSeq (dflt : Bool) (l : List ExportSpecifier)
  | exportDecl (e : ModExport)
  | listItem (p : ProgramPart)
  -- programs
  | parts (past : Bool) (l : List ProgramPart)

/-- See above. -/
inductive Core (C : Cfg) : Env → CT → List Tok → List Tok → Prop

  -- Names

  | ident {Γ t o} : t.item.token = .ident →
      (C.isModule = true ∨ Γ.await = true → C.text t ≠ t!"await") →
      Core C Γ (.ident (C.text t)) (t :: o) o
  | keyString {Γ t o} : t.item.token = .string →
      Core C Γ (.key (.literal (.string (C.text t)))) (t :: o) o
  | keyNumber {Γ t o} : t.item.token = .numeric →
      Core C Γ (.key (.literal (.number (C.text t)))) (t :: o) o
  | keyName {Γ t o} : (t.item.token.isIdent || t.item.token.isBool || t.item.token.isNull ||
        t.item.token.isKeyword) = true →
      Core C Γ (.key (.expr (.ident (C.text t)))) (t :: o) o
  | keyComputed {Γ t t' f e i o} : Is t .openBracket → Core C Γ (.assign f e) i (t' :: o) →
      Is t' .closeBracket → Core C Γ (.key (computedKey e)) (t :: i) o
  | semiToken {Γ t o} : Is t .semiColon → Core C Γ .semi (t :: o) o
  | semiLine {Γ o} : C.nl o = true → head o ≠ .punct .semiColon → Core C Γ .semi o o
  | semiEnd {Γ o} : head o = .eof ∨ head o = .punct .closeBrace → Core C Γ .semi o o

  -- Patterns

  | patIdent {Γ n i o} : Core C Γ (.ident n) i o →
      Core C Γ (.pattern (isRestrictedWord n) (.identifier n)) i o
  /-- *(quirk)* outside strict mode every keyword but `let` can be the name of a variable. -/
  | patKeyword {Γ t k o} : Kw t k → k ≠ .let → k ≠ .yield → Γ.strict = false →
      Core C Γ (.pattern (isRestrictedWord k.text) (.identifier k.text)) (t :: o) o
  | patArray {Γ t t' l i o} : Is t .openBracket → Core C Γ (.patElems l) i (t' :: o) →
      Is t' .closeBracket → Core C Γ (.pattern false (.array l)) (t :: i) o
  | patObject {Γ t t' l i o} : Is t .openBrace → Core C Γ (.patProps l) i (t' :: o) →
      Is t' .closeBrace → Core C Γ (.pattern false (.object l)) (t :: i) o
  | patNoDefault {Γ b p i o} : Core C Γ (.pattern b p) i o → head o ≠ .punct .assign →
      Core C Γ (.patDefault b p) i o
  | patDefault {Γ b p t f e i j o} : Core C Γ (.pattern b p) i (t :: j) → Is t .assign →
      Core C (Γ.yielding false) (.assign f e) j o → Core C Γ (.patDefault b (.assignment p e)) i o
  | patElemsEnd {Γ o} : head o = .punct .closeBracket → Core C Γ (.patElems []) o o
  | patElemsHole {Γ l t i o} : Is t .comma → Core C Γ (.patElems l) i o →
      Core C Γ (.patElems (none :: l)) (t :: i) o
  | patElemsMore {Γ l b p t i j o} : Core C Γ (.patDefault b p) i (t :: j) → Is t .comma →
      Core C Γ (.patElems l) j o → Core C Γ (.patElems (some (.pat p) :: l)) i o
  | patElemsLast {Γ b p i o} : Core C Γ (.patDefault b p) i o → head o = .punct .closeBracket →
      Core C Γ (.patElems [some (.pat p)]) i o
  | patElemsRest {Γ b p t i o} : Is t .spread → Core C Γ (.pattern b p) i o →
      head o = .punct .closeBracket → Core C Γ (.patElems [some (.pat p)]) (t :: i) o
  | patPropRest {Γ b p t i o} : Is t .spread → Core C Γ (.pattern b p) i o →
      Core C Γ (.patProp (.rest (.restElement p))) (t :: i) o
  | patPropInit {Γ n t f e i j o} : Core C Γ (.ident n) i (t :: j) → Is t .assign →
      Core C Γ (.single f e) j o →
      Core C Γ (.patProp (.assignment (.mk (.expr (.ident n)) (.expr e) .init false false true))) i o
  | patPropName {Γ n t b p i j o} : Core C Γ (.ident n) i (t :: j) → Is t .colon →
      Core C Γ (.patDefault b p) j o →
      Core C Γ (.patProp (.assignment (.mk (.expr (.ident n)) (.pat p) .init false false false))) i o
  | patPropShort {Γ n i o} : Core C Γ (.ident n) i o →
      head o = .punct .comma ∨ head o = .punct .closeBrace →
      Core C Γ (.patProp (.assignment (.mk (.expr (.ident n)) .none .init false false true))) i o
  | patPropKey {Γ k t b p i j o} : head i ≠ .ident → Core C Γ (.key k) i (t :: j) → Is t .colon →
      Core C Γ (.patDefault b p) j o →
      Core C Γ (.patProp (.assignment (.mk k (.pat p) .init false (atBracket i) false))) i o
  | patPropsEnd {Γ o} : head o = .punct .closeBrace → Core C Γ (.patProps []) o o
  | patPropsMore {Γ l p t i j o} : Core C Γ (.patProp p) i (t :: j) → Is t .comma →
      Core C Γ (.patProps l) j o → Core C Γ (.patProps (p :: l)) i o
  | patPropsLast {Γ p i o} : Core C Γ (.patProp p) i o → head o = .punct .closeBrace →
      Core C Γ (.patProps [p]) i o

  -- Functions

  | prologueEnd {Γ o} : head o ≠ .string → Core C Γ (.prologue []) o o
  | prologueDir {Γ s l i j k o} : head i = .string →
      Core C Γ (.expression (.literal (.string s))) i j → s ≠ t!"use strict" →
      Core C Γ .semi j k → Core C Γ (.prologue l) k o →
      Core C Γ (.prologue (.dir s (trimQuotes s) :: l)) i o
  | prologueExpr {Γ e l i j k o} : head i = .string → Core C Γ (.expression e) i j →
      (∀ l, e ≠ .literal l) → (∀ es qs, e ≠ .template es qs) → Core C Γ .semi j k →
      Core C Γ (.prologue l) k o → Core C Γ (.prologue (.stmt (.expr e) :: l)) i o
  | itemsEnd {Γ o} : Core C Γ (.items []) o o
  | itemsMore {Γ p l i j o} : Core C Γ (.listItem p) i j → Core C Γ (.items l) j o →
      Core C Γ (.items (p :: l)) i o
  | body {Γ t t' ds l i j o} : Is t .openBrace → Core C Γ (.prologue ds) i j →
      Core C Γ.body (.items l) j (t' :: o) → Is t' .closeBrace →
      Core C Γ (.body (ds ++ l)) (t :: i) o
  | paramRest {Γ b p t i o} : Is t .spread → Core C Γ (.pattern b p) i o →
      head o = .punct .closeParen → Core C Γ (.param b (.pat (.restElement p))) (t :: i) o
  | param {Γ b p i o} : Core C Γ (.patDefault b p) i o → Core C Γ (.param b (.pat p)) i o
  | paramLast {Γ b a i o} : Core C Γ (.param b a) i o → head o = .punct .closeParen →
      Core C Γ (.paramSeq b [a]) i o
  | paramTrail {Γ b a t i o} : Core C Γ (.param b a) i (t :: o) → Is t .comma →
      head o = .punct .closeParen → Core C Γ (.paramSeq b [a]) i o
  | paramMore {Γ b b' a l t i j o} : Core C Γ (.param b a) i (t :: j) → Is t .comma →
      Core C Γ (.paramSeq b' l) j o → Core C Γ (.paramSeq (b || b') (a :: l)) i o
  | paramsNone {Γ t t' o} : Is t .openParen → Is t' .closeParen →
      Core C Γ (.params false []) (t :: t' :: o) o
  | params {Γ b l t t' i o} : Is t .openParen → Core C Γ (.paramSeq b l) i (t' :: o) →
      Is t' .closeParen → Core C Γ (.params b l) (t :: i) o
  | starNo {Γ o} : head o ≠ .punct .asterisk → Core C Γ (.star false) o o
  | starYes {Γ t o} : Is t .asterisk → Core C Γ (.star true) (t :: o) o
  | declNameNone {Γ o} : head o = .punct .openParen → Core C Γ (.declName true none) o o
  | declName {Γ opt n i o} : Core C Γ (.ident n) i o →
      (Γ.strict = true → C.ext.isRestricted .ident n = false) →
      Core C Γ (.declName opt (some n)) i o
  | fnPlain {Γ t o} : Kw t .function → C.text t ≠ t!"async" →
      Core C Γ (.fnStart false) (t :: o) o
  | fnAsync {Γ t t' o} : t.item.token = .ident → C.text t = t!"async" → Kw t' .function →
      C.joined t t' → Core C Γ (.fnStart true) (t :: t' :: o) o
  /-- *(quirk)* no `*` after `async function`. -/
  | fnDecl {Γ a g opt id b ps l h i j k m o} : Core C Γ (.fnStart a) h i →
      Core C Γ (.star g) i j → (a && g) = false → Core C Γ (.declName opt id) j k →
      Core C (Γ.fn a g) (.params b ps) k m → Core C (Γ.fn a g) (.body l) m o →
      Core C Γ (.fnDecl opt (.mk id ps l g a)) h o
  | exprNameNone {Γ o} : head o = .punct .openParen → Core C Γ (.exprName none) o o
  | exprName {Γ n i o} : Core C Γ (.ident n) i o →
      (Γ.strict = true → (C.ext.isRestricted .ident n || C.ext.isStrictReserved .ident) = true →
        C.tolerant = true) → Core C Γ (.exprName (some n)) i o
  /-- *(quirk)* -/
  | exprYield {Γ t o} : Kw t .yield → Γ.strict = true → Γ.gen = false →
      ((C.ext.isRestricted (.keyword .yield) (C.text t) ||
        C.ext.isStrictReserved (.keyword .yield)) = true → C.tolerant = true) →
      Core C Γ (.exprName (some (C.text t))) (t :: o) o
  | fnExpr {Γ a g id b ps l h i j k m o} : Core C Γ (.fnStart a) h i →
      Core C Γ (.star g) i j → Core C (Γ.fn a g) (.exprName id) j k →
      Core C (Γ.fn a g) (.params b ps) k m → Core C (Γ.fn a g) (.body l) m o →
      (Γ.strict = true → b = true → C.tolerant = true) →
      Core C Γ (.fnExpr (.function (.mk id ps l g a))) h o
  /-- *(quirk)* `yield` is an operator in every method. -/
  | method {Γ b ps l i j o} : Core C (Γ.yielding true) (.params b ps) i j →
      Core C (Γ.yielding true) (.body l) j o →
      (Γ.strict = true → b = true → C.tolerant = true) →
      Core C Γ (.method false false (.expr (.function (.mk none ps l false false)))) i o
  | methodGen {Γ b ps l i j o} : Core C (Γ.yielding false) (.params b ps) i j →
      Core C (Γ.yielding true) (.body l) j o →
      (Γ.strict = true → b = true → C.tolerant = true) →
      Core C Γ (.method false true (.expr (.function (.mk none ps l true false)))) i o
  | methodAsync {Γ b ps l i j o} : Core C (Γ.fn true true) (.params b ps) i j →
      Core C (Γ.fn true true) (.body l) j o →
      (Γ.strict = true → b = true → C.tolerant = true) →
      Core C Γ (.method true false (.expr (.function (.mk none ps l false true)))) i o
  | getter {Γ b ps l i j o} : Core C Γ (.params b ps) i j → (ps = [] ∨ C.tolerant = true) →
      Core C Γ (.body l) j o → (Γ.strict = true → b = true → C.tolerant = true) →
      Core C Γ (.getter (.expr (.function (.mk none ps l false false)))) i o
  | setter {Γ b ps l i j o} : Core C (Γ.yielding false) (.params b ps) i j →
      ((∃ a, ps = [a] ∧ isRestArg a = false) ∨ C.tolerant = true) →
      Core C Γ (.body l) j o → (Γ.strict = true → b = true → C.tolerant = true) →
      Core C Γ (.setter (.expr (.function (.mk none ps l false false)))) i o

  -- Classes: the element is described from its key on

  | elMethod {Γ s k v i j o} : Core C Γ (.key k) i j → head i ≠ .punct .asterisk →
      (isKey k t!"static" = true → s = true ∨ C.ext.isLiteral (.punct .openParen) = false) →
      (head i = .ident → isKey k t!"get" = true ∨ isKey k t!"set" = true →
        C.ext.isLiteral (.punct .openParen) = false) →
      C.other t!"async" j → Core C Γ (.method false false v) j o →
      Core C Γ (.elBody s ⟨some .init, true, some k, some v, atBracket i⟩) i o
  | elGet {Γ s t k v i j o} : t.item.token = .ident → C.text t = t!"get" →
      (head i).isIdent = true ∨ (head i).isKeyword = true ∨ C.ext.isLiteral (head i) = true ∨
        head i = .punct .openBracket → C.other t!"async" i →
      Core C Γ (.key k) i j → Core C Γ (.getter v) j o →
      Core C Γ (.elBody s ⟨some .get, false, some k, some v, atBracket i⟩) (t :: i) o
  | elSet {Γ s t k v i j o} : t.item.token = .ident → C.text t = t!"set" →
      (head i).isIdent = true ∨ (head i).isKeyword = true ∨ C.ext.isLiteral (head i) = true ∨
        head i = .punct .openBracket → C.other t!"async" i →
      Core C Γ (.key k) i j → Core C Γ (.setter v) j o →
      Core C Γ (.elBody s ⟨some .set, false, some k, some v, atBracket i⟩) (t :: i) o
  | elGen {Γ s t k v i j o} : Is t .asterisk →
      (head i).isIdent = true ∨ (head i).isKeyword = true ∨ C.ext.isLiteral (head i) = true ∨
        head i = .punct .openBracket →
      Core C Γ (.key k) i j → Core C Γ (.method false true v) j o →
      Core C Γ (.elBody s ⟨some .init, true, some k, some v, atBracket i⟩) (t :: i) o
  | classEl {Γ c c' b p i o} : C.other t!"async" i → Core C Γ (.elBody false b) i o →
      Finish c false b c' p → Core C Γ (.classEl c c' p) i o
  /-- *(quirk)* neither `static` nor `*` may stand by `async`. -/
  | classElAsync {Γ c c' k v p t i j o} : t.item.token = .ident → C.text t = t!"async" →
      Core C Γ (.key k) i j → (isKey k t!"static" || isKey k t!"get" || isKey k t!"set") = false →
      C.other t!"async" j → Core C Γ (.method true false v) j o →
      Finish c false ⟨some .init, true, some k, some v, atBracket i⟩ c' p →
      Core C Γ (.classEl c c' p) (t :: i) o
  | classElStatic {Γ c c' b p t i o} : t.item.token.isIdent = true ∨ t.item.token.isKeyword = true →
      C.text t = t!"static" →
      (head i).isIdent = true ∨ (head i).isKeyword = true ∨ C.ext.isLiteral (head i) = true ∨
        head i = .punct .openBracket ∨ head i = .punct .asterisk →
      Core C Γ (.elBody true b) i o → Finish c true b c' p → Core C Γ (.classEl c c' p) (t :: i) o
  | classElsEnd {Γ c o} : head o = .punct .closeBrace → Core C Γ (.classEls c []) o o
  | classElsSemi {Γ c l t i o} : Is t .semiColon → Core C Γ (.classEls c l) i o →
      Core C Γ (.classEls c l) (t :: i) o
  | classElsMore {Γ c c' l p i j o} : Core C Γ (.classEl c c' p) i j →
      Core C Γ (.classEls c' l) j o → Core C Γ (.classEls c (p :: l)) i o
  | classBody {Γ l t t' i o} : Is t .openBrace → Core C Γ (.classEls false l) i (t' :: o) →
      Is t' .closeBrace → Core C Γ (.classBody l) (t :: i) o
  | heritageNone {Γ o} : C.other t!"extends" o → Core C Γ (.heritage none) o o
  | heritage {Γ t e i o} : C.text t = t!"extends" → Core C Γ (.member e) i o →
      Core C Γ (.heritage (some e)) (t :: i) o
  | classNameNone {Γ o} : head o ≠ .ident → Core C Γ (.className true none) o o
  | className {Γ opt n i o} : Core C Γ (.ident n) i o → Core C Γ (.className opt (some n)) i o
  /-- *(quirk)* the superclass is not kept when it stands in front of the name. -/
  | clsDropped {Γ opt t id e l i j k o} : Kw t .class →
      Core C Γ.strictly (.heritage (some e)) i j → Core C Γ.strictly (.className opt id) j k →
      Core C Γ.strictly (.classBody l) k o → Core C Γ (.cls opt (.mk id none l)) (t :: i) o
  | cls {Γ opt t id sup l i j k o} : Kw t .class → C.other t!"extends" i →
      Core C Γ.strictly (.className opt id) i j → Core C Γ.strictly (.heritage sup) j k →
      Core C Γ.strictly (.classBody l) k o → Core C Γ (.cls opt (.mk id sup l)) (t :: i) o

  -- Templates, arguments, objects, arrays

  | tplLast {Γ e t mid i o} : Core C Γ (.expression e) i (t :: o) →
      t.item.token = .template .tail → C.text t = '}' :: (mid ++ ['`']) →
      Core C Γ (.tplTail [e] [⟨C.text t, mid, true⟩]) i o
  | tplMore {Γ e t mid es qs i j o} : Core C Γ (.expression e) i (t :: j) →
      t.item.token = .template .body → C.text t = '}' :: (mid ++ ['$', '{']) →
      Core C Γ (.tplTail es qs) j o →
      Core C Γ (.tplTail (e :: es) (⟨C.text t, mid, false⟩ :: qs)) i o
  | tplPlain {Γ t mid o} : t.item.token = .template .noSub → C.text t = '`' :: (mid ++ ['`']) →
      Core C Γ (.tpl [] [⟨C.text t, mid, true⟩]) (t :: o) o
  | tpl {Γ t mid es qs i o} : t.item.token = .template .head →
      C.text t = '`' :: (mid ++ ['$', '{']) → Core C Γ (.tplTail es qs) i o →
      Core C Γ (.tpl es (⟨C.text t, mid, false⟩ :: qs)) (t :: i) o
  | argSpread {Γ t f e i o} : Is t .spread → Core C Γ (.assign f e) i o →
      Core C Γ (.arg (.spread e)) (t :: i) o
  | arg {Γ f e i o} : Core C Γ (.assign f e) i o → Core C Γ (.arg e) i o
  | argLast {Γ e i o} : Core C Γ (.arg e) i o → head o = .punct .closeParen →
      Core C Γ (.argSeq [e]) i o
  | argTrail {Γ e t i o} : Core C Γ (.arg e) i (t :: o) → Is t .comma →
      head o = .punct .closeParen → Core C Γ (.argSeq [e]) i o
  | argMore {Γ e l t i j o} : Core C Γ (.arg e) i (t :: j) → Is t .comma →
      Core C Γ (.argSeq l) j o → Core C Γ (.argSeq (e :: l)) i o
  | argNext {Γ e l i j o} : Core C Γ (.arg e) i j → C.tolerant = true → head j ≠ .punct .comma →
      Core C Γ (.argSeq l) j o → Core C Γ (.argSeq (e :: l)) i o
  | argsNone {Γ t t' o} : Is t .openParen → Is t' .closeParen →
      Core C Γ (.args []) (t :: t' :: o) o
  | args {Γ l t t' i o} : Is t .openParen → Core C Γ (.argSeq l) i (t' :: o) →
      Is t' .closeParen → Core C Γ (.args l) (t :: i) o
  | propIdent {Γ t o} : t.item.token = .ident → C.text t ≠ t!"async" →
      Core C Γ (.propKey (.expr (.ident (C.text t))) (atBracket o)) (t :: o) o
  | propKey {Γ k i o} : head i ≠ .ident → Core C Γ (.key k) i o →
      Core C Γ (.propKey k (atBracket i)) i o
  | propInit {Γ f k c t g e i j o} : Core C Γ (.propKey k c) i (t :: j) → Is t .colon →
      Core C Γ (.single g e) j o →
      Core C Γ (.prop f (.property (.mk k (.expr e) .init false c false)) (g.and f)) i o
  | propAssign {Γ f k c t g e i j o} : Core C Γ (.propKey k c) i (t :: j) → Is t .colon →
      Core C Γ (.assign g e) j o → f.1 = true ∨ C.tolerant = true →
      Core C Γ (.prop f (.property (.mk k (.expr e) .init false c false)) (g.and f)) i o
  | propMethod {Γ f k c v i j o} : Core C Γ (.propKey k c) i j → Core C Γ (.method false false v) j o →
      Core C Γ (.prop f (.property (.mk k v .init true c false)) (false, false)) i o
  | propAsync {Γ f t k v i j o} : t.item.token = .ident → C.text t = t!"async" →
      Core C Γ (.key k) i j → Core C Γ (.method true false v) j o →
      Core C Γ (.prop f (.property (.mk k v .init true (atBracket i) false)) (false, false))
        (t :: i) o
  /-- *(quirk)* `async` can stand in front of a shorthand property. -/
  | propAsyncShort {Γ f t k i o} : t.item.token = .ident → C.text t = t!"async" →
      Core C Γ (.key k) i o → head o = .punct .comma ∨ head o = .punct .closeBrace →
      Core C Γ (.prop f (.property (.mk k .none .init false (atBracket i) true)) f) (t :: i) o
  | propAsyncInit {Γ f t t' k g e i j o} : t.item.token = .ident → C.text t = t!"async" →
      Core C Γ (.key k) i (t' :: j) → Is t' .assign → Core C Γ (.assign g e) j o →
      Core C Γ (.prop f (.property (.mk k (.expr e) .init false (atBracket i) true)) f) (t :: i) o
  | propGet {Γ f t k v i j o} : t.item.token = .ident → C.text t = t!"get" →
      Core C Γ (.key k) i j → Core C Γ (.getter v) j o →
      Core C Γ (.prop f (.property (.mk k v .get false (atBracket i) false)) (false, false))
        (t :: i) o
  | propSet {Γ f t k v i j o} : t.item.token = .ident → C.text t = t!"set" →
      Core C Γ (.key k) i j → Core C Γ (.setter v) j o →
      Core C Γ (.prop f (.property (.mk k v .set false (atBracket i) false)) (false, false))
        (t :: i) o
  | propGen {Γ f t k v i j o} : Is t .asterisk → C.text t ≠ t!"get" → C.text t ≠ t!"set" →
      Core C Γ (.key k) i j → Core C Γ (.method false true v) j o →
      Core C Γ (.prop f (.property (.mk k v .init true (atBracket i) false)) (false, false))
        (t :: i) o
  | propShort {Γ f t o} : t.item.token = .ident → C.text t ≠ t!"async" →
      head o = .punct .comma ∨ head o = .punct .closeBrace →
      Core C Γ (.prop f (.property (.mk (.expr (.ident (C.text t))) .none .init false false true)) f)
        (t :: o) o
  | propShortInit {Γ f t t' g e i o} : t.item.token = .ident → C.text t ≠ t!"async" →
      Is t' .assign → Core C Γ (.assign g e) i o →
      Core C Γ (.prop f (.property (.mk (.expr (.ident (C.text t))) (.expr e) .init false false true))
        f) (t :: t' :: i) o
  | propSpread {Γ f t g e i o} : Is t .spread → Core C Γ (.assign g e) i o →
      Core C Γ (.prop f (.spread (.spread e)) (g.and f)) (t :: i) o
  | propsEnd {Γ f o} : head o = .punct .closeBrace → Core C Γ (.props f [] f) o o
  | propsMore {Γ f g h p l t i j o} : Core C Γ (.prop f p g) i (t :: j) → Is t .comma →
      Core C Γ (.props g l h) j o → Core C Γ (.props f (p :: l) h) i o
  | propsNext {Γ f g h p l i j o} : Core C Γ (.prop f p g) i j → C.tolerant = true →
      head j ≠ .punct .comma → head j ≠ .punct .closeBrace → Core C Γ (.props g l h) j o →
      Core C Γ (.props f (p :: l) h) i o
  | propsLast {Γ f g p i o} : Core C Γ (.prop f p g) i o → head o = .punct .closeBrace →
      Core C Γ (.props f [p] g) i o
  | elemsEnd {Γ o} : head o = .punct .closeBracket → Core C Γ (.elems (true, true) []) o o
  | elemsHole {Γ f l t i o} : Is t .comma → Core C Γ (.elems f l) i o →
      Core C Γ (.elems f (none :: l)) (t :: i) o
  | elemsMore {Γ f g e l t i j o} : Core C Γ (.assign f e) i (t :: j) → Is t .comma →
      Core C Γ (.elems g l) j o → Core C Γ (.elems (f.and g) (some e :: l)) i o
  | elemsLast {Γ f e i o} : Core C Γ (.assign f e) i o → head o = .punct .closeBracket →
      Core C Γ (.elems f [some e]) i o
  | elemsSpread {Γ f g e l t t' i j o} : Is t .spread → Core C Γ (.assign f e) i (t' :: j) →
      Is t' .comma → Core C Γ (.elems g l) j o →
      Core C Γ (.elems (false, false) (some (.spread e) :: l)) (t :: i) o
  | elemsSpreadLast {Γ f e t i o} : Is t .spread → Core C Γ (.assign f e) i o →
      head o = .punct .closeBracket → Core C Γ (.elems f [some (.spread e)]) (t :: i) o

  -- Primary expressions

  | primIdent {Γ t o} : t.item.token = .ident → C.noAsyncFn (t :: o) →
      Core C Γ (.primary (true, true) (.ident (C.text t))) (t :: o) o
  | primLet {Γ t o} : Kw t .let → Γ.strict = false →
      Core C Γ (.primary (true, true) (.ident (C.text t))) (t :: o) o
  | primReserved {Γ t k o} : Kw t k → Γ.strict = false →
      C.ext.isStrictReserved (.keyword k) = true →
      Core C Γ (.primary (true, true) (.ident (C.text t))) (t :: o) o
  | primImport {Γ t o} : Kw t .import → C.hard Γ .import → head o = .punct .openParen →
      Core C Γ (.primary (false, false) (.ident (C.text t))) (t :: o) o
  | primNumber {Γ t o} : t.item.token = .numeric →
      Core C Γ (.primary (false, false) (.literal (.number (C.text t)))) (t :: o) o
  | primString {Γ t o} : t.item.token = .string →
      Core C Γ (.primary (false, false) (.literal (.string (C.text t)))) (t :: o) o
  | primBool {Γ b t o} : t.item.token = .boolean b →
      Core C Γ (.primary (false, false) (.literal (.boolean b))) (t :: o) o
  | primRegex {Γ t pat flags o} : t.item.token = .regex →
      C.text t = '/' :: (pat ++ '/' :: flags) → '/' ∉ flags →
      Core C Γ (.primary (false, false) (.literal (.regex ⟨pat, flags⟩))) (t :: o) o
  | primTemplate {Γ es qs i o} : Core C Γ (.tpl es qs) i o →
      Core C Γ (.primary (true, true) (.template es qs)) i o
  | primThis {Γ t o} : Kw t .this → C.hard Γ .this →
      Core C Γ (.primary (false, false) .this) (t :: o) o
  | primFunction {Γ e i o} : (head i = .keyword .function → C.hard Γ .function) → Core C Γ (.fnExpr e) i o →
      Core C Γ (.primary (false, false) e) i o
  | primClass {Γ c i o} : C.hard Γ .class → Core C Γ (.cls true c) i o →
      Core C Γ (.primary (false, false) (.class c)) i o
  | primGroup {Γ f e t t' i o} : Is t .openParen → Core C Γ (.assign f e) i (t' :: o) →
      Is t' .closeParen → head o ≠ .punct .fatArrow → Core C Γ (.primary f e) (t :: i) o
  | primSequence {Γ f g e l t t' i j o} : Is t .openParen → Core C Γ (.assign f e) i j →
      Core C Γ (.seqTail g l) j (t' :: o) → l ≠ [] → Is t' .closeParen →
      head o ≠ .punct .fatArrow → Core C Γ (.primary (f.and g) (.sequence (e :: l))) (t :: i) o
  | primArray {Γ f l t t' i o} : Is t .openBracket → Core C Γ (.elems f l) i (t' :: o) →
      Is t' .closeBracket → Core C Γ (.primary f (.array l)) (t :: i) o
  | primObject {Γ f l t t' i o} : Is t .openBrace →
      Core C Γ (.props (true, true) l f) i (t' :: o) → Is t' .closeBrace →
      (l.filter isProtoInit).length ≤ 1 ∨ C.tolerant = true →
      Core C Γ (.primary f (.object l)) (t :: i) o

  -- Left-hand sides

  | newTarget {Γ t t' t'' o} : Kw t .new → Is t' .period → C.text t'' = t!"target" →
      Γ.inFn = true →
      Core C Γ (.newExpr (true, true) (.metaProperty t!"new" (C.text t''))) (t :: t' :: t'' :: o) o
  | newBare {Γ t e i o} : Kw t .new → head i ≠ .keyword .import → Core C Γ (.member e) i o →
      head o ≠ .punct .openParen → Core C Γ (.newExpr (false, false) (.new e [])) (t :: i) o
  | newArgs {Γ t e l i j o} : Kw t .new → head i ≠ .keyword .import → Core C Γ (.member e) i j →
      Core C Γ (.args l) j o → Core C Γ (.newExpr (false, false) (.new e l)) (t :: i) o
  | opNew {Γ f e i o} : Core C Γ (.newExpr f e) i o → Core C Γ (.operand f e) i o
  | opPrimary {Γ f e i o} : Core C Γ (.primary f e) i o → head i ≠ .keyword .new →
      Core C Γ (.operand f e) i o
  | memStop {Γ e o} : memberMore (head o) = false → Core C Γ (.memTail e e) o o
  | memDot {Γ t t' e e' i o} : Is t .period →
      Core C Γ (.memTail (.member e (.ident (C.text t')) false) e') i o →
      Core C Γ (.memTail e e') (t :: t' :: i) o
  | memIndex {Γ t t' x e e' i j o} : Is t .openBracket → Core C Γ (.expression x) i (t' :: j) →
      Is t' .closeBracket → Core C Γ (.memTail (.member e x true) e') j o →
      Core C Γ (.memTail e e') (t :: i) o
  | memTemplate {Γ es qs e e' i j o} : Core C Γ (.tpl es qs) i j →
      Core C Γ (.memTail (.taggedTemplate e es qs) e') j o → Core C Γ (.memTail e e') i o
  | memSuper {Γ t e i o} : Kw t .super → Γ.inFn = true →
      head i = .punct .openBracket ∨ head i = .punct .period →
      Core C Γ (.memTail .super e) i o → Core C Γ (.member e) (t :: i) o
  | member {Γ f e e' i j o} : head i ≠ .keyword .super → Core C Γ (.operand f e) i j →
      Core C Γ (.memTail e e') j o → Core C Γ (.member e') i o
  | callStop {Γ a f e o} : callMore (head o) = false → Core C Γ (.callTail a f e f e) o o
  | callDot {Γ a t t' f e f' e' i o} : Is t .period →
      Core C Γ (.callTail a (true, false) (.member e (.ident (C.text t')) false) f' e') i o →
      Core C Γ (.callTail a f e f' e') (t :: t' :: i) o
  | callIndex {Γ a t t' x f e f' e' i j o} : Is t .openBracket →
      Core C Γ (.expression x) i (t' :: j) → Is t' .closeBracket →
      Core C Γ (.callTail a (true, false) (.member e x true) f' e') j o →
      Core C Γ (.callTail a f e f' e') (t :: i) o
  | callTemplate {Γ a es qs f e f' e' i j o} : Core C Γ (.tpl es qs) i j →
      Core C Γ (.callTail a f (.taggedTemplate e es qs) f' e') j o →
      Core C Γ (.callTail a f e f' e') i o
  | callArgs {Γ a l f e f' e' i j o} : Core C Γ (.args l) i j →
      (a = true → head j ≠ .punct .fatArrow) →
      Core C Γ (.callTail a (false, false) (.call e l) f' e') j o →
      Core C Γ (.callTail a f e f' e') i o
  | callSuper {Γ t f e i o} : Kw t .super → C.text t ≠ t!"async" → Γ.inFn = true →
      head i = .punct .openParen ∨ head i = .punct .openBracket ∨ head i = .punct .period →
      Core C (Γ.within true) (.callTail false (true, true) .super f e) i o →
      Core C Γ (.call f e) (t :: i) o
  | call {Γ a f e f' e' i j o} : (a = false → C.other t!"async" i) → head i ≠ .keyword .super →
      Core C (Γ.within true) (.operand f e) i j →
      Core C (Γ.within true) (.callTail a f e f' e') j o → Core C Γ (.call f' e') i o
  | callNone {Γ f e i o} : head i ≠ .keyword .super → Core C (Γ.within true) (.operand f e) i o →
      callMore (head o) = false → Core C Γ (.call f e) i o

  -- Operators

  | updNone {Γ f e i o} : Core C Γ (.call f e) i o →
      head i ≠ .punct .increment → head i ≠ .punct .decrement →
      (C.nl o = true ∨ head o ≠ .punct .increment ∧ head o ≠ .punct .decrement) →
      Core C Γ (.update f e) i o
  | updPrefix {Γ t op f e i o} :
      Is t .increment ∧ op = .increment ∨ Is t .decrement ∧ op = .decrement →
      Core C Γ (.unary f e) i o →
      (Γ.strict = true → isRestrictedIdent e = true → C.tolerant = true) →
      f.1 = true ∨ C.tolerant = true →
      Core C Γ (.update (false, false) (.update op e true)) (t :: i) o
  | updPostfix {Γ t op f e i o} : Core C Γ (.call f e) i (t :: o) →
      head i ≠ .punct .increment → head i ≠ .punct .decrement → t.nl = false →
      Is t .increment ∧ op = .increment ∨ Is t .decrement ∧ op = .decrement →
      (Γ.strict = true → isRestrictedIdent e = false) →
      f.1 = true ∨ C.tolerant = true →
      Core C Γ (.update (false, false) (.update op e false)) i o
  | unaryUpdate {Γ f e i o} : unaryOperator (head i) = none →
      (Γ.await = true → head i ≠ .keyword .await) → Core C Γ (.update f e) i o →
      Core C Γ (.unary f e) i o
  | unaryOp {Γ t op f e i o} : unaryOperator t.item.token = some op → Core C Γ (.unary f e) i o →
      (op = .delete → Γ.strict = true → isIdentExpr e = true → C.tolerant = true) →
      Core C Γ (.unary (false, false) (.unary op e true)) (t :: i) o
  | unaryAwait {Γ t f e i o} : Kw t .await → Γ.await = true → Core C Γ (.unary f e) i o →
      Core C Γ (.unary f (.await e)) (t :: i) o
  | expoOne {Γ f e i o} : Core C Γ (.unary f e) i o → head o ≠ .punct .exponent →
      Core C Γ (.expo f e) i o
  | expo {Γ t f g l r i j o} : Core C Γ (.unary f l) i (t :: j) → Is t .exponent →
      Core C Γ (.expo g r) j o → Core C Γ (.expo (false, false) (.binary .powerOf l r)) i o
  | opStop {Γ o} : binPrecedence Γ.allowIn (head o) = 0 → Core C Γ (.opTail []) o o
  | opMore {Γ op t f e l i j o} : t.item.token = op.token → op ≠ .bin .powerOf →
      (op = .bin .in → Γ.allowIn = true) → Core C Γ (.expo f e) i j → Core C Γ (.opTail l) j o →
      Core C Γ (.opTail ((op, e) :: l)) (t :: i) o
  | binOne {Γ f e i o} : Core C Γ (.expo f e) i o → binPrecedence Γ.allowIn (head o) = 0 →
      Core C Γ (.bin f e) i o
  | bin {Γ f x l e i j o} : Core C Γ (.expo f x) i j → Core C Γ (.opTail l) j o → l ≠ [] →
      Groups x l e → Core C Γ (.bin (false, false) e) i o
  | condOne {Γ f e i o} : Core C Γ (.bin f e) i o → head o ≠ .punct .questionMark →
      Core C Γ (.cond f e) i o
  | cond {Γ t t' f g h e a b i j k o} : Core C Γ (.bin f e) i (t :: j) → Is t .questionMark →
      Core C (Γ.within true) (.assign g a) j (t' :: k) → Is t' .colon →
      Core C Γ (.assign h b) k o → Core C Γ (.cond (false, false) (.conditional e b a)) i o

  -- Arrow functions and assignments

  | arrowNone {Γ t t' o} : Is t .openParen → Is t' .closeParen → head o = .punct .fatArrow →
      Core C Γ (.arrowHead []) (t :: t' :: o) o
  | arrowRest {Γ b p t t' t'' i o} : Is t .openParen → Is t' .spread →
      Core C Γ (.pattern b p) i (t'' :: o) → Is t'' .closeParen → head o = .punct .fatArrow →
      Core C Γ (.arrowHead [.pat (.restElement p)]) (t :: t' :: i) o
  | arrowOne {Γ f e t t' i o} : Is t .openParen → Core C Γ (.assign f e) i (t' :: o) →
      Is t' .closeParen → head o = .punct .fatArrow → f.2 = true →
      (∀ l, e ≠ .sequence l) → Core C Γ (.arrowHead [.expr e]) (t :: i) o
  | arrowMany {Γ f g e l t t' i j o} : Is t .openParen → Core C Γ (.assign f e) i j →
      Core C Γ (.seqTail g l) j (t' :: o) → l ≠ [] → Is t' .closeParen →
      head o = .punct .fatArrow → (f.and g).2 = true →
      Core C Γ (.arrowHead (.expr e :: l.map .expr)) (t :: i) o
  | groupTrail {Γ t t' o} : Is t .comma → Is t' .closeParen →
      Core C Γ (.groupTail false []) (t :: t' :: o) o
  | groupRest {Γ t t' t'' b p i o} : Is t .comma → Is t' .spread →
      Core C Γ (.pattern b p) i (t'' :: o) → Is t'' .closeParen →
      Core C Γ (.groupTail true [.pat (.restElement p)]) (t :: t' :: i) o
  | groupMore {Γ r t f e l i j o} : Is t .comma → Core C Γ (.assign f e) i j →
      (r = true → f.2 = true) → Core C Γ (.groupTail r l) j o →
      Core C Γ (.groupTail r (.expr e :: l)) (t :: i) o
  /-- *(quirk)* in front of a last comma everything is accepted. -/
  | arrowGroup {Γ r t f e l i j o} : Is t .openParen → Core C Γ (.assign f e) i j →
      (r = true → f.2 = true) → Core C Γ (.groupTail r l) j o → head o = .punct .fatArrow →
      Core C Γ (.arrowHead (.expr e :: l)) (t :: i) o
  | arrowBlock {Γ a l b t i o} : Is t .fatArrow → Core C (Γ.within true) (.body b) i o →
      Core C Γ (.arrowBody a l (.arrowBlock l b false false a)) (t :: i) o
  | arrowExpr {Γ a l f e t i o} : Is t .fatArrow → head i ≠ .punct .openBrace →
      Core C Γ (.assign f e) i o →
      Core C Γ (.arrowBody a l (.arrowExpr l e true false a)) (t :: i) o
  | singleCond {Γ f e i o} : C.other t!"async" i ∨ head o ≠ .ident ∧ head o ≠ .keyword .yield →
      head i ≠ .keyword .yield → Core C Γ (.cond f e) i o →
      head o ≠ .punct .fatArrow → isAssignOp (head o) = false → Core C Γ (.single f e) i o
  | singleArrow {Γ t e i o} : t.item.token = .ident ∨
        Γ.strict = false ∧ Kw t .let ∧ C.text t ≠ t!"async" →
      head i = .punct .fatArrow → Core C Γ (.arrowBody false [.expr (.ident (C.text t))] e) i o →
      Core C Γ (.single (false, false) e) (t :: i) o
  | singleArrows {Γ l e i j o} : C.other t!"async" i → Core C (Γ.within true) (.arrowHead l) i j →
      l.all plainArg = true → Core C Γ (.arrowBody false l e) j o →
      Core C Γ (.single (false, false) e) i o
  | asyncArrow {Γ t t' e i o} : t.item.token = .ident → C.text t = t!"async" →
      t'.item.token = .ident → C.text t' ≠ t!"await" → C.joined t t' →
      Core C Γ (.arrowBody true [.pat (.identifier (C.text t'))] e) i o →
      Core C Γ (.single (false, false) e) (t :: t' :: i) o
  /-- *(quirk)* the parameters are read like the arguments of a call. -/
  | asyncArrows {Γ t t' l e i j o} : t.item.token = .ident → C.text t = t!"async" →
      C.joined t t' → Core C (Γ.within true) (.args l) (t' :: i) j →
      (l.map .expr).all plainArg = true → l.all notAwait = true →
      Core C Γ (.arrowBody true (l.map .expr) e) j o →
      Core C Γ (.single (false, false) e) (t :: t' :: i) o
  | yieldNone {Γ t o} : Kw t .yield → Γ.gen = true →
      C.nl o = true ∨ head o ≠ .punct .asterisk ∧ yieldStart (head o) = false →
      Core C Γ (.single (true, true) (.yield none false)) (t :: o) o
  | yield {Γ t f e i o} : Kw t .yield → Γ.gen = true → C.nl i = false →
      yieldStart (head i) = true → Core C (Γ.yielding true) (.single f e) i o →
      Core C Γ (.single f (.yield (some e) false)) (t :: i) o
  | yieldAll {Γ t t' f e i o} : Kw t .yield → Γ.gen = true → t'.nl = false → Is t' .asterisk →
      Core C (Γ.yielding true) (.single f e) i o →
      Core C Γ (.single f (.yield (some e) true)) (t :: t' :: i) o
  | assign {Γ f e i o} : Core C Γ (.single f e) i o → Core C Γ (.assign f e) i o
  | assignEq {Γ f g e r t i j o} : head i ≠ .keyword .yield →
      Core C Γ (.cond f e) i (t :: j) → f.1 = true ∨ C.tolerant = true → Is t .assign →
      (∀ n, e = .ident n → Γ.strict = true →
        isRestrictedWord n = false ∧ isStrictReservedWord n = false) →
      Core C Γ (.assign g r) j o → Core C Γ (.assign f (.assignment .equal e r)) i o
  | assignOp {Γ f g e r t p op i j o} : head i ≠ .keyword .yield →
      Core C Γ (.cond f e) i (t :: j) → f.1 = true ∨ C.tolerant = true → Is t p →
      assignmentOperator p = some op →
      (∀ n, e = .ident n → Γ.strict = true →
        isRestrictedWord n = false ∧ isStrictReservedWord n = false) →
      Core C Γ (.assign g r) j o →
      Core C Γ (.assign (false, false) (.assignment op e r)) i o
  | assignYield {Γ t f e i o} : Kw t .yield → Γ.gen = true → C.nl i = false →
      yieldStart (head i) = true → Core C (Γ.yielding true) (.assign f e) i o →
      Core C Γ (.assign f (.yield (some e) false)) (t :: i) o
  | assignYieldAll {Γ t t' f e i o} : Kw t .yield → Γ.gen = true → t'.nl = false →
      Is t' .asterisk → Core C (Γ.yielding true) (.assign f e) i o →
      Core C Γ (.assign f (.yield (some e) true)) (t :: t' :: i) o
  | seqStop {Γ o} : head o ≠ .punct .comma → Core C Γ (.seqTail (true, true) []) o o
  | seqMore {Γ f g e l t i j o} : Is t .comma → Core C Γ (.assign f e) i j →
      Core C Γ (.seqTail g l) j o → Core C Γ (.seqTail (f.and g) (e :: l)) (t :: i) o
  | expression {Γ f e i o} : Core C Γ (.assign f e) i o → head o ≠ .punct .comma →
      Core C Γ (.expression e) i o
  | sequence {Γ f g e l i j o} : Core C Γ (.assign f e) i j → Core C Γ (.seqTail g l) j o → l ≠ [] →
      Core C Γ (.expression (.sequence (e :: l))) i o

  -- Variables

  | varInit {Γ s f b p t g e i j o} : Core C Γ (.pattern b p) i (t :: j) → Is t .assign →
      (s = true → Γ.strict = true → isRestrictedPat p = true → C.tolerant = true) →
      Core C Γ (.assign g e) j o → Core C Γ (.varD s f (.mk p (some e))) i o
  | varNone {Γ s f b p i o} : Core C Γ (.pattern b p) i o → head o ≠ .punct .assign →
      (s = true → Γ.strict = true → isRestrictedPat p = true → C.tolerant = true) →
      isPatIdent p = true ∨ f = true → Core C Γ (.varD s f (.mk p none)) i o
  | varLast {Γ s f d i o} : Core C Γ (.varD s f d) i o → head o ≠ .punct .comma →
      Core C Γ (.varDs s f [d]) i o
  | varMore {Γ s f d l t i j o} : Core C Γ (.varD s f d) i (t :: j) → Is t .comma →
      Core C Γ (.varDs s f l) j o → Core C Γ (.varDs s f (d :: l)) i o
  | lexInit {Γ k f b p t g e i j o} : lexStart (head i) = true →
      Core C Γ (.pattern b p) i (t :: j) → Is t .assign →
      C.text t ≠ t!"of" →
      (Γ.strict = true → isRestrictedPat p = true → C.tolerant = true) →
      Core C Γ (.assign g e) j o → Core C Γ (.lexD k f (.mk p (some e))) i o
  | lexNone {Γ f b p i o} : lexStart (head i) = true →
      Core C Γ (.pattern b p) i o → head o ≠ .punct .assign →
      (Γ.strict = true → isRestrictedPat p = true → C.tolerant = true) →
      isPatIdent p = true ∨ f = true → Core C Γ (.lexD .let f (.mk p none)) i o
  | lexConstIn {Γ f b p t i o} : lexStart (head i) = true →
      Core C Γ (.pattern b p) i (t :: o) →
      Kw t .in ∨ C.text t = t!"of" →
      (Γ.strict = true → isRestrictedPat p = true → C.tolerant = true) →
      Core C Γ (.lexD .const f (.mk p none)) i (t :: o)
  | lexLast {Γ k f d i o} : Core C Γ (.lexD k f d) i o → head o ≠ .punct .comma →
      Core C Γ (.lexDs k f [d]) i o
  | lexMore {Γ k f d l t i j o} : Core C Γ (.lexD k f d) i (t :: j) → Is t .comma →
      Core C Γ (.lexDs k f l) j o → Core C Γ (.lexDs k f (d :: l)) i o
  | lexLet {Γ t l i j o} : Kw t .let → Core C Γ (.lexDs .let false l) i j → Core C Γ .semi j o →
      Core C Γ (.lexical (.variable .let l)) (t :: i) o
  | lexConst {Γ t l i j o} : Kw t .const → Core C Γ (.lexDs .const false l) i j →
      Core C Γ .semi j o → Core C Γ (.lexical (.variable .const l)) (t :: i) o

  -- Statements

  | block {Γ t t' l i o} : Is t .openBrace → Core C Γ (.items l) i (t' :: o) →
      Is t' .closeBrace → Core C Γ (.block l) (t :: i) o
  | loopBody {Γ t s i o} : Is t .closeParen → Core C Γ (.stmt s) i o →
      Core C Γ (.loopBody s) (t :: i) o
  | loopBodyFor {Γ t s i o} : Is t .closeParen → Core C Γ (.forStmt true s) i o →
      Core C Γ (.loopBody s) (t :: i) o
  | optNone {Γ p o} : head o = .punct p → Core C Γ (.optExpr p none) o o
  | optSome {Γ p e i o} : exprStart (.punct p) = false → Core C Γ (.expression e) i o →
      Core C Γ (.optExpr p (some e)) i o
  | forCont {Γ x t t' a b s i j k o} : Is t .semiColon →
      Core C Γ (.optExpr .semiColon a) i (t' :: j) → Is t' .semiColon →
      Core C Γ (.optExpr .closeParen b) j k → Core C Γ (.loopBody s) k o →
      Core C Γ (.forCont x (.for x a b s)) (t :: i) o
  | forIn {Γ x t r s i j o} : Kw t .in → Core C Γ (.expression r) i j →
      Core C Γ (.loopBody s) j o → Core C Γ (.forIn x (.forIn x r s)) (t :: i) o
  | forOf {Γ free x t a f r s i j o} : C.text t = t!"of" → t.item.token ≠ .keyword .in →
      Core C Γ (.single f r) i j → Core C Γ (.loopBody s) j o →
      Core C Γ (.forOf free a x (.forOf x r s a)) (t :: i) o
  /-- *(quirk)* an assignment can follow `of` only where no flag of the cover grammar has been
  cleared yet. -/
  | forOfAssign {Γ x t a f r s i j o} : C.text t = t!"of" → t.item.token ≠ .keyword .in →
      Core C Γ (.assign f r) i j → Core C Γ (.loopBody s) j o →
      Core C Γ (.forOf true a x (.forOf x r s a)) (t :: i) o
  | forSemi {Γ free a s i o} : Core C Γ (.forCont none s) i o → Core C Γ (.forHead free a s) i o
  | forVarIn {Γ free a t d s i j o} : Kw t .var → Core C (Γ.within false) (.varDs true true [d]) i j →
      Core C Γ (.forIn (.variable .var d) s) j o → Core C Γ (.forHead free a s) (t :: i) o
  | forVarOf {Γ free a t d s i j o} : (free = true → plainDecl d = true) → Kw t .var →
      Core C (Γ.within false) (.varDs true true [d]) i j →
      Core C Γ (.forOf free a (.variable .var d) s) j o → Core C Γ (.forHead free a s) (t :: i) o
  | forVar {Γ free a t l s i j o} : Kw t .var → Core C (Γ.within false) (.varDs true true l) i j →
      C.other t!"of" j → Core C Γ (.forCont (some (.variable .var l)) s) j o →
      Core C Γ (.forHead free a s) (t :: i) o
  | forLexIn {Γ free a k t d s i j o} : Kw t .let ∧ k = .let ∨ Kw t .const ∧ k = .const →
      Core C (Γ.within false) (.lexDs k true [d]) i j → noInit d = true →
      Core C Γ (.forIn (.variable k d) s) j o → Core C Γ (.forHead free a s) (t :: i) o
  | forLexOf {Γ free a k t d s i j o} : (free = true → plainDecl d = true) →
      Kw t .let ∧ k = .let ∨ Kw t .const ∧ k = .const →
      Core C (Γ.within false) (.lexDs k true [d]) i j → noInit d = true →
      Core C Γ (.forOf free a (.variable k d) s) j o → Core C Γ (.forHead free a s) (t :: i) o
  /-- *(quirk)* also `const`. -/
  | forNameIn {Γ free a k t s i o} : Kw t .let ∧ k = .let ∨ Kw t .const ∧ k = .const →
      Γ.strict = false → Core C Γ (.forIn (.expr (.ident (kindName k))) s) i o →
      Core C Γ (.forHead free a s) (t :: i) o
  | forLex {Γ free a k t l s i j o} : Kw t .let ∧ k = .let ∨ Kw t .const ∧ k = .const →
      Core C (Γ.within false) (.lexDs k true l) i j → C.other t!"of" j →
      Core C Γ (.forCont (some (.variable k l)) s) j o → Core C Γ (.forHead free a s) (t :: i) o
  | forExprIn {Γ free a f e s i j o} : head i ≠ .keyword .let → Core C (Γ.within false) (.assign f e) i j →
      Core C Γ (.forIn (.expr e) s) j o → head i ≠ .keyword .var → head i ≠ .keyword .const →
      Core C Γ (.forHead free a s) i o
  | forExprOf {Γ free a f e s i j o} : (free = true → f.1 = true) →
      head i ≠ .keyword .let → Core C (Γ.within false) (.assign f e) i j →
      Core C Γ (.forOf free a (.expr e) s) j o → head i ≠ .keyword .var → head i ≠ .keyword .const →
      Core C Γ (.forHead free a s) i o
  | forExpr {Γ free a f e s i j o} : head i ≠ .keyword .let → Core C (Γ.within false) (.assign f e) i j →
      C.other t!"of" j →
      Core C Γ (.forCont (some (.expr e)) s) j o → head i ≠ .keyword .var →
      head i ≠ .keyword .const → Core C Γ (.forHead free a s) i o
  | forExprSeq {Γ free a f g e l s i j k o} : head i ≠ .keyword .let →
      Core C (Γ.within false) (.assign f e) i j → C.other t!"of" j → Core C Γ (.seqTail g l) j k →
      l ≠ [] → Core C Γ (.forCont (some (.expr (.sequence (e :: l)))) s) k o →
      head i ≠ .keyword .var → head i ≠ .keyword .const → Core C Γ (.forHead free a s) i o
  | catchNone {Γ o} : head o ≠ .punct .openParen → Core C Γ (.catchParam none) o o
  | catchParam {Γ t t' b p i o} : Is t .openParen → Core C Γ (.pattern b p) i (t' :: o) →
      Is t' .closeParen → Core C Γ (.catchParam (some p)) (t :: i) o
  | handlerNone {Γ o} : head o ≠ .keyword .catch → Core C Γ (.handler none) o o
  | handler {Γ t p l i j o} : Kw t .catch → Core C Γ (.catchParam p) i j →
      Core C Γ (.block l) j o → Core C Γ (.handler (some (.mk p l))) (t :: i) o
  | finalizerNone {Γ o} : head o ≠ .keyword .finally → Core C Γ (.finalizer none) o o
  | finalizer {Γ t l i o} : Kw t .finally → Core C Γ (.block l) i o →
      Core C Γ (.finalizer (some l)) (t :: i) o
  | caseDefault {Γ t t' l i o} : Kw t .default → Is t' .colon → Core C Γ (.items l) i o →
      head o = .punct .closeBrace ∨ head o = .keyword .default ∨ head o = .keyword .case →
      Core C Γ (.switchCase (.mk none l)) (t :: t' :: i) o
  | case {Γ t t' e l i j o} : Kw t .case → Core C Γ (.expression e) i (t' :: j) → Is t' .colon →
      Core C Γ (.items l) j o →
      head o = .punct .closeBrace ∨ head o = .keyword .default ∨ head o = .keyword .case →
      Core C Γ (.switchCase (.mk (some e) l)) (t :: i) o
  | casesEnd {Γ f o} : head o = .punct .closeBrace → Core C Γ (.cases f []) o o
  | casesMore {Γ f c l i j o} : Core C Γ (.switchCase c) i j → (isDefault c && f) = false →
      Core C Γ (.cases (f || isDefault c) l) j o → Core C Γ (.cases f (c :: l)) i o
  | labelNone {Γ i o} : head i ≠ .ident ∨ C.nl i = true → Core C Γ .semi i o →
      Core C Γ (.optLabel none) i o
  | label {Γ n i j o} : C.nl i = false → Core C Γ (.ident n) i j → Core C Γ .semi j o →
      Core C Γ (.optLabel (some n)) i o
  | labelClass {Γ t l i o} : Kw t .class → C.tolerant = true → Core C Γ (.classBody l) i o →
      Core C Γ (.labelBody (.expr (.class (.mk none none l)))) (t :: i) o
  | labelFunction {Γ f i o} : head i = .keyword .function → Core C Γ (.fnDecl true f) i o →
      Core C Γ (.labelBody (.expr (.function f))) i o
  | labelStmt {Γ s i o} : Core C Γ (.stmt s) i o → head i ≠ .keyword .class →
      head i ≠ .keyword .function → Core C Γ (.labelBody s) i o
  | clause {Γ s i o} : (Γ.strict = true → head i = .keyword .function → C.tolerant = true) →
      Core C Γ (.stmt s) i o → Core C Γ (.clause s) i o
  | stExpr {Γ e i j o} : exprStmtStart (head i) = true → C.noAsyncFn i →
      Core C Γ (.expression e) i j →
      head j ≠ .punct .colon → Core C Γ .semi j o → Core C Γ (.stmt (.expr e)) i o
  | stBlock {Γ l i o} : Core C Γ (.block l) i o → Core C Γ (.stmt (.block l)) i o
  | stEmpty {Γ t o} : Is t .semiColon → Core C Γ (.stmt .empty) (t :: o) o
  | stFunction {Γ f i o} : Core C Γ (.fnDecl true f) i o → Core C Γ (.stmt (.expr (.function f))) i o
  | stLabeled {Γ t n s i j o} : head i = .ident → C.noAsyncFn i →
      Core C Γ (.expression (.ident n)) i (t :: j) →
      Is t .colon → '$' :: n ∉ Γ.labels → Core C (Γ.label n) (.labelBody s) j o →
      Core C Γ (.stmt (.labeled n s)) i o
  | stBreak {Γ t l i o} : Kw t .break → Core C Γ (.optLabel l) i o →
      Core C Γ (.stmt (.break l)) (t :: i) o
  | stContinue {Γ t l i o} : Kw t .continue → Core C Γ (.optLabel l) i o →
      Core C Γ (.stmt (.continue l)) (t :: i) o
  | stDebugger {Γ t i o} : Kw t .debugger → Core C Γ .semi i o →
      Core C Γ (.stmt .debugger) (t :: i) o
  | stDoWhile {Γ t t' t'' t3 s e i j o} : Kw t .do → Core C Γ (.stmt s) i (t' :: t'' :: j) →
      Kw t' .while → Is t'' .openParen → Core C Γ (.expression e) j (t3 :: o) →
      Is t3 .closeParen → head o ≠ .punct .semiColon → Core C Γ (.stmt (.doWhile e s)) (t :: i) o
  | stDoWhileSemi {Γ t t' t'' t3 t4 s e i j o} : Kw t .do →
      Core C Γ (.stmt s) i (t' :: t'' :: j) → Kw t' .while → Is t'' .openParen →
      Core C Γ (.expression e) j (t3 :: t4 :: o) → Is t3 .closeParen → Is t4 .semiColon →
      Core C Γ (.stmt (.doWhile e s)) (t :: i) o
  | forStmt {Γ free t t' s i o} : Kw t .for → Is t' .openParen →
      Core C Γ (.forHead free false s) i o → Core C Γ (.forStmt free s) (t :: t' :: i) o
  | forAwait {Γ free t t' t'' s i o} : Kw t .for → Kw t' .await → Is t'' .openParen →
      Core C Γ (.forHead free true s) i o → Core C Γ (.forStmt free s) (t :: t' :: t'' :: i) o
  | stFor {Γ s i o} : Core C Γ (.forStmt false s) i o → Core C Γ (.stmt s) i o
  | stIf {Γ t t' t'' e s i j o} : Kw t .if → Is t' .openParen →
      Core C Γ (.expression e) i (t'' :: j) → Is t'' .closeParen → Core C Γ (.clause s) j o →
      head o ≠ .keyword .else → Core C Γ (.stmt (.if e s none)) (t :: t' :: i) o
  | stIfElse {Γ t t' t'' t3 e a b i j k o} : Kw t .if → Is t' .openParen →
      Core C Γ (.expression e) i (t'' :: j) → Is t'' .closeParen →
      Core C Γ (.clause a) j (t3 :: k) → Kw t3 .else → Core C Γ (.clause b) k o →
      Core C Γ (.stmt (.if e a (some b))) (t :: t' :: i) o
  | stIfOpen {Γ t t' e i o} : Kw t .if → Is t' .openParen → Core C Γ (.expression e) i o →
      head o ≠ .punct .closeParen → C.tolerant = true →
      Core C Γ (.stmt (.if e .empty none)) (t :: t' :: i) o
  | stReturn {Γ t i o} : Kw t .return → Γ.inFn = true → C.returnArg i = false →
      Core C Γ .semi i o → Core C Γ (.stmt (.return none)) (t :: i) o
  | stReturnArg {Γ t e i j o} : Kw t .return → Γ.inFn = true → C.returnArg i = true →
      Core C Γ (.expression e) i j → Core C Γ .semi j o →
      Core C Γ (.stmt (.return (some e))) (t :: i) o
  | stSwitch {Γ t t' t'' t3 t4 e l i j o} : Kw t .switch → Is t' .openParen →
      Core C Γ (.expression e) i (t'' :: t3 :: j) → Is t'' .closeParen → Is t3 .openBrace →
      Core C Γ (.cases false l) j (t4 :: o) → Is t4 .closeBrace →
      Core C Γ (.stmt (.switch e l)) (t :: t' :: i) o
  | stThrow {Γ t e i j o} : Kw t .throw → Core C Γ (.expression e) i j → Core C Γ .semi j o →
      Core C Γ (.stmt (.throw e)) (t :: i) o
  | stTry {Γ t l h f i j k o} : Kw t .try → Core C Γ (.block l) i j → Core C Γ (.handler h) j k →
      Core C Γ (.finalizer f) k o → Core C Γ (.stmt (.try l h f)) (t :: i) o
  | stVar {Γ t l i j o} : Kw t .var → Core C Γ (.varDs false false l) i j → Core C Γ .semi j o →
      Core C Γ (.stmt (.var l)) (t :: i) o
  | stWhile {Γ t t' t'' e s i j o} : Kw t .while → Is t' .openParen →
      Core C Γ (.expression e) i (t'' :: j) → Is t'' .closeParen → Core C Γ (.stmt s) j o →
      Core C Γ (.stmt (.while e s)) (t :: t' :: i) o
  | stWhileOpen {Γ t t' e i o} : Kw t .while → Is t' .openParen → Core C Γ (.expression e) i o →
      head o ≠ .punct .closeParen → C.tolerant = true →
      Core C Γ (.stmt (.while e .empty)) (t :: t' :: i) o
  | stWithOpen {Γ t t' e i o} : Kw t .with → Is t' .openParen → Core C Γ (.expression e) i o →
      head o ≠ .punct .closeParen → C.tolerant = true →
      Core C Γ (.stmt (.with e .empty)) (t :: t' :: i) o
  | stWith {Γ t t' t'' e s i j o} : Kw t .with → (Γ.strict = true → C.tolerant = true) →
      Is t' .openParen → Core C Γ (.expression e) i (t'' :: j) → Is t'' .closeParen →
      Core C Γ (.stmt s) j o → Core C Γ (.stmt (.with e s)) (t :: t' :: i) o

  -- Modules

  | importSpec {Γ n i o} : Core C Γ (.ident n) i o → C.other t!"as" o →
      Core C Γ (.importSpec (.normal n none)) i o
  | importAs {Γ n n' t i j o} : Core C Γ (.ident n) i (t :: j) → C.text t = t!"as" →
      Core C Γ (.ident n') j o → Core C Γ (.importSpec (.normal n (some n'))) i o
  | importName {Γ t o} : t.item.token ≠ .ident → t.item.token ≠ .punct .closeBrace →
      C.other t!"as" o → Core C Γ (.importSpec (.normal (C.text t) none)) (t :: o) o
  | importNameAs {Γ n' t t' j o} : t.item.token ≠ .ident → t.item.token ≠ .punct .closeBrace →
      C.text t' = t!"as" → Core C Γ (.ident n') j o →
      Core C Γ (.importSpec (.normal (C.text t) (some n'))) (t :: t' :: j) o
  | importSeqEnd {Γ o} : head o = .punct .closeBrace → Core C Γ (.importSeq []) o o
  | importSeqMore {Γ p l t i j o} : Core C Γ (.importSpec p) i (t :: j) → Is t .comma →
      Core C Γ (.importSeq l) j o → Core C Γ (.importSeq (p :: l)) i o
  | importSeqLast {Γ p i o} : Core C Γ (.importSpec p) i o → head o = .punct .closeBrace →
      Core C Γ (.importSeq [p]) i o
  | named {Γ t t' l i o} : Is t .openBrace → Core C Γ (.importSeq l) i (t' :: o) →
      Is t' .closeBrace → Core C Γ (.named l) (t :: i) o
  | nsImport {Γ t t' t'' o} : Is t .asterisk → C.text t' = t!"as" →
      Core C Γ (.nsImport (.namespace (C.text t''))) (t :: t' :: t'' :: o) o
  | importsNamed {Γ l i o} : Core C Γ (.named l) i o → Core C Γ (.imports l) i o
  | importsNs {Γ s i o} : Core C Γ (.nsImport s) i o → Core C Γ (.imports [s]) i o
  | importsDefault {Γ t o} : importable t.item.token = true → head o ≠ .punct .comma →
      Core C Γ (.imports [.default (C.text t)]) (t :: o) o
  | importsDefaultNs {Γ s t t' j o} : importable t.item.token = true → Is t' .comma →
      Core C Γ (.nsImport s) j o → Core C Γ (.imports [.default (C.text t), s]) (t :: t' :: j) o
  | importsDefaultNamed {Γ l t t' j o} : importable t.item.token = true → Is t' .comma →
      Core C Γ (.named l) j o → Core C Γ (.imports (.default (C.text t) :: l)) (t :: t' :: j) o
  | importBare {Γ t t' i o} : Kw t .import → t'.item.token = .string → Core C Γ .semi i o →
      Core C Γ (.importDecl ⟨[], C.text t'⟩) (t :: t' :: i) o
  | importFrom {Γ t t' t'' l i j o} : Kw t .import → Core C Γ (.imports l) i (t' :: t'' :: j) →
      C.text t' = t!"from" → t''.item.token = .string → Core C Γ .semi j o →
      Core C Γ (.importDecl ⟨l, C.text t''⟩) (t :: i) o
  | exportSpec {Γ t o} : t.item.token ≠ .punct .closeBrace → C.other t!"as" o →
      Core C Γ (.exportSpec (t.item.token.matchesKeyword .default) ⟨C.text t, none⟩) (t :: o) o
  | exportAs {Γ t t' t'' o} : t.item.token ≠ .punct .closeBrace → C.text t' = t!"as" →
      Core C Γ (.exportSpec (t.item.token.matchesKeyword .default) ⟨C.text t, some (C.text t'')⟩)
        (t :: t' :: t'' :: o) o
  | exportSeqEnd {Γ o} : head o = .punct .closeBrace → Core C Γ (.exportSeq false []) o o
  | exportSeqMore {Γ d d' p l t i j o} : Core C Γ (.exportSpec d p) i (t :: j) → Is t .comma →
      Core C Γ (.exportSeq d' l) j o → Core C Γ (.exportSeq (d || d') (p :: l)) i o
  | exportSeqLast {Γ d p i o} : Core C Γ (.exportSpec d p) i o → head o = .punct .closeBrace →
      Core C Γ (.exportSeq d [p]) i o
  | exportDefaultFn {Γ t t' f i o} : Kw t .export → Kw t' .default → Core C Γ (.fnDecl true f) i o →
      Core C Γ (.exportDecl (.defaultDecl (.function f))) (t :: t' :: i) o
  | exportDefaultClass {Γ t t' c i o} : Kw t .export → Kw t' .default → Core C Γ (.cls true c) i o →
      Core C Γ (.exportDecl (.defaultDecl (.class c))) (t :: t' :: i) o
  | exportDefaultObject {Γ t t' t'' t3 f l i o} : Kw t .export → Kw t' .default → Is t'' .openBrace →
      C.text t'' ≠ t!"async" → Core C Γ (.props (true, true) l f) i (t3 :: o) → Is t3 .closeBrace →
      (l.filter isProtoInit).length ≤ 1 ∨ C.tolerant = true →
      Core C Γ (.exportDecl (.defaultExpr (.object l))) (t :: t' :: t'' :: i) o
  | exportDefaultArray {Γ t t' t'' t3 f l i o} : Kw t .export → Kw t' .default →
      Is t'' .openBracket → C.text t'' ≠ t!"async" → Core C Γ (.elems f l) i (t3 :: o) →
      Is t3 .closeBracket →
      Core C Γ (.exportDecl (.defaultExpr (.array l))) (t :: t' :: t'' :: i) o
  | exportDefaultExpr {Γ t t' f e i o} : Kw t .export → Kw t' .default → C.noAsyncFn i →
      head i ≠ .keyword .function → head i ≠ .keyword .class →
      head i ≠ .punct .openBrace → head i ≠ .punct .openBracket → Core C Γ (.assign f e) i o →
      Core C Γ (.exportDecl (.defaultExpr e)) (t :: t' :: i) o
  | exportAll {Γ t t' t'' t3 i o} : Kw t .export → Is t' .asterisk →
      t3.item.token = .string → Core C Γ .semi i o →
      Core C Γ (.exportDecl (.all (C.text t3))) (t :: t' :: t'' :: t3 :: i) o
  /-- *(quirk)* two semicolons are read. -/
  | exportLexical {Γ t d i j o} : Kw t .export → Core C Γ (.lexical d) i j → Core C Γ .semi j o →
      Core C Γ (.exportDecl (.namedDecl d)) (t :: i) o
  | exportVar {Γ t t' l i j o} : Kw t .export → Kw t' .var → Core C Γ (.varDs true false l) i j →
      Core C Γ .semi j o → Core C Γ (.exportDecl (.namedDecl (.variable .var l))) (t :: t' :: i) o
  | exportClass {Γ t c i o} : Kw t .export → Core C Γ (.cls true c) i o →
      Core C Γ (.exportDecl (.namedDecl (.class c))) (t :: i) o
  | exportFn {Γ t f i o} : Kw t .export → head i = .keyword .function →
      Core C Γ (.fnDecl true f) i o →
      Core C Γ (.exportDecl (.namedDecl (.function f))) (t :: i) o
  | exportAsync {Γ t f i o} : Kw t .export → head i = .ident → Core C Γ (.fnDecl false f) i o →
      Core C Γ (.exportDecl (.namedDecl (.function f))) (t :: i) o
  | exportNamed {Γ t t' t'' l i j o} : Kw t .export → Is t' .openBrace → C.text t' ≠ t!"async" →
      Core C Γ (.exportSeq false l) i (t'' :: j) → Is t'' .closeBrace → C.other t!"from" j →
      Core C Γ .semi j o → Core C Γ (.exportDecl (.namedSpecifier l none)) (t :: t' :: i) o
  | exportFrom {Γ t t' t'' t3 t4 d l i j o} : Kw t .export → Is t' .openBrace →
      C.text t' ≠ t!"async" → Core C Γ (.exportSeq d l) i (t'' :: t3 :: t4 :: j) →
      Is t'' .closeBrace → C.text t3 = t!"from" → t4.item.token = .string → Core C Γ .semi j o →
      Core C Γ (.exportDecl (.namedSpecifier l (some (C.text t4)))) (t :: t' :: i) o

  -- Statement list items and programs

  | itemStmt {Γ s i o} : itemIsStmt (head i) = true → Core C Γ (.stmt s) i o →
      Core C Γ (.listItem (.stmt s)) i o
  | itemFor {Γ s i o} : Core C Γ (.forStmt true s) i o → Core C Γ (.listItem (.stmt s)) i o
  | itemImport {Γ d i o} : Core C Γ (.importDecl d) i o → Core C Γ (.listItem (.decl (.import d))) i o
  | itemImportCall {Γ s t i o} : Kw t .import → head i = .punct .openParen →
      Core C Γ (.stmt s) (t :: i) o → Core C Γ (.listItem (.stmt s)) (t :: i) o
  | itemLet {Γ s t i o} : Kw t .let → letDecl (head i) = false → Core C Γ (.stmt s) (t :: i) o →
      Core C Γ (.listItem (.stmt s)) (t :: i) o
  | itemExport {Γ d i o} : Core C Γ (.exportDecl d) i o → Core C Γ (.listItem (.decl (.export d))) i o
  | itemLexical {Γ d i o} : Core C Γ (.lexical d) i o → Core C Γ (.listItem (.decl d)) i o
  | itemFunction {Γ f i o} : head i = .keyword .function → Core C Γ (.fnDecl true f) i o →
      Core C Γ (.listItem (.decl (.function f))) i o
  | itemClass {Γ c i o} : Core C Γ (.cls false c) i o → Core C Γ (.listItem (.decl (.class c))) i o
  | partsEnd {Γ past o} : head o = .eof → Core C Γ (.parts past []) o o
  | partsItem {Γ past p l i j o} : past = true ∨ head i ≠ .string → Core C Γ (.listItem p) i j →
      Core C Γ (.parts true l) j o → Core C Γ (.parts past (p :: l)) i o
  | partsDir {Γ s l i j k o} : head i = .string → Core C Γ (.expression (.literal (.string s))) i j →
      s ≠ t!"use strict" → Core C Γ .semi j k → Core C Γ (.parts false l) k o →
      Core C Γ (.parts false (.dir s (trimQuotes s) :: l)) i o
  | partsExpr {Γ e l i j k o} : head i = .string → Core C Γ (.expression e) i j →
      (∀ l, e ≠ .literal l) → (∀ es qs, e ≠ .template es qs) → Core C Γ .semi j k →
      Core C Γ (.parts true l) k o → Core C Γ (.parts false (.stmt (.expr e) :: l)) i o

end Ressa.Gr
