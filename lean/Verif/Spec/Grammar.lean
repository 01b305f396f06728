import Verif.Model.Api
import Verif.Spec.Flags

/-!
# The grammar the parser implements

A declarative description of the language and of the trees: `G C Γ nt i o` says that, in the
syntactic environment `Γ`, the items `i` begin with a phrase of the kind `nt` and that `o` is what
remains.  The index `nt` carries the tree built for the phrase.

The rules are written from the shape of ECMAScript and of `src/lib.rs`, not from the control flow
of the model: no parser state, no cover-grammar flags, no look-ahead except where the language
itself needs it.  `Verif.Proof.Sound` proves that every successful run of the parser is a
derivation; everything claimed about all produced trees is an induction on derivations.

Deliberate departures from ECMAScript are those of the source and are marked *(quirk)*.
-/

namespace Ressa.Gr

/-- What stays fixed during a run: the source text, the two settings, the token predicates of the
scanner, and whether a line break is pending at the end. -/
structure Cfg where
  ext : Ext
  stream : Txt
  tolerant : Bool
  isModule : Bool
  pendEnd : Bool
  /-- `yield` is followed.  This is possible as long as no item is `get`: *(quirk)* after a getter
  of a class `yield` is an operator everywhere. -/
  exact : Bool := false

/-- The syntactic environment. -/
structure Env where
  strict : Bool
  await : Bool
  inFn : Bool
  allowIn : Bool
  labels : List Txt
  /-- `yield` is known to be an operator. -/
  gen : Bool := false
  deriving DecidableEq

namespace Env
/-- Inside the braces of a function body. -/
def body (Γ : Env) : Env := { Γ with inFn := true, labels := [] }
/-- With the given meaning of `await`. -/
def awaiting (Γ : Env) (b : Bool) : Env := { Γ with await := b }
/-- Where `yield` is (not) known to be an operator. -/
def yielding (Γ : Env) (g : Bool) : Env := { Γ with gen := g }
/-- Inside a function: the meanings of `await` and `yield`. -/
def fn (Γ : Env) (a g : Bool) : Env := { Γ with await := a, gen := g }
/-- Where `in` is (not) an operator. -/
def within (Γ : Env) (b : Bool) : Env := { Γ with allowIn := b }
/-- Inside a class. -/
def strictly (Γ : Env) : Env := { Γ with strict := true }
/-- Below a label. -/
def label (Γ : Env) (l : Txt) : Env := { Γ with labels := ('$' :: l) :: Γ.labels }
end Env

/-- The source text of an item. -/
def Cfg.textOf (C : Cfg) (it : Item) : Txt :=
  (sliceB C.stream it.span.start it.span.stop).getD []

/-- The source text of an item. -/
abbrev Cfg.text (C : Cfg) (t : Tok) : Txt := C.textOf t.item

/-- The token at the front; the end of the items counts as end of input. -/
def head : List Tok → Token
  | [] => .eof
  | t :: _ => t.item.token

/-- Is there a line break before the item at the front? -/
def Cfg.nl (C : Cfg) : List Tok → Bool
  | [] => C.pendEnd
  | t :: _ => t.nl

/-- `b` says whether the item at the front has the text `w`; nothing is said about the text at the
end of the items. -/
def Cfg.textIs (C : Cfg) (w : Txt) : List Tok → Bool → Prop
  | [], _ => True
  | t :: _, b => C.text t = w ↔ b = true

/-- The item is the punctuator `p`. -/
abbrev Is (t : Tok) (p : Punct) : Prop := t.item.token = .punct p
/-- The item is the keyword `k`. -/
abbrev Kw (t : Tok) (k : Keyword) : Prop := t.item.token = .keyword k
/-- Is the item at the front `[`? -/
def atBracket (i : List Tok) : Bool := (head i).matchesPunct .openBracket

/-- Nothing at the front continues a member expression. -/
def memEnd (o : List Tok) : Prop :=
  head o ≠ .punct .period ∧ head o ≠ .punct .openBracket ∧ (head o).isTemplate = false

/-- Is the item at the front a word: an identifier, a keyword, `true`, `false` or `null`? -/
def atWord (i : List Tok) : Bool :=
  (head i).isIdent || (head i).isKeyword || (head i).isBool || (head i).isNull

/-- A binary operator of the tree. -/
inductive Op
  | bin (o : BinaryOperator)
  | log (o : LogicalOperator)

/-- The node of an operator. -/
def Op.node : Op → Expr → Expr → Expr
  | .bin o => .binary o
  | .log o => .logical o

/-- The binding strength of the binary operators, from `||` to `*`. -/
def Op.level : Op → Nat
  | .log .or => 1
  | .log .and => 2
  | .bin .or => 3
  | .bin .xOr => 4
  | .bin .and => 5
  | .bin .equal | .bin .notEqual | .bin .strictEqual | .bin .strictNotEqual => 6
  | .bin .lessThan | .bin .greaterThan | .bin .lessThanEqual | .bin .greaterThanEqual => 7
  | .bin .instanceOf | .bin .in => 7
  | .bin .leftShift | .bin .rightShift | .bin .unsignedRightShift => 8
  | .bin .plus | .bin .minus => 9
  | .bin .times | .bin .over | .bin .mod => 11
  | .bin .powerOf => 12

/-- The operator a token stands for. -/
def opOf (t : Token) : Option Op :=
  match logicalOperator t with
  | some o => some (.log o)
  | none => (binaryOperator t).map .bin

/-- A property `'_proto_': value`.  *(quirk)* A string item contains its quotes, so that there is
no such property in practice. -/
def isProtoInit : ObjectProperty → Bool
  | .property (.mk k _ .init false c false) => !c && isProto k
  | _ => false

/-- The operands of a parenthesised group as one expression. -/
def groupOf : List Expr → Expr
  | [e] => e
  | es => .sequence es

/-- The parameters that a parenthesised expression before `=>` stands for. -/
def arrowArgs : Expr → List FunctionArg
  | .sequence es => es.map .expr
  | e => [.expr e]

/-- Is the last template piece the end of the template? -/
def lastTail (qs : List TemplateElement) : Bool := (qs.getLast?.map (·.tail)).getD false

/-- Is an assignment to this tree an error in strict code? -/
def isStrictName : Expr → Bool
  | .ident n => isRestrictedWord n || isStrictReservedWord n
  | _ => false

/-- After a key that begins with an identifier, no `async` follows on the same line. -/
def Cfg.noAsync (C : Cfg) (tok : Token) (o : List Tok) : Prop :=
  tok = .ident → C.nl o = false → C.textIs t!"async" o false ∨ head o = .punct .colon ∨
    head o = .punct .openParen ∨ head o = .punct .asterisk

/-- The final checks on a class element: from the element `b` and `ctor` (has a constructor been
seen) to the property `p` and the new value of `ctor`. -/
inductive Finish (ctor isStatic : Bool) (b : ElBody) : Bool → Property → Prop
  | ctor {key value} : b.kind = some .init ∨ b.kind = some .method → b.key = some key → b.value = some value →
      b.computed = false → b.method = true → isGeneratorValue value = false → isStatic = false →
      isKey key t!"constructor" = true → ctor = false →
      Finish ctor isStatic b true (.mk key value .ctor true false false)
  | other {kind key value} : b.kind = some kind → b.key = some key → b.value = some value →
      (b.computed = true ∨ isStatic = true ∧ isKey key t!"prototype" = false ∨
        isStatic = false ∧ isKey key t!"constructor" = false) →
      Finish ctor isStatic b ctor
        (.mk key value (if kind = .init then .method else kind) b.method b.computed false)

/-- The kinds of phrases, with the trees they stand for. -/
inductive NT
  -- names, keys, separators
  | name (n : Txt)
  | ident (isVar : Bool) (n : Txt)
  | fnName (n : Txt)
  | key (k : PropertyKey)
  | semi
  | sep
  | asyncOpt (b : Bool)
  | starOpt (b : Bool)
  -- patterns
  | pattern (kind : Option VariableKind) (restricted : Bool) (p : Pat)
  | patDefault (restricted : Bool) (p : Pat)
  | rest (restricted : Bool) (p : Pat)
  | patElems (l : List (Option ArrayPatPart))
  | patArray (l : List (Option ArrayPatPart))
  | patProp (p : ObjectPatPart)
  | patProps (l : List ObjectPatPart)
  -- functions
  | directive (p : ProgramPart)
  | prologue (l : List ProgramPart)
  | items (l : List ProgramPart)
  | body (l : List ProgramPart)
  | param (restricted : Bool) (a : FunctionArg)
  | paramSeq (restricted : Bool) (l : List FunctionArg)
  | params (restricted : Bool) (l : List FunctionArg)
  | declName (optIdent : Bool) (id : Option Txt)
  | fnDecl (optIdent : Bool) (f : Function)
  | exprName (id : Option Txt)
  | fnExpr (e : Expr)
  | method (isAsync gen : Bool) (v : PropertyValue)
  | getter (v : PropertyValue)
  | setter (v : PropertyValue)
  -- classes
  | elHead (tok : Token) (h : ElHead)
  | elBody (h : ElHead) (b : ElBody)
  | elMethod (isAsync : Bool) (b b' : ElBody)
  | classEl (ctor ctor' : Bool) (p : Property)
  | classEls (ctor : Bool) (l : List Property)
  | classBody (l : List Property)
  | heritage (e : Option Expr)
  | className (optIdent : Bool) (id : Option Txt)
  | cls (optIdent : Bool) (c : Class)
  -- expressions
  | tplElem (q : TemplateElement)
  | tplSeq (es : List Expr) (qs : List TemplateElement)
  | tpl (es : List Expr) (qs : List TemplateElement)
  | spread (e : Expr)
  | arg (e : Expr)
  | argSeq (l : List Expr)
  | args (l : List Expr)
  | propHead (key : Option PropertyKey) (isAsync computed : Bool)
  | objProp (p : ObjectProperty)
  | objProps (l : List ObjectProperty)
  | object (e : Expr)
  | elems (l : List (Option Expr))
  | array (e : Expr)
  | groupSeq (l : List Expr)
  | group (e : Expr)
  | primary (e : Expr)
  | newExpr (e : Expr)
  | operand (e : Expr)
  | member (e : Expr)
  | call (e : Expr)
  | update (e : Expr)
  | unary (e : Expr)
  | expo (e : Expr)
  | bin (level : Nat) (e : Expr)
  | cond (e : Expr)
  | arrowHead (e : Expr)
  | assign (e : Expr)
  | exprSeq (l : List Expr)
  | expression (e : Expr)
  -- statements
  | block (l : List ProgramPart)
  | init (e : Option Expr)
  | varDecl (checked inFor : Bool) (d : VariableDecl)
  | varDecls (checked inFor : Bool) (l : List VariableDecl)
  | lexDecl (kind : VariableKind) (inFor : Bool) (d : VariableDecl)
  | lexDecls (kind : VariableKind) (inFor : Bool) (l : List VariableDecl)
  | lexical (inFor : Bool) (d : Decl)
  | loopBody (s : Stmt)
  | optExpr (stop : Punct) (e : Option Expr)
  | forCont (init : Option LoopInit) (s : Stmt)
  | forSeq (l : List Expr)
  | forHead (isAwait : Bool) (s : Stmt)
  | catchParam (p : Option Pat)
  | catchClause (c : CatchClause)
  | handler (c : Option CatchClause)
  | finalizer (l : Option (List ProgramPart))
  | caseTest (e : Option Expr)
  | switchCase (c : SwitchCase)
  | cases (found : Bool) (l : List SwitchCase)
  | optLabel (k : Keyword) (l : Option Txt)
  | labelBody (s : Stmt)
  | exprStmt (e : Expr)
  | stmt (s : Stmt)
  -- modules
  | source (s : Txt)
  | importName (n : Txt)
  | importSpec (s : ImportSpecifier)
  | importSeq (l : List ImportSpecifier)
  | namedImports (l : List ImportSpecifier)
  | nsImport (s : ImportSpecifier)
  | imports (l : List ImportSpecifier)
  | importDecl (i : ModImport)
  | exportSpec (s : ExportSpecifier)
  | exportSeq (dflt : Bool) (l : List ExportSpecifier)
  | exportDecl (e : ModExport)
  | listItem (p : ProgramPart)

open NT

/-- `G C Γ nt i o`: the items `i` begin with a phrase `nt`, and `o` is what remains. -/
inductive G (C : Cfg) : Env → NT → List Tok → List Tok → Prop

  -- Names

  /-- *(quirk)* any item at all is a name after a dot, in `export { .. }` and the like. -/
  | name {Γ t o} : G C Γ (.name (C.text t)) (t :: o) o
  | identIdent {Γ v t o} : t.item.token = .ident →
      ((C.isModule = true ∨ Γ.await = true) → C.text t ≠ t!"await") →
      G C Γ (.ident v (C.text t)) (t :: o) o
  | identYield {Γ v t o} : Kw t .yield → Γ.strict = false → Γ.gen = false →
      G C Γ (.ident v t!"yield") (t :: o) o
  /-- *(quirk)* any keyword but `let` is a binding identifier outside strict mode. -/
  | identKeyword {Γ k t o} : Kw t k → k ≠ .let → k ≠ .yield → Γ.strict = false →
      G C Γ (.ident true k.text) (t :: o) o
  | fnName {Γ n i o} : G C Γ (.ident false n) i o → G C Γ (.fnName n) i o
  | fnNameYield {Γ t o} : Kw t .yield → G C Γ (.fnName (C.text t)) (t :: o) o
  | keyString {Γ t o} : t.item.token = .string →
      G C Γ (.key (.literal (.string (C.text t)))) (t :: o) o
  | keyNumber {Γ t o} : t.item.token = .numeric →
      G C Γ (.key (.literal (.number (C.text t)))) (t :: o) o
  | keyName {Γ t o} : (t.item.token.isIdent || t.item.token.isBool || t.item.token.isNull ||
        t.item.token.isKeyword) = true →
      G C Γ (.key (.expr (.ident (C.text t)))) (t :: o) o
  | keyComputed {Γ t t' e i o} : Is t .openBracket → G C Γ (.assign e) i (t' :: o) →
      Is t' .closeBracket → G C Γ (.key (computedKey e)) (t :: i) o
  | semiToken {Γ t o} : Is t .semiColon → G C Γ .semi (t :: o) o
  | semiLine {Γ o} : C.nl o = true → G C Γ .semi o o
  | semiEnd {Γ o} : head o = .eof ∨ head o = .punct .closeBrace → G C Γ .semi o o
  | sepComma {Γ t o} : Is t .comma → G C Γ .sep (t :: o) o
  | sepNone {Γ o} : C.tolerant = true → G C Γ .sep o o
  | asyncNo {Γ o} : G C Γ (.asyncOpt false) o o
  | asyncYes {Γ t o} : C.text t = t!"async" → G C Γ (.asyncOpt true) (t :: o) o
  | starNo {Γ o} : G C Γ (.starOpt false) o o
  | starYes {Γ t o} : Is t .asterisk → G C Γ (.starOpt true) (t :: o) o

  -- Patterns

  | patIdent {Γ n i o} : G C Γ (.ident true n) i o →
      G C Γ (.pattern none (isRestrictedWord n) (.identifier n)) i o
  | patVar {Γ n i o} : G C Γ (.ident true n) i o →
      G C Γ (.pattern (some .var) (isRestrictedWord n) (.identifier n)) i o
  | patLexical {Γ k n i o} : k = .let ∨ k = .const → head i ≠ .keyword .let →
      G C Γ (.ident false n) i o →
      G C Γ (.pattern (some k) (isRestrictedWord n) (.identifier n)) i o
  | patArray {Γ k t t' l i o} : Is t .openBracket → G C Γ (.patArray l) i (t' :: o) →
      Is t' .closeBracket → G C Γ (.pattern k false (.array l)) (t :: i) o
  | patObject {Γ k t t' l i o} : Is t .openBrace → G C Γ (.patProps l) i (t' :: o) →
      Is t' .closeBrace → G C Γ (.pattern k false (.object l)) (t :: i) o
  | patNoDefault {Γ b p i o} : G C Γ (.pattern none b p) i o → G C Γ (.patDefault b p) i o
  | patDefault {Γ b p t e i j o} : G C Γ (.pattern none b p) i (t :: j) → Is t .assign →
      G C (Γ.yielding false) (.assign e) j o → G C Γ (.patDefault b (.assignment p e)) i o
  | rest {Γ b p t i o} : Is t .spread → G C Γ (.pattern none b p) i o →
      head o = .punct .closeParen → G C Γ (.rest b (.restElement p)) (t :: i) o
  | patElemsNil {Γ o} : G C Γ (.patElems []) o o
  | patElemsHole {Γ l t i o} : G C Γ (.patElems l) i (t :: o) → Is t .comma →
      G C Γ (.patElems (l ++ [none])) i o
  | patElemsComma {Γ l b p t i j o} : G C Γ (.patElems l) i j → G C Γ (.patDefault b p) j (t :: o) →
      Is t .comma → G C Γ (.patElems (l ++ [some (.pat p)])) i o
  | patElemsLast {Γ l b p i j o} : G C Γ (.patElems l) i j → G C Γ (.patDefault b p) j o →
      head o = .punct .closeBracket → G C Γ (.patElems (l ++ [some (.pat p)])) i o
  | patArr {Γ l i o} : G C Γ (.patElems l) i o → G C Γ (.patArray l) i o
  | patArrRest {Γ l b p t i j o} : G C Γ (.patElems l) i (t :: j) → Is t .spread →
      G C Γ (.pattern none b p) j o → G C Γ (.patArray (l ++ [some (.pat p)])) i o
  | patPropRest {Γ b p t i o} : Is t .spread → G C Γ (.pattern none b p) i o →
      G C Γ (.patProp (.rest (.restElement p))) (t :: i) o
  | patPropInit {Γ n t e i j o} : head i = .ident → G C Γ (.ident false n) i (t :: j) →
      Is t .assign → G C Γ (.assign e) j o →
      G C Γ (.patProp (.assignment (.mk (.expr (.ident n)) (.expr e) .init false false true))) i o
  | patPropName {Γ n t b p i j o} : head i = .ident → G C Γ (.ident false n) i (t :: j) →
      Is t .colon → G C Γ (.patDefault b p) j o →
      G C Γ (.patProp (.assignment (.mk (.expr (.ident n)) (.pat p) .init false false false))) i o
  | patPropShort {Γ n i o} : head i = .ident → G C Γ (.ident false n) i o →
      G C Γ (.patProp (.assignment (.mk (.expr (.ident n)) .none .init false false true))) i o
  | patPropKey {Γ k t b p i j o} : G C Γ (.key k) i (t :: j) → Is t .colon →
      G C Γ (.patDefault b p) j o →
      G C Γ (.patProp (.assignment (.mk k (.pat p) .init false (atBracket i) false))) i o
  | patPropsNil {Γ o} : G C Γ (.patProps []) o o
  | patPropsComma {Γ l p t i j o} : G C Γ (.patProps l) i j → G C Γ (.patProp p) j (t :: o) →
      Is t .comma → G C Γ (.patProps (l ++ [p])) i o
  | patPropsLast {Γ l p i j o} : G C Γ (.patProps l) i j → G C Γ (.patProp p) j o →
      head o = .punct .closeBrace → G C Γ (.patProps (l ++ [p])) i o

  -- Functions

  | dirString {Γ s i j o} : G C Γ (.expression (.literal (.string s))) i j → G C Γ .semi j o →
      G C Γ (.directive (.dir s (trimQuotes s))) i o
  | dirExpr {Γ e i j o} : G C Γ (.expression e) i j → G C Γ .semi j o →
      G C Γ (.directive (.stmt (.expr e))) i o
  /-- *(quirk)* no semicolon is looked for after a literal. -/
  | dirOther {Γ e i o} : G C Γ (.expression e) i o → (∀ s, e ≠ .literal (.string s)) →
      G C Γ (.directive (.stmt (.expr e))) i o
  | prologueNil {Γ o} : G C Γ (.prologue []) o o
  | prologueMore {Γ l p i j o} : G C Γ (.prologue l) i j → head j = .string →
      G C Γ (.directive p) j o → G C Γ (.prologue (l ++ [p])) i o
  | itemsNil {Γ o} : G C Γ (.items []) o o
  | itemsMore {Γ l p i j o} : G C Γ (.items l) i j → G C Γ (.listItem p) j o →
      G C Γ (.items (l ++ [p])) i o
  /-- *(quirk)* the directives are read in the environment outside the body. -/
  | body {Γ t t' ds l i j o} : Is t .openBrace → G C Γ (.prologue ds) i j → head j ≠ .string →
      G C Γ.body (.items l) j (t' :: o) → Is t' .closeBrace →
      G C Γ (.body (ds ++ l)) (t :: i) o
  | paramRest {Γ b p i o} : G C Γ (.rest b p) i o → G C Γ (.param b (.pat p)) i o
  | param {Γ b p i o} : G C Γ (.patDefault b p) i o → G C Γ (.param b (.pat p)) i o
  | paramFirst {Γ b a i o} : G C Γ (.param b a) i o → G C Γ (.paramSeq b [a]) i o
  | paramMore {Γ b b' l a t i j o} : G C Γ (.paramSeq b l) i (t :: j) → Is t .comma →
      G C Γ (.param b' a) j o → G C Γ (.paramSeq (b || b') (l ++ [a])) i o
  | paramsNone {Γ t t' o} : Is t .openParen → Is t' .closeParen →
      G C Γ (.params false []) (t :: t' :: o) o
  | params {Γ b l t t' i o} : Is t .openParen → G C Γ (.paramSeq b l) i (t' :: o) →
      Is t' .closeParen → G C Γ (.params b l) (t :: i) o
  | paramsComma {Γ b l t t' t'' i o} : Is t .openParen →
      G C Γ (.paramSeq b l) i (t' :: t'' :: o) → Is t' .comma → Is t'' .closeParen →
      G C Γ (.params b l) (t :: i) o
  | declNameNone {Γ o} : head o = .punct .openParen → G C Γ (.declName true none) o o
  | declName {Γ opt n i o} : G C Γ (.ident false n) i o → G C Γ (.declName opt (some n)) i o
  | fnDecl {Γ a g opt t id b ps l i i' j k m o} : G C Γ (.asyncOpt a) i (t :: i') →
      Kw t .function → G C Γ (.starOpt g) i' j → (a = true → g = false) →
      G C Γ (.declName opt id) j k → G C (Γ.fn a (g && C.exact)) (.params b ps) k m →
      G C (Γ.fn a (g && C.exact)) (.body l) m o → G C Γ (.fnDecl opt (.mk id ps l g a)) i o
  | exprNameNone {Γ o} : head o = .punct .openParen → G C Γ (.exprName none) o o
  | exprName {Γ n i o} : G C Γ (.fnName n) i o → G C Γ (.exprName (some n)) i o
  | fnExpr {Γ a g t id b ps l i i' j k m o} : G C Γ (.asyncOpt a) i (t :: i') →
      Kw t .function → G C Γ (.starOpt g) i' j →
      G C (Γ.fn a (g && C.exact)) (.exprName id) j k →
      G C (Γ.fn a (g && C.exact)) (.params b ps) k m → G C (Γ.fn a (g && C.exact)) (.body l) m o →
      (Γ.strict = true → b = true → C.tolerant = true) →
      G C Γ (.fnExpr (.function (.mk id ps l g a))) i o
  /-- *(quirk)* `yield` is an operator in every method. -/
  | methodAsync {Γ b ps l i j o} : G C (Γ.fn true C.exact) (.params b ps) i j →
      G C (Γ.fn true C.exact) (.body l) j o → (Γ.strict = true → b = true → C.tolerant = true) →
      G C Γ (.method true false (.expr (.function (.mk none ps l false true)))) i o
  /-- *(quirk)* a method inherits the meaning of `await` from outside. -/
  | method {Γ g b ps l i j o} : G C (Γ.yielding (!g && C.exact)) (.params b ps) i j →
      G C (Γ.yielding C.exact) (.body l) j o →
      (Γ.strict = true → b = true → C.tolerant = true) →
      G C Γ (.method false g (.expr (.function (.mk none ps l g false)))) i o
  | getter {Γ b ps l i j o} : G C Γ (.params b ps) i j → (ps = [] ∨ C.tolerant = true) →
      G C Γ (.body l) j o → (Γ.strict = true → b = true → C.tolerant = true) →
      G C Γ (.getter (.expr (.function (.mk none ps l false false)))) i o
  | setter {Γ b ps l i j o} : G C (Γ.yielding false) (.params b ps) i j →
      ((∃ a, ps = [a] ∧ isRestArg a = false) ∨ C.tolerant = true) →
      G C Γ (.body l) j o → (Γ.strict = true → b = true → C.tolerant = true) →
      G C Γ (.setter (.expr (.function (.mk none ps l false false)))) i o

  -- Classes

  | elStar {Γ tok t o} : Is t .asterisk → G C Γ (.elHead tok ⟨tok, none, false, false⟩) (t :: o) o
  /-- *(quirk)* an accessor named `async` is rejected. -/
  | elKey {Γ tok k i o} : G C Γ (.key k) i o → C.noAsync tok o →
      G C Γ (.elHead tok ⟨tok, some k, atBracket i, false⟩) i o
  | elStaticStar {Γ tok k t i o} : G C Γ (.key k) i (t :: o) → isKey k t!"static" = true →
      Is t .asterisk → G C Γ (.elHead tok ⟨.punct .asterisk, none, false, true⟩) i o
  | elStatic {Γ tok k k' i j o} : G C Γ (.key k) i j → isKey k t!"static" = true →
      G C Γ (.key k') j o → C.noAsync (head j) o →
      G C Γ (.elHead tok ⟨head j, some k', atBracket j, true⟩) i o
  | elGet {Γ h k k' v i j o} : h.token = .ident → h.key = some k → isKey k t!"get" = true →
      G C Γ (.key k') i j → G C Γ (.getter v) j o →
      G C Γ (.elBody h ⟨some .get, false, some k', some v, atBracket i⟩) i o
  | elSet {Γ h k k' v i j o} : h.token = .ident → h.key = some k → isKey k t!"set" = true →
      G C Γ (.key k') i j → G C Γ (.setter v) j o →
      G C Γ (.elBody h ⟨some .set, false, some k', some v, atBracket i⟩) i o
  | elGen {Γ h k v i j o} : h.token = .punct .asterisk → G C Γ (.key k) i j →
      G C Γ (.method false true v) j o →
      G C Γ (.elBody h ⟨some .init, true, some k, some v, atBracket i⟩) i o
  | elPlain {Γ h o} : G C Γ (.elBody h ⟨none, false, h.key, none, h.computed⟩) o o
  | elMethod {Γ a b v i o} : b.kind = none → G C Γ (.method a false v) i o →
      G C Γ (.elMethod a b ⟨some .init, true, b.key, some v, b.computed⟩) i o
  | elDone {Γ a b o} : G C Γ (.elMethod a b b) o o
  | classEl {Γ c c' a h b b' p i j k l o} : G C Γ (.asyncOpt a) i j →
      G C Γ (.elHead (head i) h) j k → G C Γ (.elBody h b) k l → G C Γ (.elMethod a b b') l o →
      Finish c h.isStatic b' c' p → G C Γ (.classEl c c' p) i o
  | classElsNil {Γ o} : G C Γ (.classEls false []) o o
  | classElsSemi {Γ c l t i o} : G C Γ (.classEls c l) i (t :: o) → Is t .semiColon →
      G C Γ (.classEls c l) i o
  | classElsMore {Γ c c' l p i j o} : G C Γ (.classEls c l) i j → G C Γ (.classEl c c' p) j o →
      G C Γ (.classEls c' (l ++ [p])) i o
  | classBody {Γ c l t t' i o} : Is t .openBrace → G C Γ (.classEls c l) i (t' :: o) →
      Is t' .closeBrace → G C Γ (.classBody l) (t :: i) o
  | heritageNone {Γ o} : G C Γ (.heritage none) o o
  | heritage {Γ t e i o} : C.text t = t!"extends" → G C Γ (.member e) i o →
      G C Γ (.heritage (some e)) (t :: i) o
  | classNameNone {Γ o} : head o ≠ .ident → G C Γ (.className true none) o o
  | className {Γ opt n i o} : G C Γ (.ident false n) i o → G C Γ (.className opt (some n)) i o
  | cls {Γ opt t id sup l i j k o} : Kw t .class → G C Γ.strictly (.className opt id) i j →
      G C Γ.strictly (.heritage sup) j k → G C Γ.strictly (.classBody l) k o →
      G C Γ (.cls opt (.mk id sup l)) (t :: i) o
  /-- *(quirk)* a superclass written before the name is dropped. -/
  | clsDropped {Γ opt t id e l i j k o} : Kw t .class → G C Γ.strictly (.heritage (some e)) i j →
      G C Γ.strictly (.className opt id) j k → G C Γ.strictly (.classBody l) k o →
      G C Γ (.cls opt (.mk id none l)) (t :: i) o

  -- Templates, arguments, objects, arrays, groups

  | tplMid {Γ t cooked o} : t.item.token = .template .head ∨ t.item.token = .template .body →
      sliceB (C.text t) 1 (blen (C.text t) - 2) = some cooked →
      G C Γ (.tplElem ⟨C.text t, cooked, false⟩) (t :: o) o
  | tplEnd {Γ t cooked o} : t.item.token = .template .tail ∨ t.item.token = .template .noSub →
      sliceB (C.text t) 1 (blen (C.text t) - 1) = some cooked →
      G C Γ (.tplElem ⟨C.text t, cooked, true⟩) (t :: o) o
  | tplFirst {Γ q i o} : (head i).isTemplateHead = true → G C Γ (.tplElem q) i o →
      G C Γ (.tplSeq [] [q]) i o
  | tplMore {Γ es qs e q i j k o} : G C Γ (.tplSeq es qs) i j → lastTail qs = false →
      G C Γ (.expression e) j k → G C Γ (.tplElem q) k o →
      G C Γ (.tplSeq (es ++ [e]) (qs ++ [q])) i o
  | tpl {Γ es qs i o} : G C Γ (.tplSeq es qs) i o → lastTail qs = true → G C Γ (.tpl es qs) i o
  | spread {Γ t e i o} : Is t .spread → G C Γ (.assign e) i o →
      G C Γ (.spread (.spread e)) (t :: i) o
  | argSpread {Γ e i o} : G C Γ (.spread e) i o → G C Γ (.arg e) i o
  | arg {Γ e i o} : G C Γ (.assign e) i o → G C Γ (.arg e) i o
  | argFirst {Γ e i o} : G C Γ (.arg e) i o → G C Γ (.argSeq [e]) i o
  | argMore {Γ l e i j k o} : G C Γ (.argSeq l) i j → G C Γ .sep j k → G C Γ (.arg e) k o →
      G C Γ (.argSeq (l ++ [e])) i o
  | argsNone {Γ t t' o} : Is t .openParen → Is t' .closeParen →
      G C Γ (.args []) (t :: t' :: o) o
  | args {Γ l t t' i o} : Is t .openParen → G C Γ (.argSeq l) i (t' :: o) → Is t' .closeParen →
      G C Γ (.args l) (t :: i) o
  | argsSep {Γ l t t' i j o} : Is t .openParen → G C Γ (.argSeq l) i j →
      G C Γ .sep j (t' :: o) → Is t' .closeParen → G C Γ (.args l) (t :: i) o
  | propIdent {Γ t o} : t.item.token = .ident → C.text t ≠ t!"async" →
      G C Γ (.propHead (some (.expr (.ident (C.text t)))) false (atBracket o)) (t :: o) o
  | propAsync {Γ t k i o} : t.item.token = .ident → C.text t = t!"async" → G C Γ (.key k) i o →
      G C Γ (.propHead (some k) true (atBracket i)) (t :: i) o
  | propStar {Γ t o} : Is t .asterisk → G C Γ (.propHead none false false) (t :: o) o
  | propKey {Γ k i o} : head i ≠ .ident → G C Γ (.key k) i o →
      G C Γ (.propHead (some k) false (atBracket i)) i o
  | objGet {Γ k c k' v i j m o} : C.textIs t!"get" i true → G C Γ (.propHead k false c) i j →
      G C Γ (.key k') j m → G C Γ (.getter v) m o →
      G C Γ (.objProp (.property (.mk k' v .get false (atBracket j) false))) i o
  | objSet {Γ k c k' v i j m o} : C.textIs t!"set" i true → G C Γ (.propHead k false c) i j →
      G C Γ (.key k') j m → G C Γ (.setter v) m o →
      G C Γ (.objProp (.property (.mk k' v .set false (atBracket j) false))) i o
  | objGen {Γ k a c k' v i j m o} : head i = .punct .asterisk → G C Γ (.propHead k a c) i j →
      G C Γ (.key k') j m → G C Γ (.method false true v) m o →
      G C Γ (.objProp (.property (.mk k' v .init true (atBracket j) false))) i o
  | objInit {Γ k c t e i j o} : G C Γ (.propHead (some k) false c) i (t :: j) → Is t .colon →
      G C Γ (.assign e) j o →
      G C Γ (.objProp (.property (.mk k (.expr e) .init false c false))) i o
  | objMethod {Γ k a c v i j o} : G C Γ (.propHead (some k) a c) i j →
      G C Γ (.method a false v) j o →
      G C Γ (.objProp (.property (.mk k v .init true c false))) i o
  | objShortInit {Γ k a c t e i j o} : head i = .ident → G C Γ (.propHead (some k) a c) i (t :: j) →
      Is t .assign → G C Γ (.assign e) j o →
      G C Γ (.objProp (.property (.mk k (.expr e) .init false c true))) i o
  | objShort {Γ k a c i o} : head i = .ident → G C Γ (.propHead (some k) a c) i o →
      G C Γ (.objProp (.property (.mk k .none .init false c true))) i o
  | objSpread {Γ e i o} : G C Γ (.spread e) i o → G C Γ (.objProp (.spread e)) i o
  | objPropsNil {Γ o} : G C Γ (.objProps []) o o
  | objPropsSep {Γ l p i j k o} : G C Γ (.objProps l) i j → G C Γ (.objProp p) j k →
      G C Γ .sep k o → G C Γ (.objProps (l ++ [p])) i o
  | objPropsLast {Γ l p i j o} : G C Γ (.objProps l) i j → G C Γ (.objProp p) j o →
      head o = .punct .closeBrace → G C Γ (.objProps (l ++ [p])) i o
  | object {Γ l t t' i o} : Is t .openBrace → G C Γ (.objProps l) i (t' :: o) →
      Is t' .closeBrace → (l.filter isProtoInit).length ≤ 1 ∨ C.tolerant = true →
      G C Γ (.object (.object l)) (t :: i) o
  | elemsNil {Γ o} : G C Γ (.elems []) o o
  | elemsHole {Γ l t i o} : G C Γ (.elems l) i (t :: o) → Is t .comma →
      G C Γ (.elems (l ++ [none])) i o
  | elemsComma {Γ l e t i j o} : G C Γ (.elems l) i j → G C Γ (.arg e) j (t :: o) →
      Is t .comma → G C Γ (.elems (l ++ [some e])) i o
  | elemsLast {Γ l e i j o} : G C Γ (.elems l) i j → G C Γ (.arg e) j o →
      head o = .punct .closeBracket → G C Γ (.elems (l ++ [some e])) i o
  | array {Γ l t t' i o} : Is t .openBracket → G C Γ (.elems l) i (t' :: o) →
      Is t' .closeBracket → G C Γ (.array (.array l)) (t :: i) o
  | groupFirst {Γ e i o} : G C Γ (.assign e) i o → G C Γ (.groupSeq [e]) i o
  | groupMore {Γ l t e i j o} : G C Γ (.groupSeq l) i (t :: j) → Is t .comma →
      G C Γ (.assign e) j o → G C Γ (.groupSeq (l ++ [e])) i o
  | group {Γ l t t' i o} : Is t .openParen → G C Γ (.groupSeq l) i (t' :: o) →
      Is t' .closeParen → head o ≠ .punct .fatArrow → G C Γ (.group (groupOf l)) (t :: i) o
  | groupArrow {Γ l t t' i o} : Is t .openParen → G C Γ (.groupSeq l) i (t' :: o) →
      Is t' .closeParen → head o = .punct .fatArrow → mayBind (groupOf l) = true →
      G C Γ (.group (.arrowParamPlaceHolder (arrowArgs (groupOf l)) false)) (t :: i) o
  | groupNone {Γ t t' o} : Is t .openParen → Is t' .closeParen → head o = .punct .fatArrow →
      G C Γ (.group (.arrowParamPlaceHolder [] false)) (t :: t' :: o) o
  | groupRest {Γ t t' b p i o} : Is t .openParen → G C Γ (.rest b p) i (t' :: o) →
      Is t' .closeParen → head o = .punct .fatArrow →
      G C Γ (.group (.arrowParamPlaceHolder [.pat p] false)) (t :: i) o
  /-- *(quirk)* after a trailing comma no `=>` is asked for. -/
  | groupTrailing {Γ l t t' t'' i o} : Is t .openParen → G C Γ (.groupSeq l) i (t' :: t'' :: o) →
      Is t' .comma → Is t'' .closeParen →
      G C Γ (.group (.arrowParamPlaceHolder (l.map .expr) false)) (t :: i) o
  | groupSeqRest {Γ l t t' t'' b p i j o} : Is t .openParen → G C Γ (.groupSeq l) i (t' :: j) →
      Is t' .comma → (∀ e ∈ l, mayBind e = true) → G C Γ (.rest b p) j (t'' :: o) →
      Is t'' .closeParen →
      G C Γ (.group (.arrowParamPlaceHolder (l.map .expr ++ [.pat p]) false)) (t :: i) o

  -- Expressions

  | primIdent {Γ t o} : t.item.token = .ident → G C Γ (.primary (.ident (C.text t))) (t :: o) o
  | primKeyword {Γ t k o} : Kw t k → Γ.strict = false →
      k = .yield ∧ Γ.gen = false ∨ k = .let ∨ C.ext.isStrictReserved (.keyword k) = true →
      G C Γ (.primary (.ident (C.text t))) (t :: o) o
  | primImport {Γ t o} : Kw t .import → head o = .punct .openParen →
      G C Γ (.primary (.ident (C.text t))) (t :: o) o
  | primFunction {Γ e i o} : G C Γ (.fnExpr e) i o → G C Γ (.primary e) i o
  | primNumber {Γ t o} : t.item.token = .numeric →
      G C Γ (.primary (.literal (.number (C.text t)))) (t :: o) o
  | primString {Γ t o} : t.item.token = .string →
      G C Γ (.primary (.literal (.string (C.text t)))) (t :: o) o
  | primBool {Γ b t o} : t.item.token = .boolean b →
      G C Γ (.primary (.literal (.boolean b))) (t :: o) o
  | primRegex {Γ t c pat flags o} : t.item.token = .regex →
      C.text t = c :: pat ++ '/' :: flags → '/' ∉ flags → G C Γ (.primary (.literal (.regex ⟨pat, flags⟩))) (t :: o) o
  | primTemplate {Γ es qs i o} : G C Γ (.tpl es qs) i o → G C Γ (.primary (.template es qs)) i o
  | primGroup {Γ e i o} : G C Γ (.group e) i o → G C Γ (.primary e) i o
  | primArray {Γ e i o} : G C Γ (.array e) i o → G C Γ (.primary e) i o
  | primObject {Γ e i o} : G C Γ (.object e) i o → G C Γ (.primary e) i o
  | primThis {Γ t o} : Kw t .this → G C Γ (.primary .this) (t :: o) o
  | primClass {Γ c i o} : G C Γ (.cls true c) i o → G C Γ (.primary (.class c)) i o
  | newTarget {Γ t t' t'' o} : Kw t .new → Is t' .period → C.text t'' = t!"target" →
      Γ.inFn = true →
      G C Γ (.newExpr (.metaProperty t!"new" (C.text t''))) (t :: t' :: t'' :: o) o
  | newBare {Γ t e i o} : Kw t .new → head i ≠ .keyword .import → G C Γ (.member e) i o →
      memEnd o → head o ≠ .punct .openParen → G C Γ (.newExpr (.new e [])) (t :: i) o
  | newArgs {Γ t e l i j o} : Kw t .new → head i ≠ .keyword .import → G C Γ (.member e) i j →
      G C Γ (.args l) j o →
      G C Γ (.newExpr (.new e l)) (t :: i) o
  | opNew {Γ e i o} : G C Γ (.newExpr e) i o → G C Γ (.operand e) i o
  | opPrimary {Γ e i o} : G C Γ (.primary e) i o → G C Γ (.operand e) i o
  | memSuper {Γ t o} : Kw t .super → Γ.inFn = true →
      head o = .punct .openBracket ∨ head o = .punct .period → G C Γ (.member .super) (t :: o) o
  | memOperand {Γ e i o} : G C Γ (.operand e) i o → G C Γ (.member e) i o
  | memDot {Γ e n t i j o} : G C Γ (.member e) i (t :: j) → Is t .period → G C Γ (.name n) j o →
      G C Γ (.member (.member e (.ident n) false)) i o
  | memIndex {Γ e x t t' i j o} : G C Γ (.member e) i (t :: j) → Is t .openBracket →
      G C Γ (.expression x) j (t' :: o) → Is t' .closeBracket →
      G C Γ (.member (.member e x true)) i o
  | memTemplate {Γ e es qs i j o} : G C Γ (.member e) i j → G C Γ (.tpl es qs) j o →
      G C Γ (.member (.taggedTemplate e es qs)) i o
  | callSuper {Γ t o} : Kw t .super → Γ.inFn = true →
      head o = .punct .openParen ∨ head o = .punct .period ∨ head o = .punct .openBracket →
      G C Γ (.call .super) (t :: o) o
  | callOperand {Γ e i o} : G C Γ (.operand e) i o → G C Γ (.call e) i o
  | callDot {Γ e n t i j o} : G C Γ (.call e) i (t :: j) → Is t .period → G C Γ (.name n) j o →
      G C Γ (.call (.member e (.ident n) false)) i o
  | callIndex {Γ e x t t' i j o} : G C Γ (.call e) i (t :: j) → Is t .openBracket →
      G C Γ (.expression x) j (t' :: o) → Is t' .closeBracket →
      G C Γ (.call (.member e x true)) i o
  | callTemplate {Γ e es qs i j o} : G C Γ (.call e) i j → G C Γ (.tpl es qs) j o →
      G C Γ (.call (.taggedTemplate e es qs)) i o
  | callArgs {Γ e l i j o} : G C Γ (.call e) i j → G C Γ (.args l) j o →
      G C Γ (.call (.call e l)) i o
  /-- *(quirk)* whatever was called is dropped, as long as the first item was `async`. -/
  | callAsync {Γ e l i j o} : C.textIs t!"async" i true → G C Γ (.call e) i j →
      G C Γ (.args l) j o → head o = .punct .fatArrow →
      G C Γ (.call (.arrowParamPlaceHolder (l.map .expr) true)) i o
  | updPrefix {Γ t op e i o} :
      Is t .increment ∧ op = .increment ∨ Is t .decrement ∧ op = .decrement →
      G C Γ (.unary e) i o →
      (Γ.strict = true → isRestrictedIdent e = true → C.tolerant = true) →
      mayAssign e = true ∨ C.tolerant = true →
      G C Γ (.update (.update op e true)) (t :: i) o
  | updPostfix {Γ t op e i o} : G C (Γ.within true) (.call e) i (t :: o) → t.nl = false →
      Is t .increment ∧ op = .increment ∨ Is t .decrement ∧ op = .decrement →
      (Γ.strict = true → isRestrictedIdent e = false) →
      mayAssign e = true ∨ C.tolerant = true →
      G C Γ (.update (.update op e false)) i o
  | updNone {Γ e i o} : G C (Γ.within true) (.call e) i o →
      (C.nl o = true ∨ head o ≠ .punct .increment ∧ head o ≠ .punct .decrement) →
      G C Γ (.update e) i o
  | unaryOp {Γ t op e i o} : unaryOperator t.item.token = some op → G C Γ (.unary e) i o →
      (Kw t .delete → Γ.strict = true → isIdentExpr e = true → C.tolerant = true) →
      G C Γ (.unary (.unary op e true)) (t :: i) o
  | unaryAwait {Γ t e i o} : Kw t .await → Γ.await = true → G C Γ (.unary e) i o →
      G C Γ (.unary (.await e)) (t :: i) o
  | unaryUpdate {Γ e i o} : G C Γ (.update e) i o → G C Γ (.unary e) i o
  | expoOne {Γ e i o} : G C Γ (.unary e) i o → head o ≠ .punct .exponent → G C Γ (.expo e) i o
  | expo {Γ t l r i j o} : G C Γ (.unary l) i (t :: j) → Is t .exponent → G C Γ (.expo r) j o →
      G C Γ (.expo (.binary .powerOf l r)) i o
  | binOne {Γ n e i o} : G C Γ (.expo e) i o → G C Γ (.bin n e) i o
  | bin {Γ n t op l r i j o} : G C Γ (.bin op.level l) i (t :: j) → opOf t.item.token = some op →
      (Kw t .in → Γ.allowIn = true) → n ≤ op.level → G C Γ (.bin (op.level + 1) r) j o →
      G C Γ (.bin n (op.node l r)) i o
  | condOne {Γ e i o} : G C Γ (.bin 1 e) i o → head o ≠ .punct .questionMark → G C Γ (.cond e) i o
  | cond {Γ t t' e a b i j k o} : G C Γ (.bin 1 e) i (t :: j) → Is t .questionMark →
      G C (Γ.within true) (.assign a) j (t' :: k) → Is t' .colon → G C Γ (.assign b) k o →
      G C Γ (.cond (.conditional e b a)) i o
  | arrowHead {Γ e i o} : G C Γ (.cond e) i o → G C Γ (.arrowHead e) i o
  /-- *(quirk)* whatever was read is dropped, as long as the first item was `async`. -/
  | arrowHeadAsync {Γ e a p i j o} : C.textIs t!"async" i true → G C Γ (.cond e) i j →
      G C Γ (.primary a) j o → reinterpretPat a = some p →
      G C Γ (.arrowHead (.arrowParamPlaceHolder [.pat p] true)) i o
  | assignCond {Γ e i o} : G C Γ (.cond e) i o → isPlaceHolder e = false → G C Γ (.assign e) i o
  | assignOp {Γ e t p op r i j o} : G C Γ (.cond e) i (t :: j) → isPlaceHolder e = false →
      mayAssign e = true ∨ C.tolerant = true → (Γ.strict = true → isStrictName e = false) →
      Is t p → assignmentOperator p = some op → G C Γ (.assign r) j o →
      G C Γ (.assign (.assignment op e r)) i o
  | arrowBlock {Γ e ps a t l i j o} : G C Γ (.arrowHead e) i (t :: j) →
      coverSource e = some (ps, a) → (ps.map (coverParam a)).any (·.2) = false →
      (Γ.strict = true → Γ.gen = true →
        (ps.map (coverParam a)).any (fun p => isYieldArg p.1) = false) → Is t .fatArrow →
      G C (Γ.within true) (.body l) j o →
      G C Γ (.assign (.arrowBlock (ps.map fun p => (coverParam a p).1) l false false a)) i o
  | arrowExpr {Γ e ps a t b i j o} : G C Γ (.arrowHead e) i (t :: j) →
      coverSource e = some (ps, a) → (ps.map (coverParam a)).any (·.2) = false →
      (Γ.strict = true → Γ.gen = true →
        (ps.map (coverParam a)).any (fun p => isYieldArg p.1) = false) → Is t .fatArrow →
      G C Γ (.assign b) j o →
      G C Γ (.assign (.arrowExpr (ps.map fun p => (coverParam a p).1) b true false a)) i o
  /-- `yield` is an operator here, or not followed. -/
  | yieldBare {Γ t o} : Kw t .yield → Γ.gen = C.exact →
      G C Γ (.assign (.yield none false)) (t :: o) o
  | yieldStar {Γ t t' e i o} : Kw t .yield → Γ.gen = C.exact → Is t' .asterisk → t'.nl = false →
      G C Γ (.assign e) i o → G C Γ (.assign (.yield (some e) true)) (t :: t' :: i) o
  | yieldArg {Γ t e i o} : Kw t .yield → Γ.gen = C.exact → C.nl i = false → G C Γ (.assign e) i o →
      G C Γ (.assign (.yield (some e) false)) (t :: i) o
  | exprFirst {Γ e i o} : G C Γ (.assign e) i o → G C Γ (.exprSeq [e]) i o
  | exprMore {Γ l t e i j o} : G C Γ (.exprSeq l) i (t :: j) → Is t .comma →
      G C Γ (.assign e) j o → G C Γ (.exprSeq (l ++ [e])) i o
  | expression {Γ e i o} : G C Γ (.assign e) i o → head o ≠ .punct .comma →
      G C Γ (.expression e) i o
  | exprSequence {Γ l i o} : G C Γ (.exprSeq l) i o → 2 ≤ l.length →
      G C Γ (.expression (.sequence l)) i o

  -- Statements

  | block {Γ t t' l i o} : Is t .openBrace → G C Γ (.items l) i (t' :: o) → Is t' .closeBrace →
      G C Γ (.block l) (t :: i) o
  /-- *(quirk)* a `var` statement does not check the name in strict mode, `for` and `export` do. -/
  | varInit {Γ s f b p t e i j o} : G C Γ (.pattern (some .var) b p) i (t :: j) → Is t .assign →
      (s = true → Γ.strict = true → isRestrictedPat p = true → C.tolerant = true) →
      G C Γ (.assign e) j o → G C Γ (.varDecl s f (.mk p (some e))) i o
  | varNone {Γ s f b p i o} : G C Γ (.pattern (some .var) b p) i o →
      (s = true → Γ.strict = true → isRestrictedPat p = true → C.tolerant = true) →
      isPatIdent p = true ∨ f = true → G C Γ (.varDecl s f (.mk p none)) i o
  | varFirst {Γ s f d i o} : G C Γ (.varDecl s f d) i o → G C Γ (.varDecls s f [d]) i o
  | varMore {Γ s f l d t i j o} : G C Γ (.varDecls s f l) i (t :: j) → Is t .comma →
      G C Γ (.varDecl s f d) j o → G C Γ (.varDecls s f (l ++ [d])) i o
  | lexInit {Γ k f b p t e i j o} : G C Γ (.pattern (some k) b p) i (t :: j) → Is t .assign →
      (Γ.strict = true → isRestrictedPat p = true → C.tolerant = true) →
      G C Γ (.assign e) j o → G C Γ (.lexDecl k f (.mk p (some e))) i o
  /-- *(quirk)* `const` needs no initializer before `in` and `of`, loop or not. -/
  | lexNone {Γ k f b p i o} : G C Γ (.pattern (some k) b p) i o →
      (Γ.strict = true → isRestrictedPat p = true → C.tolerant = true) →
      (k = .const → head o = .keyword .in ∨ C.textIs t!"of" o true) →
      (k ≠ .const → isPatIdent p = true ∨ f = true) → G C Γ (.lexDecl k f (.mk p none)) i o
  | lexFirst {Γ k f d i o} : G C Γ (.lexDecl k f d) i o → G C Γ (.lexDecls k f [d]) i o
  | lexMore {Γ k f l d t i j o} : G C Γ (.lexDecls k f l) i (t :: j) → Is t .comma →
      G C Γ (.lexDecl k f d) j o → G C Γ (.lexDecls k f (l ++ [d])) i o
  | lexLet {Γ f t l i j o} : Kw t .let → G C Γ (.lexDecls .let f l) i j → G C Γ .semi j o →
      G C Γ (.lexical f (.variable .let l)) (t :: i) o
  | lexConst {Γ f t l i j o} : Kw t .const → G C Γ (.lexDecls .const f l) i j → G C Γ .semi j o →
      G C Γ (.lexical f (.variable .const l)) (t :: i) o
  | loopBody {Γ t s i o} : Is t .closeParen → G C Γ (.stmt s) i o → G C Γ (.loopBody s) (t :: i) o
  | optNone {Γ p o} : head o = .punct p → G C Γ (.optExpr p none) o o
  | optSome {Γ p e i o} : G C Γ (.expression e) i o → G C Γ (.optExpr p (some e)) i o
  | forCont {Γ x t t' a b s i j k o} : Is t .semiColon → G C Γ (.optExpr .semiColon a) i (t' :: j) →
      Is t' .semiColon → G C Γ (.optExpr .closeParen b) j k → G C Γ (.loopBody s) k o →
      G C Γ (.forCont x (.for x a b s)) (t :: i) o
  | forSeqFirst {Γ e i o} : G C (Γ.within false) (.assign e) i o → G C Γ (.forSeq [e]) i o
  /-- *(quirk)* from the second expression on, `in` is an operator again. -/
  | forSeqMore {Γ l t e i j o} : G C Γ (.forSeq l) i (t :: j) → Is t .comma →
      G C Γ (.assign e) j o → G C Γ (.forSeq (l ++ [e])) i o
  | forSemi {Γ a s i o} : G C Γ (.forCont none s) i o → G C Γ (.forHead a s) i o
  | forVarIn {Γ a t t' d r s i j k o} : Kw t .var →
      G C (Γ.within false) (.varDecls true true [d]) i (t' :: j) → Kw t' .in →
      G C Γ (.expression r) j k → G C Γ (.loopBody s) k o →
      G C Γ (.forHead a (.forIn (.variable .var d) r s)) (t :: i) o
  | forVarOf {Γ a t t' d r s i j k o} : Kw t .var →
      G C (Γ.within false) (.varDecls true true [d]) i (t' :: j) → C.text t' = t!"of" →
      G C Γ (.assign r) j k → G C Γ (.loopBody s) k o →
      G C Γ (.forHead a (.forOf (.variable .var d) r s a)) (t :: i) o
  | forVar {Γ a t l s i j o} : Kw t .var → G C (Γ.within false) (.varDecls true true l) i j →
      G C Γ (.forCont (some (.variable .var l)) s) j o → G C Γ (.forHead a s) (t :: i) o
  /-- *(quirk)* `for (let in ..` and `for (const in ..`. -/
  | forKindIn {Γ a kind t t' r s i k o} :
      Kw t .let ∧ kind = .let ∨ Kw t .const ∧ kind = .const → Γ.strict = false → Kw t' .in →
      G C Γ (.expression r) i k → G C Γ (.loopBody s) k o →
      G C Γ (.forHead a (.forIn (.expr (.ident (kindName kind))) r s)) (t :: t' :: i) o
  | forLexIn {Γ a kind t t' d r s i j k o} :
      Kw t .let ∧ kind = .let ∨ Kw t .const ∧ kind = .const →
      G C (Γ.within false) (.lexDecls kind true [d]) i (t' :: j) → noInit d = true → Kw t' .in →
      G C Γ (.expression r) j k → G C Γ (.loopBody s) k o →
      G C Γ (.forHead a (.forIn (.variable kind d) r s)) (t :: i) o
  | forLexOf {Γ a kind t t' d r s i j k o} :
      Kw t .let ∧ kind = .let ∨ Kw t .const ∧ kind = .const →
      G C (Γ.within false) (.lexDecls kind true [d]) i (t' :: j) → noInit d = true →
      C.text t' = t!"of" → G C Γ (.assign r) j k → G C Γ (.loopBody s) k o →
      G C Γ (.forHead a (.forOf (.variable kind d) r s a)) (t :: i) o
  | forLex {Γ a kind t l s i j o} :
      Kw t .let ∧ kind = .let ∨ Kw t .const ∧ kind = .const →
      G C (Γ.within false) (.lexDecls kind true l) i j →
      G C Γ (.forCont (some (.variable kind l)) s) j o → G C Γ (.forHead a s) (t :: i) o
  | forExprIn {Γ a t e r s i j k o} : G C (Γ.within false) (.assign e) i (t :: j) → Kw t .in →
      G C Γ (.expression r) j k → G C Γ (.loopBody s) k o →
      G C Γ (.forHead a (.forIn (.expr e) r s)) i o
  | forExprOf {Γ a t e r s i j k o} : G C (Γ.within false) (.assign e) i (t :: j) →
      C.text t = t!"of" → G C Γ (.assign r) j k → G C Γ (.loopBody s) k o →
      G C Γ (.forHead a (.forOf (.expr e) r s a)) i o
  | forExprSeq {Γ a l s i j o} : G C Γ (.forSeq l) i j → 2 ≤ l.length →
      G C Γ (.forCont (some (.expr (.sequence l))) s) j o → G C Γ (.forHead a s) i o
  | forExpr {Γ a e s i j o} : G C (Γ.within false) (.assign e) i j →
      G C Γ (.forCont (some (.expr e)) s) j o → G C Γ (.forHead a s) i o
  | catchNone {Γ o} : head o ≠ .punct .openParen → G C Γ (.catchParam none) o o
  | catchParam {Γ t t' b p i o} : Is t .openParen → G C Γ (.pattern none b p) i (t' :: o) →
      Is t' .closeParen → G C Γ (.catchParam (some p)) (t :: i) o
  | catchClause {Γ t p l i j o} : Kw t .catch → G C Γ (.catchParam p) i j → G C Γ (.block l) j o →
      G C Γ (.catchClause (.mk p l)) (t :: i) o
  | handlerNone {Γ o} : head o ≠ .keyword .catch → G C Γ (.handler none) o o
  | handler {Γ c i o} : G C Γ (.catchClause c) i o → G C Γ (.handler (some c)) i o
  | finalizerNone {Γ o} : head o ≠ .keyword .finally → G C Γ (.finalizer none) o o
  | finalizer {Γ t l i o} : Kw t .finally → G C Γ (.block l) i o →
      G C Γ (.finalizer (some l)) (t :: i) o
  | caseDefault {Γ t o} : Kw t .default → G C Γ (.caseTest none) (t :: o) o
  | caseTest {Γ t e i o} : Kw t .case → G C Γ (.expression e) i o →
      G C Γ (.caseTest (some e)) (t :: i) o
  | switchCase {Γ e t l i j o} : G C Γ (.caseTest e) i (t :: j) → Is t .colon →
      G C Γ (.items l) j o →
      head o = .punct .closeBrace ∨ head o = .keyword .default ∨ head o = .keyword .case → G C Γ (.switchCase (.mk e l)) i o
  | casesNil {Γ o} : G C Γ (.cases false []) o o
  | casesMore {Γ f l c i j o} : G C Γ (.cases f l) i j → G C Γ (.switchCase c) j o →
      (isDefault c = true → f = false) → G C Γ (.cases (f || isDefault c) (l ++ [c])) i o
  | labelNone {Γ k t i o} : Kw t k → head i ≠ .ident ∨ C.nl i = true → G C Γ .semi i o →
      G C Γ (.optLabel k none) (t :: i) o
  | label {Γ k t t' n j o} : Kw t k → t'.item.token = .ident → t'.nl = false →
      G C Γ (.ident false n) (t' :: j) j → G C Γ .semi j o →
      G C Γ (.optLabel k (some n)) (t :: t' :: j) o
  | labelClass {Γ t l i o} : Kw t .class → C.tolerant = true → G C Γ (.classBody l) i o →
      G C Γ (.labelBody (.expr (.class (.mk none none l)))) (t :: i) o
  | labelFunction {Γ f i o} : G C Γ (.fnDecl true f) i o →
      G C Γ (.labelBody (.expr (.function f))) i o
  | labelStmt {Γ s i o} : G C Γ (.stmt s) i o → G C Γ (.labelBody s) i o
  | exprStmt {Γ e i j o} : G C Γ (.expression e) i j → G C Γ .semi j o → G C Γ (.exprStmt e) i o
  | stExpr {Γ e i o} : head i ≠ .punct .openBrace → head i ≠ .keyword .function →
      G C Γ (.exprStmt e) i o → G C Γ (.stmt (.expr e)) i o
  | stBlock {Γ l i o} : G C Γ (.block l) i o → G C Γ (.stmt (.block l)) i o
  | stEmpty {Γ t o} : Is t .semiColon → G C Γ (.stmt .empty) (t :: o) o
  | stFunction {Γ f i o} : G C Γ (.fnDecl true f) i o → G C Γ (.stmt (.expr (.function f))) i o
  | stLabeled {Γ n t s i j o} : head i = .ident →
      G C Γ (.expression (.ident n)) i (t :: j) → Is t .colon →
      '$' :: n ∉ Γ.labels → G C (Γ.label n) (.labelBody s) j o → G C Γ (.stmt (.labeled n s)) i o
  | stBreak {Γ l i o} : G C Γ (.optLabel .break l) i o → G C Γ (.stmt (.break l)) i o
  | stContinue {Γ l i o} : G C Γ (.optLabel .continue l) i o → G C Γ (.stmt (.continue l)) i o
  | stDebugger {Γ t i o} : Kw t .debugger → G C Γ .semi i o → G C Γ (.stmt .debugger) (t :: i) o
  | stDoWhile {Γ t t' t'' t3 s e i j k o} : Kw t .do → G C Γ (.stmt s) i (t' :: t'' :: j) →
      Kw t' .while → Is t'' .openParen → G C Γ (.expression e) j (t3 :: k) → Is t3 .closeParen →
      (o = k ∧ head k ≠ .punct .semiColon ∨ ∃ t4, Is t4 .semiColon ∧ k = t4 :: o) →
      G C Γ (.stmt (.doWhile e s)) (t :: i) o
  | stFor {Γ t t' s i o} : Kw t .for → Is t' .openParen → G C Γ (.forHead false s) i o →
      G C Γ (.stmt s) (t :: t' :: i) o
  | stForAwait {Γ t t' t'' s i o} : Kw t .for → Kw t' .await → Is t'' .openParen →
      G C Γ (.forHead true s) i o → G C Γ (.stmt s) (t :: t' :: t'' :: i) o
  | stIf {Γ t t' t'' e s i j o} : Kw t .if → Is t' .openParen → G C Γ (.expression e) i (t'' :: j) →
      Is t'' .closeParen → (Γ.strict = true → head j = .keyword .function → C.tolerant = true) →
      G C Γ (.stmt s) j o → head o ≠ .keyword .else →
      G C Γ (.stmt (.if e s none)) (t :: t' :: i) o
  | stIfElse {Γ t t' t'' t3 e a b i j k o} : Kw t .if → Is t' .openParen →
      G C Γ (.expression e) i (t'' :: j) → Is t'' .closeParen →
      (Γ.strict = true → head j = .keyword .function → C.tolerant = true) →
      G C Γ (.stmt a) j (t3 :: k) → Kw t3 .else →
      (Γ.strict = true → head k = .keyword .function → C.tolerant = true) → G C Γ (.stmt b) k o → G C Γ (.stmt (.if e a (some b))) (t :: t' :: i) o
  | stIfOpen {Γ t t' e i o} : Kw t .if → Is t' .openParen → G C Γ (.expression e) i o →
      head o ≠ .punct .closeParen → C.tolerant = true →
      G C Γ (.stmt (.if e .empty none)) (t :: t' :: i) o
  | stReturn {Γ t i o} : Kw t .return → Γ.inFn = true → G C Γ .semi i o →
      G C Γ (.stmt (.return none)) (t :: i) o
  /-- *(quirk)* the argument may be on another line if it is a string or a template. -/
  | stReturnArg {Γ t e i j o} : Kw t .return → Γ.inFn = true →
      (C.nl i = true → head i = .string ∨ (head i).isTemplate = true) →
      G C Γ (.expression e) i j → G C Γ .semi j o →
      G C Γ (.stmt (.return (some e))) (t :: i) o
  | stSwitch {Γ t t' t'' t3 t4 e f l i j o} : Kw t .switch → Is t' .openParen →
      G C Γ (.expression e) i (t'' :: t3 :: j) → Is t'' .closeParen → Is t3 .openBrace →
      G C Γ (.cases f l) j (t4 :: o) → Is t4 .closeBrace →
      G C Γ (.stmt (.switch e l)) (t :: t' :: i) o
  | stThrow {Γ t e i j o} : Kw t .throw → G C Γ (.expression e) i j → G C Γ .semi j o →
      G C Γ (.stmt (.throw e)) (t :: i) o
  | stTry {Γ t l h f i j k o} : Kw t .try → G C Γ (.block l) i j → G C Γ (.handler h) j k →
      G C Γ (.finalizer f) k o → G C Γ (.stmt (.try l h f)) (t :: i) o
  | stVar {Γ t l i j o} : Kw t .var → G C Γ (.varDecls false false l) i j → G C Γ .semi j o →
      G C Γ (.stmt (.var l)) (t :: i) o
  | stWhile {Γ t t' t'' e s i j o} : Kw t .while → Is t' .openParen →
      G C Γ (.expression e) i (t'' :: j) → Is t'' .closeParen → G C Γ (.stmt s) j o →
      G C Γ (.stmt (.while e s)) (t :: t' :: i) o
  | stWhileOpen {Γ t t' e i o} : Kw t .while → Is t' .openParen → G C Γ (.expression e) i o →
      head o ≠ .punct .closeParen → C.tolerant = true →
      G C Γ (.stmt (.while e .empty)) (t :: t' :: i) o
  | stWith {Γ t t' t'' e s i j o} : Kw t .with → (Γ.strict = true → C.tolerant = true) →
      Is t' .openParen → G C Γ (.expression e) i (t'' :: j) → Is t'' .closeParen →
      G C Γ (.stmt s) j o → G C Γ (.stmt (.with e s)) (t :: t' :: i) o
  | stWithOpen {Γ t t' e i o} : Kw t .with → Is t' .openParen → G C Γ (.expression e) i o →
      head o ≠ .punct .closeParen → C.tolerant = true →
      G C Γ (.stmt (.with e .empty)) (t :: t' :: i) o

  -- Modules and statement list items

  | source {Γ t o} : t.item.token = .string → G C Γ (.source (C.text t)) (t :: o) o
  | importIdent {Γ n i o} : G C Γ (.ident false n) i o → G C Γ (.importName n) i o
  | importName {Γ n i o} : G C Γ (.name n) i o → G C Γ (.importName n) i o
  | importSpec {Γ n i o} : G C Γ (.importName n) i o →
      G C Γ (.importSpec (.normal n none)) i o
  | importAs {Γ n n' t i j o} : G C Γ (.importName n) i (t :: j) →
      C.text t = t!"as" → G C Γ (.ident false n') j o →
      G C Γ (.importSpec (.normal n (some n'))) i o
  | importSeqNil {Γ o} : G C Γ (.importSeq []) o o
  | importSeqComma {Γ l p t i j o} : G C Γ (.importSeq l) i j → G C Γ (.importSpec p) j (t :: o) →
      Is t .comma → G C Γ (.importSeq (l ++ [p])) i o
  | importSeqLast {Γ l p i j o} : G C Γ (.importSeq l) i j → G C Γ (.importSpec p) j o →
      head o = .punct .closeBrace → G C Γ (.importSeq (l ++ [p])) i o
  | namedImports {Γ t t' l i o} : Is t .openBrace → G C Γ (.importSeq l) i (t' :: o) →
      Is t' .closeBrace → G C Γ (.namedImports l) (t :: i) o
  | nsImport {Γ t t' n i o} : Is t .asterisk → C.text t' = t!"as" → G C Γ (.name n) i o →
      G C Γ (.nsImport (.namespace n)) (t :: t' :: i) o
  | importsNamed {Γ l i o} : G C Γ (.namedImports l) i o → G C Γ (.imports l) i o
  | importsNs {Γ s i o} : G C Γ (.nsImport s) i o → G C Γ (.imports [s]) i o
  | importsDefault {Γ n i o} : atWord i = true → head i ≠ .keyword .default → G C Γ (.name n) i o →
      G C Γ (.imports [.default n]) i o
  | importsDefaultNs {Γ n s t i j o} : atWord i = true → head i ≠ .keyword .default →
      G C Γ (.name n) i (t :: j) → Is t .comma →
      G C Γ (.nsImport s) j o → G C Γ (.imports [.default n, s]) i o
  | importsDefaultNamed {Γ n l t i j o} : atWord i = true → head i ≠ .keyword .default →
      G C Γ (.name n) i (t :: j) → Is t .comma →
      G C Γ (.namedImports l) j o → G C Γ (.imports (.default n :: l)) i o
  | importBare {Γ t s i j o} : Kw t .import → G C Γ (.source s) i j → G C Γ .semi j o →
      G C Γ (.importDecl ⟨[], s⟩) (t :: i) o
  | importFrom {Γ t t' l s i j k o} : Kw t .import → G C Γ (.imports l) i (t' :: j) →
      C.text t' = t!"from" → G C Γ (.source s) j k → G C Γ .semi k o →
      G C Γ (.importDecl ⟨l, s⟩) (t :: i) o
  | exportSpec {Γ n i o} : G C Γ (.name n) i o → G C Γ (.exportSpec ⟨n, none⟩) i o
  | exportAs {Γ n n' t i j o} : G C Γ (.name n) i (t :: j) → C.text t = t!"as" →
      G C Γ (.name n') j o → G C Γ (.exportSpec ⟨n, some n'⟩) i o
  | exportSeqNil {Γ o} : G C Γ (.exportSeq false []) o o
  | exportSeqComma {Γ d l p t i j o} : G C Γ (.exportSeq d l) i j → G C Γ (.exportSpec p) j (t :: o) →
      Is t .comma →
      G C Γ (.exportSeq (d || (head j).matchesKeyword .default) (l ++ [p])) i o
  | exportSeqLast {Γ d l p i j o} : G C Γ (.exportSeq d l) i j → G C Γ (.exportSpec p) j o →
      head o = .punct .closeBrace →
      G C Γ (.exportSeq (d || (head j).matchesKeyword .default) (l ++ [p])) i o
  | exportDefaultFn {Γ t t' f i o} : Kw t .export → Kw t' .default → G C Γ (.fnDecl true f) i o →
      G C Γ (.exportDecl (.defaultDecl (.function f))) (t :: t' :: i) o
  | exportDefaultClass {Γ t t' c i o} : Kw t .export → Kw t' .default → G C Γ (.cls true c) i o →
      G C Γ (.exportDecl (.defaultDecl (.class c))) (t :: t' :: i) o
  /-- *(quirk)* no semicolon is read after the expression. -/
  | exportDefaultExpr {Γ t t' e i o} : Kw t .export → Kw t' .default →
      G C Γ (.assign e) i o → G C Γ (.exportDecl (.defaultExpr e)) (t :: t' :: i) o
  /-- *(quirk)* the object or array is not continued: no member access, call or operator. -/
  | exportDefaultObject {Γ t t' e i o} : Kw t .export → Kw t' .default →
      G C Γ (.object e) i o → G C Γ (.exportDecl (.defaultExpr e)) (t :: t' :: i) o
  | exportDefaultArray {Γ t t' e i o} : Kw t .export → Kw t' .default →
      G C Γ (.array e) i o → G C Γ (.exportDecl (.defaultExpr e)) (t :: t' :: i) o
  /-- *(quirk)* any item may stand for `from`. -/
  | exportAll {Γ t t' t'' s i j o} : Kw t .export → Is t' .asterisk → G C Γ (.source s) i j →
      G C Γ .semi j o → G C Γ (.exportDecl (.all s)) (t :: t' :: t'' :: i) o
  /-- *(quirk)* two semicolons. -/
  | exportLexical {Γ t d i j o} : Kw t .export → G C Γ (.lexical false d) i j → G C Γ .semi j o →
      G C Γ (.exportDecl (.namedDecl d)) (t :: i) o
  | exportVar {Γ t t' l i j o} : Kw t .export → Kw t' .var → G C Γ (.varDecls true false l) i j →
      G C Γ .semi j o → G C Γ (.exportDecl (.namedDecl (.variable .var l))) (t :: t' :: i) o
  | exportClass {Γ t c i o} : Kw t .export → G C Γ (.cls true c) i o →
      G C Γ (.exportDecl (.namedDecl (.class c))) (t :: i) o
  | exportFn {Γ t b f i o} : Kw t .export → G C Γ (.fnDecl b f) i o →
      G C Γ (.exportDecl (.namedDecl (.function f))) (t :: i) o
  | exportNamed {Γ t t' t'' l i j o} : Kw t .export → Is t' .openBrace →
      G C Γ (.exportSeq false l) i (t'' :: j) → Is t'' .closeBrace → G C Γ .semi j o →
      G C Γ (.exportDecl (.namedSpecifier l none)) (t :: t' :: i) o
  | exportFrom {Γ t t' t'' t3 d l s i j k o} : Kw t .export → Is t' .openBrace →
      G C Γ (.exportSeq d l) i (t'' :: t3 :: j) → Is t'' .closeBrace → C.text t3 = t!"from" → G C Γ (.source s) j k →
      G C Γ .semi k o → G C Γ (.exportDecl (.namedSpecifier l (some s))) (t :: t' :: i) o
  | itemStmt {Γ s i o} : head i ≠ .keyword .class → head i ≠ .keyword .function →
      G C Γ (.stmt s) i o → G C Γ (.listItem (.stmt s)) i o
  | itemImport {Γ d i o} : G C Γ (.importDecl d) i o → G C Γ (.listItem (.decl (.import d))) i o
  | itemExport {Γ d i o} : G C Γ (.exportDecl d) i o → G C Γ (.listItem (.decl (.export d))) i o
  | itemLexical {Γ d i o} : G C Γ (.lexical false d) i o → G C Γ (.listItem (.decl d)) i o
  | itemFunction {Γ f i o} : G C Γ (.fnDecl true f) i o →
      G C Γ (.listItem (.decl (.function f))) i o
  | itemClass {Γ c i o} : G C Γ (.cls false c) i o → G C Γ (.listItem (.decl (.class c))) i o

/-- The environment at the top of a program. -/
def Env.top : Env :=
  { strict := false, await := false, inFn := false, allowIn := true, labels := [] }

/-- The parts of a program.  The flag says whether the directive prologue is over; until then a
part that begins with a string is read as a directive, and it ends the prologue if it turns out
not to be one. -/
inductive Parts (C : Cfg) (Γ : Env) : Bool → List ProgramPart → List Tok → List Tok → Prop
  | nil {b o} : Parts C Γ b [] o o
  | dir {p ps i j o} : head i = .string → G C Γ (.directive p) i j →
      Parts C Γ (!isDir p) ps j o → Parts C Γ false (p :: ps) i o
  | item {b p ps i j o} : head i ≠ .eof → b = true ∨ head i ≠ .string →
      G C Γ (.listItem p) i j → Parts C Γ true ps j o → Parts C Γ b (p :: ps) i o

end Ressa.Gr
