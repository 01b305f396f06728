import Verif.Spec.Core

/-!
# Printing trees

A printer from syntax trees to token sequences.  Expressions get the parentheses that the binding
strengths require, statements get their semicolons.  The result is `none` for trees that have no
spelling in this style: nodes the parser never builds, and trees that are errors in the given
environment (`return` outside functions, `yield` outside generators, a label used twice, ...).

`Sp C r i o`: the items `i` begin with the printed pieces `r`, and `o` is what remains.

Nothing here refers to the parser.
-/

namespace Ressa

/-- How a punctuator is written. -/
def Punct.text : Punct → Txt
  | .and => t!"&" | .assign => t!"=" | .asterisk => t!"*" | .bitwiseNot => t!"~"
  | .caret => t!"^" | .closeBrace => t!"}" | .closeBracket => t!"]" | .closeParen => t!")"
  | .colon => t!":" | .comma => t!"," | .forwardSlash => t!"/" | .greaterThan => t!">"
  | .lessThan => t!"<" | .minus => t!"-" | .modulo => t!"%" | .not => t!"!"
  | .openBrace => t!"{" | .openBracket => t!"[" | .openParen => t!"(" | .period => t!"."
  | .pipe => t!"|" | .plus => t!"+" | .questionMark => t!"?" | .semiColon => t!";"
  | .spread => t!"..." | .unsignedRightShiftAssign => t!">>>=" | .strictEquals => t!"==="
  | .strictNotEquals => t!"!==" | .unsignedRightShift => t!">>>" | .leftShiftAssign => t!"<<="
  | .rightShiftAssign => t!">>=" | .exponentAssign => t!"**=" | .logicalAnd => t!"&&"
  | .logicalOr => t!"||" | .equal => t!"==" | .notEqual => t!"!=" | .addAssign => t!"+="
  | .subtractAssign => t!"-=" | .multiplyAssign => t!"*=" | .divideAssign => t!"/="
  | .moduloAssign => t!"%=" | .increment => t!"++" | .decrement => t!"--"
  | .leftShift => t!"<<" | .rightShift => t!">>" | .bitwiseAndAssign => t!"&="
  | .bitwiseOrAssign => t!"|=" | .bitwiseXOrAssign => t!"^=" | .fatArrow => t!"=>"
  | .greaterThanEqual => t!">=" | .lessThanEqual => t!"<=" | .exponent => t!"**"
  | .atMark => t!"@" | .hash => t!"#"

/-- All keywords. -/
def Keyword.all : List Keyword :=
  [.await, .break, .case, .catch, .class, .const, .continue, .debugger, .default, .import,
    .delete, .do, .else, .enum, .export, .extends, .finally, .for, .function, .if, .in,
    .implements, .instanceOf, .interface, .let, .new, .package, .private, .protected, .public,
    .return, .static, .super, .switch, .this, .throw, .try, .typeOf, .var, .void, .while, .with,
    .yield]

end Ressa

namespace Ressa.Print
open Ressa.Gr

/-! ## Pieces -/

/-- A token to print; a glued one has to stay on the line of the token before it, and a tight one
is separated from the next one by blanks only. -/
structure Pc where
  token : Token
  text : Txt
  glued : Bool := false
  tight : Bool := false
  deriving DecidableEq

/-- The text of a token that has only one. -/
def tokenText : Token → Txt
  | .punct p => p.text
  | .keyword k => k.text
  | .boolean b => if b then t!"true" else t!"false"
  | .null => t!"null"
  | _ => []

/-- A token that has only one text. -/
def tk (t : Token) : Pc := ⟨t, tokenText t, false, false⟩
/-- A punctuator. -/
def p (x : Punct) : Pc := tk (.punct x)
/-- A keyword. -/
def k (x : Keyword) : Pc := tk (.keyword x)

/-- The kind of token that a word is. -/
def wordToken (w : Txt) : Token :=
  if w = t!"true" then .boolean true
  else if w = t!"false" then .boolean false
  else if w = t!"null" then .null
  else match Keyword.all.find? fun k => k.text == w with
    | some k => .keyword k
    | none => .ident

/-- A word. -/
def word (w : Txt) : Pc := ⟨wordToken w, w, false, false⟩

/-- The word `async`. -/
def async : Pc := ⟨.ident, t!"async", false, true⟩

/-- Keep the first piece on the line of what comes before. -/
def glue : List Pc → List Pc
  | [] => []
  | x :: l => { x with glued := true } :: l

/-- Add parentheses. -/
def paren (l : List Pc) : List Pc := p .openParen :: (l ++ [p .closeParen])

/-- What is printed, if anything. -/
abbrev Out := Option (List Pc)

/-- Given pieces. -/
def lit (l : List Pc) : Out := some l

/-- One after the other. -/
def cat : Out → Out → Out
  | some a, some b => some (a ++ b)
  | _, _ => none

@[inherit_doc] infixr:65 " +++ " => cat

/-- Only under a condition. -/
def only (c : Bool) (r : Out) : Out := if c then r else none

/-- A comma unless this is the end of the list. -/
def sep {α : Type} (l : List α) : Out := if l.isEmpty then lit [] else lit [p .comma]

/-- Does it start with one of these? -/
def startsWith (bad : Token → Txt → Bool) : List Pc → Bool
  | [] => false
  | x :: _ => bad x.token x.text

/-- In parentheses if it starts with one of these. -/
def shield (bad : Token → Txt → Bool) (r : Out) : Out :=
  r.map fun l => if l.isEmpty || startsWith bad l then paren l else l

/-- These make a statement that starts with them something else than an expression. -/
def badStmt : Token → Txt → Bool
  | .punct .openBrace, _ | .keyword .function, _ | .keyword .class, _ | .keyword .let, _
  | .string, _ => true
  | _, w => w == t!"async"

/-- An arrow function body that starts with this is a block. -/
def badArrow : Token → Txt → Bool
  | .punct .openBrace, _ => true
  | _, _ => false

/-- An operand of `yield` that starts with this is not seen. -/
def badYield (t : Token) (_ : Txt) : Bool := !yieldStart t

/-- These make `export default` read something else than an expression. -/
def badExport : Token → Txt → Bool
  | .punct .openBrace, _ | .punct .openBracket, _ | .keyword .function, _ | .keyword .class, _ =>
    true
  | _, _ => false

/-! ## Levels -/

/-- Binding strength: 0 comma, 1 assignment, 2 arrow function, 3 conditional, 4 to 15 binary
operators from `||` to `**`, 16 prefix operators, 17 `++` and `--`, 18 calls, 19 member access and
`new`, 20 the rest.  *(quirk)* A call of an `async` function expression would lose the function, so
these are weaker than calls. -/
def level : Expr → Nat
  | .sequence _ => 0
  | .assignment _ _ _ => 1
  | .yield _ _ => 1
  | .arrowBlock _ _ _ _ _ => 2
  | .arrowExpr _ _ _ _ _ => 2
  | .conditional _ _ _ => 3
  | .binary o _ _ => (Op.bin o).level + 3
  | .logical o _ _ => (Op.log o).level + 3
  | .unary _ _ _ => 16
  | .await _ => 16
  | .update _ _ _ => 17
  | .function (.mk _ _ _ _ a) => if a then 17 else 20
  | .call _ _ => 18
  | .member o _ _ => if level o = 18 then 18 else 19
  | .taggedTemplate t _ _ => if level t = 18 then 18 else 19
  | .new _ _ => 19
  | .metaProperty _ _ => 19
  | _ => 20

/-- `super` and spread elements are only printed where the syntax has a place for them. -/
def isSpecial : Expr → Bool
  | .super => true
  | .spread _ => true
  | _ => false

/-- `super`. -/
def isSuper : Expr → Bool
  | .super => true
  | _ => false

/-- A spread element. -/
def isSpread : Expr → Bool
  | .spread _ => true
  | _ => false

/-- A comma expression. -/
def isSequence : Expr → Bool
  | .sequence _ => true
  | _ => false

/-- An operand of at least the given strength. -/
def sub (n : Nat) (e : Expr) (r : Out) : Out :=
  only (!isSpecial e) (r.map fun l => if n ≤ level e then l else paren l)

/-- What a member access or a call is applied to. -/
def obj (e : Expr) (r : Out) : Out := if isSuper e then r else sub 18 e r

/-- An argument or an array element. -/
def arg (e : Expr) (r : Out) : Out := if isSpread e then r else sub 1 e r

mutual

/-- May the expression be assigned to; may it stand for parameters of an arrow function. -/
def flags : Expr → Flags
  | .ident _ => (true, true)
  | .template _ _ => (true, true)
  | .metaProperty _ _ => (true, true)
  | .member _ _ _ => (true, false)
  | .taggedTemplate t _ _ => flags t
  | .assignment .equal l _ => flags l
  | .sequence l => seqFlags l
  | .array l => elemFlags l
  | .object l => propFlags (true, true) l
  | .spread e => flags e
  | .await e => flags e
  | .yield none _ => (true, true)
  | .yield (some e) _ => flags e
  | _ => (false, false)

/-- All together. -/
def seqFlags : List Expr → Flags
  | [] => (true, true)
  | e :: l => (flags e).and (seqFlags l)

/-- The elements of an array. -/
def elemFlags : List (Option Expr) → Flags
  | [] => (true, true)
  | none :: l => elemFlags l
  | some e :: l =>
    if isSpread e && !l.isEmpty then (false, false) else (flags e).and (elemFlags l)

/-- The properties of an object, after properties with the given flags. -/
def propFlags (f : Flags) : List ObjectProperty → Flags
  | [] => f
  | .spread e :: l => propFlags ((flags e).and f) l
  | .property (.mk _ v kind method _ short) :: l =>
    propFlags (if short then f else if kind == .init && !method then valueFlags f v
      else (false, false)) l

/-- The value of a property. -/
def valueFlags (f : Flags) : PropertyValue → Flags
  | .expr e => (flags e).and f
  | _ => f

end

/-! ## Tests -/

/-- Neither a rest element nor a default. -/
def isPlain : Pat → Bool
  | .restElement _ => false
  | .assignment _ _ => false
  | _ => true

/-- A rest element. -/
def isRest : Pat → Bool
  | .restElement _ => true
  | _ => false

/-- Does the pattern bind `eval` or `arguments` directly? -/
def restricted : Pat → Bool
  | .identifier n => isRestrictedWord n
  | .assignment q _ => restricted q
  | .restElement q => restricted q
  | _ => false

/-- Does the parameter bind `eval` or `arguments` directly? -/
def restrictedArg : FunctionArg → Bool
  | .pat q => restricted q
  | .expr _ => false

/-- May the expression stand for the parameter? -/
def arrowArg : FunctionArg → Bool
  | .expr e => (flags e).2 && plainArg (.expr e)
  | .pat _ => false

/-- Parameters of an arrow function that end in a rest parameter. -/
def restSeq : List FunctionArg → Bool
  | [.pat q] => isRest q
  | .expr e :: l => arrowArg (.expr e) && restSeq l
  | _ => false

/-- May these be the parameters of an arrow function? -/
def arrowOk : List FunctionArg → Bool
  | [] => true
  | [.pat q] => isRest q
  | [.expr e] => arrowArg (.expr e) && !isSequence e
  | l => l.all arrowArg || restSeq l

/-- Can the name stand right behind `async`? -/
def visibleName : Txt → Bool
  | [] => false
  | c :: _ => c != '\n'

/-- Is it an `async` function? -/
def isAsyncValue : PropertyValue → Bool
  | .expr (.function (.mk _ _ _ _ a)) => a
  | _ => false

/-- The key of an `async` method of a class may not be one of these. -/
def asyncKey (x : PropertyKey) : Bool :=
  !(isKey x t!"static" || isKey x t!"get" || isKey x t!"set")

/-- The parameters of a method. -/
def paramsOf : PropertyValue → List FunctionArg
  | .expr (.function (.mk _ ps _ _ _)) => ps
  | _ => []

/-- One parameter, not a rest parameter. -/
def setterArity : List FunctionArg → Bool
  | [.pat q] => !isRest q
  | _ => false

/-- A literal that is its own property key. -/
def keyLiteral : Expr → Bool
  | .literal (.string _) => true
  | .literal (.number _) => true
  | .literal (.boolean _) => true
  | _ => false

/-- Is an assignment to this tree an error in strict code? -/
def strictTarget : Expr → Bool
  | .ident n => isRestrictedWord n || isStrictReservedWord n
  | _ => false

/-- Does the statement end in an `if` without `else`? -/
def openIf : Stmt → Bool
  | .if _ _ none => true
  | .if _ _ (some b) => openIf b
  | .with _ s => openIf s
  | .labeled _ s => openIf s
  | .while _ s => openIf s
  | .for _ _ _ s => openIf s
  | .forIn _ _ s => openIf s
  | .forOf _ _ s _ => openIf s
  | _ => false

/-- The punctuator of an assignment. -/
def assignPunct : AssignmentOperator → Punct
  | .equal => .assign
  | .plusEqual => .addAssign
  | .minusEqual => .subtractAssign
  | .timesEqual => .multiplyAssign
  | .divEqual => .divideAssign
  | .modEqual => .moduloAssign
  | .leftShiftEqual => .leftShiftAssign
  | .rightShiftEqual => .rightShiftAssign
  | .unsignedRightShiftEqual => .unsignedRightShiftAssign
  | .orEqual => .bitwiseOrAssign
  | .xOrEqual => .bitwiseXOrAssign
  | .andEqual => .bitwiseAndAssign
  | .powerOfEqual => .exponentAssign

/-- The token of a prefix operator. -/
def unaryToken : UnaryOperator → Token
  | .minus => .punct .minus
  | .plus => .punct .plus
  | .not => .punct .not
  | .tilde => .punct .bitwiseNot
  | .typeOf => .keyword .typeOf
  | .void => .keyword .void
  | .delete => .keyword .delete

/-- The punctuator of `++` and `--`. -/
def updatePunct : UpdateOperator → Punct
  | .increment => .increment
  | .decrement => .decrement

/-- The keyword of a declaration. -/
def kindKeyword : VariableKind → Keyword
  | .var => .var
  | .let => .let
  | .const => .const

/-! ## Leaves -/

/-- A name that is not also something else. -/
def name (n : Txt) : Out :=
  only (decide (wordToken n = .ident ∧ n ≠ t!"async" ∧ n ≠ t!"await")) (lit [word n])

/-- An optional name. -/
def optName : Option Txt → Out
  | none => lit []
  | some n => name n

/-- A string, quotes included. -/
def str (s : Txt) : Out := only (decide (s ≠ t!"async")) (lit [⟨.string, s, false, false⟩])

/-- A number. -/
def num (s : Txt) : Out := only (decide (s ≠ t!"async")) (lit [⟨.numeric, s, false, false⟩])

/-- A literal. -/
def literal : Literal → Out
  | .null => none
  | .string s => str s
  | .number s => num s
  | .boolean b => lit [tk (.boolean b)]
  | .regex r => only (!r.flags.contains '/')
      (lit [⟨.regex, '/' :: (r.pattern ++ '/' :: r.flags), false, false⟩])

/-- A property key that is a name. -/
def keyName (n : Txt) : Out := only (decide (n ≠ t!"async" ∧ n ≠ t!"await")) (lit [word n])

/-- The name of a short-hand property. -/
def shortKey : PropertyKey → Out
  | .expr (.ident n) => name n
  | _ => none

/-- The star of a generator. -/
def star (g : Bool) : Out := if g then lit [p .asterisk] else lit []

/-- The start of a function. -/
def fnStart (a : Bool) : Out := if a then lit [async, k .function] else lit [k .function]

/-- What comes before the key of a method. -/
def asyncStar (v : PropertyValue) : Out :=
  if isAsyncValue v then only (!isGeneratorValue v) (lit [⟨.ident, t!"async", false, false⟩])
  else star (isGeneratorValue v)

/-- Neither a generator nor `async`. -/
def isPlainValue (v : PropertyValue) : Bool := !isGeneratorValue v && !isAsyncValue v

/-- The environment of the parameters of a method.  *(quirk)* `yield` is an operator in the
parameters of plain methods and of `async` methods, and not in those of generators. -/
def paramEnv (Γ : Env) (kind : PropertyKind) (g a : Bool) : Env :=
  if kind == .get then Γ else if kind == .set then Γ.yielding false
  else if a then Γ.fn true true else Γ.yielding !g

/-- The environment of the body of a method.  *(quirk)* `yield` is an operator in all methods. -/
def bodyEnv (Γ : Env) (kind : PropertyKind) (a : Bool) : Env :=
  if kind == .init then if a then Γ.fn true true else Γ.yielding true else Γ

/-- A piece of a template. -/
def quasi (kind : TemplateKind) (q : TemplateElement) : Out :=
  let (a, b, tail) := match kind with
    | .head => ('`', t!"${", false)
    | .body => ('}', t!"${", false)
    | .tail => ('}', t!"`", true)
    | .noSub => ('`', t!"`", true)
  only (decide (q.raw = a :: (q.cooked ++ b) ∧ q.tail = tail)) 
    (lit [⟨.template kind, q.raw, false, false⟩])

/-- The name of a label after `break` or `continue`. -/
def jumpLabel : Option Txt → Out
  | none => lit []
  | some n => (name n).map glue

/-! ## Expressions, functions, classes, statements -/

/-- Is it still part of the directive prologue? -/
def isDirPart : ProgramPart → Bool
  | .dir _ _ => true
  | _ => false

/-- `export default` with an expression has no semicolon of its own. -/
def isOpenExport : ProgramPart → Bool
  | .decl (.export (.defaultExpr _)) => true
  | _ => false

/-- Does an assignment expression end in front of this? -/
def ends : Token → Bool
  | .punct p => !(p == .period || p == .openParen || p == .openBracket || p == .increment ||
      p == .decrement || p == .exponent || p == .questionMark || p == .fatArrow ||
      decide (determinePrecedence p ≠ 0) || (assignmentOperator p).isSome)
  | .keyword k => k != .instanceOf && k != .in
  | .template _ => false
  | _ => true

/-- A program part and what follows it. -/
def followed (x : ProgramPart) (a b : Out) : Out :=
  only (!isOpenExport x || !(b.map (startsWith fun t _ => !ends t)).getD false) (a +++ b)

/-- May the declaration stand by itself?  *(quirk)* `async` functions are read as statements. -/
def declItem : Decl → Bool
  | .variable k _ => k != .var
  | .class (.mk id _ _) => id.isSome
  | .function (.mk _ _ _ _ a) => !a
  | _ => true

/-- `let` and `const`. -/
def isLexical : Decl → Bool
  | .variable k _ => k != .var
  | _ => false

/-- May the declaration follow `export`? -/
def exportable : Decl → Bool
  | .import _ => false
  | .export _ => false
  | .function (.mk id _ _ _ a) => !a || id.isSome
  | _ => true

/-- May the declaration follow `export default`? -/
def defaultable : Decl → Bool
  | .function _ => true
  | .class _ => true
  | _ => false

/-- No two defaults. -/
def oneDefault (l : List SwitchCase) : Bool := (l.filter isDefault).length ≤ 1

/-- May the declaration stand without initialiser? -/
def bare (kind : VariableKind) (inFor inOf : Bool) (q : Pat) : Bool :=
  if kind == .const then inOf else isPatIdent q || inFor

/-! ### Modules -/

/-- A name to import. -/
def importSpec : ImportSpecifier → Out
  | .normal n none => name n
  | .normal n (some m) => keyName n +++ lit [word t!"as"] +++ name m
  | _ => none

/-- Names to import. -/
def importSeq : List ImportSpecifier → Out
  | [] => lit []
  | s :: l => importSpec s +++ sep l +++ importSeq l

/-- Names to import, in braces. -/
def namedImports (l : List ImportSpecifier) : Out :=
  lit [p .openBrace] +++ importSeq l +++ lit [p .closeBrace]

/-- `* as n`. -/
def nsImport (n : Txt) : Out := lit [p .asterisk, word t!"as", word n]

/-- What comes between `import` and `from`. -/
def imports : List ImportSpecifier → Out
  | [.namespace n] => nsImport n
  | [.default n] => name n
  | [.default n, .namespace m] => name n +++ lit [p .comma] +++ nsImport m
  | .default n :: l => name n +++ lit [p .comma] +++ namedImports l
  | l => namedImports l

/-- An import declaration. -/
def importDecl : ModImport → Out
  | ⟨[], s⟩ => lit [k .import] +++ str s +++ lit [p .semiColon]
  | ⟨l, s⟩ => lit [k .import] +++ imports l +++ lit [word t!"from"] +++ str s +++
      lit [p .semiColon]

/-- A name to export. -/
def exportSpec : ExportSpecifier → Out
  | ⟨n, none⟩ => lit [word n]
  | ⟨n, some m⟩ => lit [word n, word t!"as", word m]

/-- Names to export. -/
def exportSeq : List ExportSpecifier → Out
  | [] => lit []
  | s :: l => exportSpec s +++ sep l +++ exportSeq l

/-- Is the name `default` exported? -/
def exportsDefault (l : List ExportSpecifier) : Bool := l.any fun s => s.local_ == t!"default"

/-- `from` and the module. -/
def fromModule : Option Txt → Out
  | none => lit []
  | some s => lit [word t!"from"] +++ str s

/-- In parentheses. -/
def inParens (r : Out) : Out := lit [p .openParen] +++ r +++ lit [p .closeParen]

/-- In braces. -/
def inBraces (r : Out) : Out := lit [p .openBrace] +++ r +++ lit [p .closeBrace]

/-- What comes before the `=>` of an arrow function; `r` and `r'` print the parameters of a plain and
of an `async` one. -/
def arrowHead (r r' : Out) : Bool → List FunctionArg → Out
  | false, ps => only (arrowOk ps) (inParens r)
  | true, [.pat (.identifier n)] => lit [async] +++ only (visibleName n) (name n)
  | true, _ => lit [async] +++ inParens r'

mutual

/-- An expression, without parentheses around it. -/
def expr (Γ : Env) : Expr → Out
  | .array l => lit [p .openBracket] +++ elems Γ l +++ lit [p .closeBracket]
  | .arrowBlock ps b x g a => only (!x && !g)
      (arrowHead (arrowSeq Γ ps) (arrowArgs Γ ps) a ps +++ lit [p .fatArrow] +++
        inBraces (parts Γ.body true b))
  | .arrowExpr ps e x g a => only (x && !g)
      (arrowHead (arrowSeq Γ ps) (arrowArgs Γ ps) a ps +++ lit [p .fatArrow] +++
        shield badArrow (sub 1 e (expr Γ e)))
  | .arrowParamPlaceHolder _ _ => none
  | .assignment o l r => only ((flags l).1 && !(Γ.strict && strictTarget l))
      (sub 18 l (expr Γ l) +++ lit [p (assignPunct o)] +++ sub 1 r (expr Γ r))
  | .await e => only Γ.await (lit [k .await] +++ sub 16 e (expr Γ e))
  | .binary o l r =>
      sub (if o = .powerOf then 16 else (Op.bin o).level + 3) l (expr Γ l) +++
        lit [tk (Op.bin o).token] +++
        sub (if o = .powerOf then 15 else (Op.bin o).level + 4) r (expr Γ r)
  | .logical o l r => sub ((Op.log o).level + 3) l (expr Γ l) +++ lit [tk (Op.log o).token] +++
      sub ((Op.log o).level + 4) r (expr Γ r)
  | .call c l => obj c (expr Γ c) +++ lit [p .openParen] +++ args Γ l +++ lit [p .closeParen]
  | .class c => cls Γ true c
  | .conditional t b a => sub 4 t (expr Γ t) +++ lit [p .questionMark] +++ sub 1 a (expr Γ a) +++
      lit [p .colon] +++ sub 1 b (expr Γ b)
  | .function f => func Γ true f
  | .ident n => name n
  | .literal l => literal l
  | .template es qs => template Γ es qs
  | .member o x true => obj o (expr Γ o) +++ lit [p .openBracket] +++ sub 0 x (expr Γ x) +++
      lit [p .closeBracket]
  | .member o (.ident n) false => obj o (expr Γ o) +++ lit [p .period, word n]
  | .member _ _ false => none
  | .metaProperty m n => only (decide (m = t!"new" ∧ n = t!"target") && Γ.inFn)
      (lit [k .new, p .period, word t!"target"])
  | .new c l => lit [k .new] +++ sub 19 c (expr Γ c) +++ lit [p .openParen] +++ args Γ l +++
      lit [p .closeParen]
  | .object l => only (decide ((l.filter isProtoInit).length ≤ 1))
      (lit [p .openBrace] +++ props Γ l +++ lit [p .closeBrace])
  | .sequence [] => none
  | .sequence (e :: l) => only (!l.isEmpty) (sub 1 e (expr Γ e) +++ seqTail Γ l)
  | .spread e => lit [p .spread] +++ sub 1 e (expr Γ e)
  | .super => only Γ.inFn (lit [k .super])
  | .taggedTemplate t es qs => sub 18 t (expr Γ t) +++ template Γ es qs
  | .this => lit [k .this]
  | .unary o e pre => only (pre && !(o == .delete && Γ.strict && isIdentExpr e))
      (lit [tk (unaryToken o)] +++ sub 16 e (expr Γ e))
  | .update o e true => only ((flags e).1 && !(Γ.strict && isRestrictedIdent e))
      (lit [p (updatePunct o)] +++ sub 16 e (expr Γ e))
  | .update o e false => only ((flags e).1 && !(Γ.strict && isRestrictedIdent e))
      (sub 18 e (expr Γ e) +++ lit (glue [p (updatePunct o)]))
  | .yield none d => only (Γ.gen && !d) (lit [k .yield])
  | .yield (some e) false => only Γ.gen
      (lit [k .yield] +++ (shield badYield (sub 1 e (expr Γ e))).map glue)
  | .yield (some e) true => only Γ.gen (lit (k .yield :: glue [p .asterisk]) +++ sub 1 e (expr Γ e))

/-- Array elements. -/
def elems (Γ : Env) : List (Option Expr) → Out
  | [] => lit []
  | none :: l => lit [p .comma] +++ elems Γ l
  | some e :: l => arg e (expr Γ e) +++ sep l +++ elems Γ l

/-- Arguments. -/
def args (Γ : Env) : List Expr → Out
  | [] => lit []
  | e :: l => arg e (expr Γ e) +++ sep l +++ args Γ l

/-- The rest of a comma expression. -/
def seqTail (Γ : Env) : List Expr → Out
  | [] => lit []
  | e :: l => lit [p .comma] +++ sub 1 e (expr Γ e) +++ seqTail Γ l

/-- A template. -/
def template (Γ : Env) : List Expr → List TemplateElement → Out
  | [], [q] => quasi .noSub q
  | e :: es, q :: qs => quasi .head q +++ sub 20 e (expr Γ e) +++ templateTail Γ es qs
  | _, _ => none

/-- A template after a substitution. -/
def templateTail (Γ : Env) : List Expr → List TemplateElement → Out
  | [], [q] => quasi .tail q
  | e :: es, q :: qs => quasi .body q +++ sub 20 e (expr Γ e) +++ templateTail Γ es qs
  | _, _ => none

/-- Properties of an object. -/
def props (Γ : Env) : List ObjectProperty → Out
  | [] => lit []
  | x :: l => objProp Γ x +++ sep l +++ props Γ l

/-- A property of an object. -/
def objProp (Γ : Env) : ObjectProperty → Out
  | .spread e => only (isSpread e) (expr Γ e)
  | .property (.mk x v .init false c true) => only (!c) (shortKey x +++ shortValue Γ v)
  | .property (.mk x v .init false c false) => key Γ c x +++ lit [p .colon] +++ value Γ v
  | .property (.mk x v .init true c false) =>
      asyncStar v +++ key Γ c x +++ method Γ .init v
  | .property (.mk x v .get false c false) => only (isPlainValue v && (paramsOf v).isEmpty)
      (lit [word t!"get"] +++ key Γ c x +++ method Γ .get v)
  | .property (.mk x v .set false c false) => only (isPlainValue v && setterArity (paramsOf v))
      (lit [word t!"set"] +++ key Γ c x +++ method Γ .set v)
  | _ => none

/-- The default of a short-hand property. -/
def shortValue (Γ : Env) : PropertyValue → Out
  | .none => lit []
  | .expr e => lit [p .assign] +++ sub 1 e (expr Γ e)
  | .pat _ => none

/-- The value of a property. -/
def value (Γ : Env) : PropertyValue → Out
  | .expr e => sub 2 e (expr Γ e)
  | _ => none

/-- A property key, in brackets or not. -/
def key (Γ : Env) : Bool → PropertyKey → Out
  | false, .literal (.string s) => str s
  | false, .literal (.number s) => num s
  | false, .expr (.ident n) => keyName n
  | true, .literal (.string s) => lit [p .openBracket] +++ str s +++ lit [p .closeBracket]
  | true, .literal (.number s) => lit [p .openBracket] +++ num s +++ lit [p .closeBracket]
  | true, .literal (.boolean b) => lit [p .openBracket, tk (.boolean b), p .closeBracket]
  | true, .expr e => only (!keyLiteral e)
      (lit [p .openBracket] +++ sub 20 e (expr Γ e) +++ lit [p .closeBracket])
  | _, _ => none

/-- The parameters and the body of a method. -/
def method (Γ : Env) (kind : PropertyKind) : PropertyValue → Out
  | .expr (.function (.mk none ps b g a)) => only (!(Γ.strict && ps.any restrictedArg))
      (inParens (paramSeq (paramEnv Γ kind g a) ps) +++
        inBraces (parts (bodyEnv Γ kind a).body true b))
  | _ => none

/-- Parameters. -/
def paramSeq (Γ : Env) : List FunctionArg → Out
  | [] => lit []
  | .pat q :: l => only (!isRest q || l.isEmpty) (pat Γ q) +++ sep l +++ paramSeq Γ l
  | .expr _ :: _ => none

/-- Parameters of an arrow function. -/
def arrowSeq (Γ : Env) : List FunctionArg → Out
  | [] => lit []
  | .pat q :: l => pat Γ q +++ sep l +++ arrowSeq Γ l
  | .expr e :: l => sub 1 e (expr Γ e) +++ sep l +++ arrowSeq Γ l

/-- Parameters of an `async` arrow function. -/
def arrowArgs (Γ : Env) : List FunctionArg → Out
  | [] => lit []
  | .pat _ :: _ => none
  | .expr e :: l => only (plainArg (.expr e) && notAwait e) (arg e (expr Γ e)) +++ sep l +++
      arrowArgs Γ l

/-- A function with its name. -/
def func (Γ : Env) (isExpr : Bool) : Function → Out
  | .mk id ps b g a => only ((isExpr || !(a && g)) &&
        !(Γ.strict && (id.map isRestrictedWord).getD false) &&
        !(isExpr && Γ.strict && ps.any restrictedArg))
      (fnStart a +++ star g +++ optName id +++ inParens (paramSeq (Γ.fn a g) ps) +++
        inBraces (parts (Γ.fn a g).body true b))

/-- A class. -/
def cls (Γ : Env) (optIdent : Bool) : Class → Out
  | .mk id none b => only (optIdent || id.isSome)
      (lit [k .class] +++ optName id +++ lit [p .openBrace] +++ classEls Γ.strictly false b +++
        lit [p .closeBrace])
  | .mk none (some _) _ => none
  | .mk (some n) (some e) b =>
      lit [k .class] +++ name n +++ lit [k .extends] +++ sub 19 e (expr Γ.strictly e) +++
        lit [p .openBrace] +++ classEls Γ.strictly false b +++ lit [p .closeBrace]

/-- Class elements, after a constructor or not. -/
def classEls (Γ : Env) (ctor : Bool) : List Property → Out
  | [] => lit []
  | .mk x v .ctor true false false :: l =>
      only (!ctor && isKey x t!"constructor" && !isGeneratorValue v)
          (asyncStar v +++ key Γ false x +++ method Γ .init v) +++
        classEls Γ true l
  | .mk x v .method true c false :: l =>
      only ((c || !isKey x t!"constructor") && (asyncKey x || !isAsyncValue v))
        (asyncStar v +++ key Γ c x +++ method Γ .init v) +++ classEls Γ ctor l
  | .mk x v .get false c false :: l =>
      only ((c || !isKey x t!"constructor") && isPlainValue v && (paramsOf v).isEmpty)
        (lit [word t!"get"] +++ key Γ c x +++ method Γ .get v) +++ classEls Γ ctor l
  | .mk x v .set false c false :: l =>
      only ((c || !isKey x t!"constructor") && isPlainValue v && setterArity (paramsOf v))
        (lit [word t!"set"] +++ key Γ c x +++ method Γ .set v) +++ classEls Γ ctor l
  | _ => none

/-- A pattern. -/
def pat (Γ : Env) : Pat → Out
  | .identifier n => name n
  | .array l => lit [p .openBracket] +++ patElems Γ l +++ lit [p .closeBracket]
  | .object l => lit [p .openBrace] +++ patProps Γ l +++ lit [p .closeBrace]
  | .restElement q => lit [p .spread] +++ only (isPlain q) (pat Γ q)
  | .assignment q e => only (isPlain q) (pat Γ q) +++ lit [p .assign] +++
      sub 20 e (expr (Γ.yielding false) e)

/-- Elements of an array pattern. -/
def patElems (Γ : Env) : List (Option ArrayPatPart) → Out
  | [] => lit []
  | none :: l => lit [p .comma] +++ patElems Γ l
  | some (.pat q) :: l => only (!isRest q) (pat Γ q) +++ sep l +++ patElems Γ l
  | some (.expr _) :: _ => none

/-- Properties of an object pattern. -/
def patProps (Γ : Env) : List ObjectPatPart → Out
  | [] => lit []
  | x :: l => patProp Γ x +++ sep l +++ patProps Γ l

/-- A property of an object pattern. -/
def patProp (Γ : Env) : ObjectPatPart → Out
  | .rest q => only (isRest q) (pat Γ q)
  | .assignment (.mk x v .init false c true) => only (!c) (shortKey x +++ patInit Γ v)
  | .assignment (.mk x v .init false c false) => key Γ c x +++ lit [p .colon] +++ patValue Γ v
  | _ => none

/-- The default of a short-hand property of a pattern. -/
def patInit (Γ : Env) : PropertyValue → Out
  | .none => lit []
  | .expr e => lit [p .assign] +++ sub 20 e (expr Γ e)
  | .pat _ => none

/-- The value of a property of a pattern. -/
def patValue (Γ : Env) : PropertyValue → Out
  | .pat q => only (!isRest q) (pat Γ q)
  | _ => none

/-- A declared variable; the initialiser is printed at the level `n`. -/
def varDecl (Γ : Env) (n : Nat) (kind : VariableKind) (inFor inOf : Bool) : VariableDecl → Out
  | .mk q none => only (isPlain q && !(Γ.strict && isRestrictedPat q) && bare kind inFor inOf q)
      (pat Γ q)
  | .mk q (some e) => only (isPlain q && !(Γ.strict && isRestrictedPat q)) (pat Γ q) +++
      lit [p .assign] +++ sub n e (expr Γ e)

/-- Declared variables. -/
def varDecls (Γ : Env) (n : Nat) (kind : VariableKind) (inFor : Bool) : List VariableDecl → Out
  | [] => lit []
  | d :: l => varDecl Γ n kind inFor false d +++ sep l +++ varDecls Γ n kind inFor l

/-- A statement. -/
def stmt (Γ : Env) : Stmt → Out
  | .expr e => shield badStmt (sub 0 e (expr Γ e)) +++ lit [p .semiColon]
  | .block l => lit [p .openBrace] +++ parts Γ false l +++ lit [p .closeBrace]
  | .empty => lit [p .semiColon]
  | .debugger => lit [k .debugger, p .semiColon]
  | .with e s => only (!Γ.strict) (lit [k .with, p .openParen] +++ sub 0 e (expr Γ e) +++
      lit [p .closeParen] +++ stmt Γ s)
  | .return none => only Γ.inFn (lit [k .return, p .semiColon])
  | .return (some e) => only Γ.inFn (lit [k .return] +++ (sub 0 e (expr Γ e)).map glue +++
      lit [p .semiColon])
  | .labeled n s => only (!Γ.labels.contains ('$' :: n))
      (name n +++ lit [p .colon] +++ stmt (Γ.label n) s)
  | .break l => lit [k .break] +++ jumpLabel l +++ lit [p .semiColon]
  | .continue l => lit [k .continue] +++ jumpLabel l +++ lit [p .semiColon]
  | .if e s none => lit [k .if, p .openParen] +++ sub 0 e (expr Γ e) +++ lit [p .closeParen] +++
      stmt Γ s
  | .if e s (some s') => only (!openIf s)
      (lit [k .if, p .openParen] +++ sub 0 e (expr Γ e) +++ lit [p .closeParen] +++
        stmt Γ s +++ lit [k .else] +++ stmt Γ s')
  | .switch e l => only (oneDefault l)
      (lit [k .switch, p .openParen] +++ sub 0 e (expr Γ e) +++
        lit [p .closeParen, p .openBrace] +++ cases Γ l +++ lit [p .closeBrace])
  | .throw e => lit [k .throw] +++ sub 0 e (expr Γ e) +++ lit [p .semiColon]
  | .try l h f => lit [k .try, p .openBrace] +++ parts Γ false l +++ lit [p .closeBrace] +++
      handler Γ h +++ finalizer Γ f
  | .while e s => lit [k .while, p .openParen] +++ sub 0 e (expr Γ e) +++ lit [p .closeParen] +++
      stmt Γ s
  | .doWhile e s => lit [k .do] +++ stmt Γ s +++ lit [k .while, p .openParen] +++
      sub 0 e (expr Γ e) +++ lit [p .closeParen, p .semiColon]
  | .for x a b s => lit [k .for, p .openParen] +++ loopInit Γ x +++ lit [p .semiColon] +++
      optExpr Γ a +++ lit [p .semiColon] +++ optExpr Γ b +++ lit [p .closeParen] +++ stmt Γ s
  | .forIn x e s => lit [k .for, p .openParen] +++ loopLeft Γ x +++ lit [k .in] +++
      sub 0 e (expr Γ e) +++ lit [p .closeParen] +++ stmt Γ s
  | .forOf x e s a => (if a then lit [k .for, k .await, p .openParen]
        else lit [k .for, p .openParen]) +++ loopLeft Γ x +++ lit [word t!"of"] +++
      sub 2 e (expr Γ e) +++ lit [p .closeParen] +++ stmt Γ s
  | .var l => only (!l.isEmpty) (lit [k .var] +++ varDecls Γ 1 .var false l +++ lit [p .semiColon])

/-- The cases of a `switch`. -/
def cases (Γ : Env) : List SwitchCase → Out
  | [] => lit []
  | .mk none l :: cs => lit [k .default, p .colon] +++ parts Γ false l +++ cases Γ cs
  | .mk (some e) l :: cs => lit [k .case] +++ sub 0 e (expr Γ e) +++ lit [p .colon] +++
      parts Γ false l +++ cases Γ cs

/-- A `catch` clause. -/
def handler (Γ : Env) : Option CatchClause → Out
  | none => lit []
  | some (.mk none l) => lit [k .catch, p .openBrace] +++ parts Γ false l +++ lit [p .closeBrace]
  | some (.mk (some q) l) => lit [k .catch, p .openParen] +++ only (isPlain q) (pat Γ q) +++
      lit [p .closeParen, p .openBrace] +++ parts Γ false l +++ lit [p .closeBrace]

/-- A `finally` clause. -/
def finalizer (Γ : Env) : Option (List ProgramPart) → Out
  | none => lit []
  | some l => lit [k .finally, p .openBrace] +++ parts Γ false l +++ lit [p .closeBrace]

/-- The start of a `for` loop. -/
def loopInit (Γ : Env) : Option LoopInit → Out
  | none => lit []
  | some (.variable kind l) => only (!l.isEmpty)
      (lit [k (kindKeyword kind)] +++ varDecls Γ 20 kind true l)
  | some (.expr e) => sub 20 e (expr Γ e)

/-- The target of a `for` loop over a collection. -/
def loopLeft (Γ : Env) : LoopLeft → Out
  | .variable kind d => only (kind == .var || noInit d)
      (lit [k (kindKeyword kind)] +++ varDecl Γ 20 kind true true d)
  | .expr e => sub 20 e (expr Γ e)

/-- An optional expression. -/
def optExpr (Γ : Env) : Option Expr → Out
  | none => lit []
  | some e => sub 0 e (expr Γ e)

/-- A declaration. -/
def decl (Γ : Env) : Decl → Out
  | .variable kind l => only (!l.isEmpty)
      (lit [k (kindKeyword kind)] +++ varDecls Γ 1 kind false l +++ lit [p .semiColon])
  | .function f => func Γ false f
  | .class c => cls Γ true c
  | .import i => importDecl i
  | .export e => lit [k .export] +++ modExport Γ e

/-- What follows `export`.  `let` and `const` need two semicolons. -/
def modExport (Γ : Env) : ModExport → Out
  | .defaultDecl d => only (defaultable d) (lit [k .default] +++ decl Γ d)
  | .defaultExpr e => lit [k .default] +++ shield badExport (sub 20 e (expr Γ e))
  | .namedDecl d => only (exportable d)
      (decl Γ d +++ (if isLexical d then lit [p .semiColon] else lit []))
  | .namedSpecifier l m => only (m.isSome || !exportsDefault l)
      (lit [p .openBrace] +++ exportSeq l +++ lit [p .closeBrace] +++ fromModule m +++
        lit [p .semiColon])
  | .all m => lit [p .asterisk, word t!"from"] +++ str m +++ lit [p .semiColon]

/-- Program parts; directives only as long as `pro` is set. -/
def parts (Γ : Env) (pro : Bool) : List ProgramPart → Out
  | [] => lit []
  | x :: l => followed x (part Γ pro x) (parts Γ (pro && isDirPart x) l)

/-- A program part. -/
def part (Γ : Env) (pro : Bool) : ProgramPart → Out
  | .dir s d => only (pro && decide (d = trimQuotes s ∧ s ≠ t!"use strict"))
      (str s +++ lit [p .semiColon])
  | .decl d => only (declItem d) (decl Γ d)
  | .stmt s => stmt Γ s

end

/-! ## Spelling -/

/-- What is assumed of the token predicates of the scanner: the keywords that start expressions are
not reserved words of strict code only, at most `eval` and `arguments` are restricted, and the
literals are literals. -/
structure ExtOk (x : Ext) : Prop where
  this : x.isStrictReserved (.keyword .this) = false
  function : x.isStrictReserved (.keyword .function) = false
  «class» : x.isStrictReserved (.keyword .class) = false
  ident : x.isStrictReserved .ident = false
  restricted {w : Txt} : x.isRestricted .ident w = true → isRestrictedWord w = true
  paren : x.isLiteral (.punct .openParen) = false
  string : x.isLiteral .string = true
  numeric : x.isLiteral .numeric = true
  boolean {b : Bool} : x.isLiteral (.boolean b) = true
  null : x.isLiteral .null = true

/-- The item, in front of `j`, is the printed piece. -/
def Matches (C : Cfg) (x : Pc) (t : Tok) (j : List Tok) : Prop :=
  t.item.token = x.token ∧ C.text t = x.text ∧ (x.glued = true → t.nl = false) ∧
    (x.tight = true → ∃ t' j', j = t' :: j' ∧ C.joined t t')

/-- The items `i` begin with the pieces, and `o` remains. -/
def Spelled (C : Cfg) : List Pc → List Tok → List Tok → Prop
  | [], i, o => i = o
  | x :: l, i, o => ∃ t j, i = t :: j ∧ Matches C x t j ∧ Spelled C l j o

/-- The items `i` begin with what is printed, and `o` remains. -/
def Sp (C : Cfg) (r : Out) (i o : List Tok) : Prop := ∃ l, r = some l ∧ Spelled C l i o

end Ressa.Print
