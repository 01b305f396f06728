import Verif.Spec.Operators

/-!
# A small language

The language of the first edition of a textbook on JavaScript, without object literals: names,
literals, regular expressions, templates without substitutions, arrays, functions, operators, calls,
members, assignments; `var`, `let`, `const`, `if`, loops, `return`, `break`, labels, `switch`, `try`,
`with`.  `Small` is its grammar, with the binding levels of the ECMAScript standard and no look-ahead except for missing
clauses and after `let`.  `SmallText` describes the texts the comparison in `Verif.Props.Small` is
about, well-formed or not: their vocabulary, and a few combinations of neighbours that would leave
the language.
-/

namespace Ressa.Gr

/-- An assignment, `++` or `--`. -/
def assigns : Token → Bool
  | .punct p => (assignmentOperator p).isSome || p == .increment || p == .decrement
  | _ => false

/-- The vocabulary.  *(quirk)* `null` is in it, but in no rule of the grammar. -/
def smallToken (fns : Bool) : Token → Bool
  | .ident | .numeric | .string | .boolean _ | .regex | .template .noSub | .null | .eof => true
  | .keyword k => match k with
    | .if | .else | .while | .var | .this | .new | .typeOf | .void | .delete | .in | .instanceOf
    | .return | .break | .continue | .debugger | .throw | .do | .try | .catch | .finally | .switch
    | .case | .default | .for | .with | .let | .const => true
    | .function => fns
    | _ => false
  | .punct p => match p with
    | .spread | .fatArrow | .atMark | .hash => false
    | _ => true
  | _ => false

/-- What may stand at the beginning of a line: nothing that could continue the line before, no
semicolon, and no string or template, which `return` would take. -/
def smallLine : Token → Bool
  | .punct p => p == .not || p == .bitwiseNot || p == .openBrace || p == .closeBrace ||
      p == .closeParen || p == .closeBracket
  | .keyword k => k != .in && k != .instanceOf
  | .string | .template _ => false
  | _ => true

/-- Neighbours: `{` opens a block and no directive follows it, `.` is followed by a name, `var` by
no pattern, a comma by neither `)` nor an array, `new` by neither `.` nor `new`, `let` by neither
a pattern nor `let`, `const` by neither a pattern nor `in`. -/
def smallPair : Token → Token → Bool
  | t, .punct .openBrace => t == .punct .semiColon || t == .punct .openBrace ||
      t == .punct .closeBrace || t == .punct .closeParen || t == .keyword .else ||
      t == .keyword .do || t == .keyword .try || t == .keyword .catch || t == .keyword .finally
  | t, .string => t != .punct .openBrace && t != .punct .period
  | .punct .period, t => t == .ident
  | .keyword .var, t => t != .punct .openBracket
  | .punct .comma, t => t != .punct .closeParen && t != .punct .openBracket
  | .keyword .new, t => t != .punct .period && t != .keyword .new
  | .keyword .let, t => t != .punct .openBracket && t != .keyword .let
  | .keyword .const, t => t != .punct .openBracket && t != .keyword .in
  | _, _ => true

/-- Neighbours in texts with functions: what is assigned to does not end in `)`, `}` or a template,
and there are no arrays.  *(quirk)* Whether a function, or a sequence or an array with functions in
it, can be assigned to depends on the last statement in its body. -/
def fnPair : Token → Token → Bool
  | t, .punct .openBracket =>
      t == .ident || t == .string || t == .punct .closeBracket || t == .keyword .this
  | .punct .closeParen, t | .punct .closeBrace, t | .template _, t => !assigns t
  | .punct .increment, t | .punct .decrement, t =>
      t != .punct .openParen && t != .keyword .function
  | _, _ => true

/-- Only names and commas up to the next `)`. -/
def plainHead : List Tok → Bool
  | [] => true
  | t :: r => match t.item.token with
    | .punct .closeParen => true
    | .ident | .punct .openParen | .punct .comma => plainHead r
    | _ => false

/-- After `for` no item is spelled `of`, and no semicolon is followed by a block. -/
def forOk (C : Cfg) : List Tok → Prop
  | [] => True
  | t :: r => C.text t ≠ t!"of" ∧ (Is t .semiColon → head r ≠ .punct .openBrace) ∧ forOk C r

/-- No item is spelled `of`, and the last one is the end of the file. -/
def noOf (C : Cfg) : List Tok → Prop
  | [] => True
  | t :: r => C.text t ≠ t!"of" ∧ (r = [] → t.item.token = .eof) ∧ noOf C r

/-- A name that follows `let` is on the same line, `let` after `(` is followed by a name, after
`const` no item is spelled `of` and the end of the file comes, and `=` is not spelled `of`. -/
def letOk (C : Cfg) (t : Tok) (r : List Tok) : Prop :=
  (Kw t .let → head r = .ident → C.nl r = false) ∧
    (Is t .openParen → head r = .keyword .let → head r.tail = .ident) ∧
    (Kw t .const → noOf C r) ∧ (Is t .assign → C.text t ≠ t!"of")

/-- See above.  No item is spelled `async`, no name is spelled `await`, parameters are names. -/
def SmallText (C : Cfg) (fns : Bool) : List Tok → Prop
  | [] => True
  | t :: r => smallToken fns t.item.token = true ∧ C.text t ≠ t!"async" ∧ C.text t ≠ t!"await" ∧
      (t.nl = true → smallLine t.item.token = true) ∧
      (∀ t' r', r = t' :: r' → smallPair t.item.token t'.item.token = true ∧
        (fns = true → fnPair t.item.token t'.item.token = true)) ∧
      (t.item.token = .keyword .function → plainHead r = true) ∧
      (t.item.token = .keyword .catch → head r = .punct .openBrace ∨ plainHead r = true) ∧
      (t.item.token = .keyword .for → forOk C r) ∧
      letOk C t r ∧ SmallText C fns r

/-- The text begins with no directive and, with functions, with no array. -/
def smallFirst (fns : Bool) (l : List Tok) : Prop :=
  head l ≠ .string ∧ (fns = true → head l ≠ .punct .openBracket)

mutual
/-- What may be assigned to.  *(quirk)* An assignment in parentheses, if its left side may, and a
sequence in parentheses, if all its members may; a template, too, and a tagged one if its tag may. -/
def target : Expr → Bool
  | .ident _ => true
  | .member _ _ _ => true
  | .assignment .equal l _ => target l
  | .sequence l => targets l
  | .array l => targetElems l
  | .template _ _ => true
  | .taggedTemplate e _ _ => target e
  | _ => false
/-- All of them. -/
def targets : List Expr → Bool
  | [] => true
  | e :: l => target e && targets l
/-- All elements. -/
def targetElems : List (Option Expr) → Bool
  | [] => true
  | none :: l => targetElems l
  | some e :: l => target e && targetElems l
end

/-- The end of a statement: a semicolon, a new line, `}` or the end of the text. -/
def Cfg.ends (C : Cfg) (j o : List Tok) : Prop :=
  (∃ t, Is t .semiColon ∧ j = t :: o) ∨
    j = o ∧ (C.nl o = true ∨ head o = .punct .closeBrace ∨ head o = .eof)

/-- `++` and `--`. -/
def updateToken : UpdateOperator → Token
  | .increment => .punct .increment
  | .decrement => .punct .decrement

/-- Where a phrase stands: inside a function or not, and where `in` is an operator or not. -/
structure Place where
  fn : Bool
  inOk : Bool

/-- In brackets. -/
def Place.all (f : Place) : Place := { f with inOk := true }
/-- At the beginning of the head of a `for`. -/
def Place.head (f : Place) : Place := { f with inOk := false }
/-- In the body of a function. -/
def Place.body (f : Place) : Place := { f with fn := true }

/-- `let` or `const`. -/
abbrev lexKind (t : Tok) (k : VariableKind) : Prop :=
  Kw t .let ∧ k = .let ∨ Kw t .const ∧ k = .const

/-- The kinds of phrases. -/
inductive SK
  /-- An expression whose operators bind at least as strongly as the level: 0 comma, 1 assignment,
  3 `? :`, 4–14 binary operators, 15 `**`, 16 unary operators, 17 `++`, `--` and `new` without
  arguments, 18 calls, 19 members, 20 the rest. -/
  | expr (level : Nat) (e : Expr)
  | list (l : List Expr)
  | elems (l : List (Option Expr))
  | args (l : List Expr)
  | fnName (n : Option Txt)
  | names (l : List Txt)
  | params (l : List Txt)
  | fn (f : Function)
  | decl (d : VariableDecl)
  | decls (l : List VariableDecl)
  | lex (k : VariableKind) (d : VariableDecl)
  | lexs (k : VariableKind) (l : List VariableDecl)
  | block (l : List ProgramPart)
  | handler (c : Option CatchClause)
  | final (l : Option (List ProgramPart))
  | cases (hasDefault : Bool) (l : List SwitchCase)
  | label (n : Option Txt)
  | init (x : Option LoopInit)
  | opt (e : Option Expr)
  | stmt (s : Stmt)
  | part (p : ProgramPart)
  | stmts (l : List ProgramPart)

/-- See above.  The list contains the labels around. -/
inductive Small (C : Cfg) : Place → List Txt → SK → List Tok → List Tok → Prop

  -- Operands

  | name {f ls t o} : t.item.token = .ident →
      Small C f ls (.expr 20 (.ident (C.text t))) (t :: o) o
  /-- `let` is a name, too. -/
  | letName {f ls t o} : Kw t .let → Small C f ls (.expr 19 (.ident (C.text t))) (t :: o) o
  | number {f ls t o} : t.item.token = .numeric →
      Small C f ls (.expr 20 (.literal (.number (C.text t)))) (t :: o) o
  | string {f ls t o} : t.item.token = .string →
      Small C f ls (.expr 20 (.literal (.string (C.text t)))) (t :: o) o
  | boolean {f ls t b o} : t.item.token = .boolean b →
      Small C f ls (.expr 20 (.literal (.boolean b))) (t :: o) o
  | regex {f ls t pat flags o} : t.item.token = .regex →
      C.text t = '/' :: (pat ++ '/' :: flags) → '/' ∉ flags →
      Small C f ls (.expr 20 (.literal (.regex ⟨pat, flags⟩))) (t :: o) o
  | template {f ls t w o} : t.item.token = .template .noSub → C.text t = '`' :: (w ++ ['`']) →
      Small C f ls (.expr 20 (.template [] [⟨C.text t, w, true⟩])) (t :: o) o
  | this {f ls t o} : Kw t .this → Small C f ls (.expr 20 .this) (t :: o) o
  | paren {f ls t t' e i o} : Is t .openParen → Small C f.all ls (.expr 0 e) i (t' :: o) →
      Is t' .closeParen → Small C f ls (.expr 20 e) (t :: i) o
  | array {f ls t t' l i o} : Is t .openBracket → Small C f.all ls (.elems l) i (t' :: o) →
      Is t' .closeBracket → Small C f ls (.expr 20 (.array l)) (t :: i) o
  | fnExpr {f ls g i o} : Small C f.all ls (.fn g) i o → Small C f ls (.expr 20 (.function g)) i o

  -- Members and calls

  | dot {f ls n t t' e i o} : n = 18 ∨ n = 19 → Small C f ls (.expr n e) i (t :: t' :: o) →
      Is t .period → t'.item.token = .ident →
      Small C f ls (.expr n (.member e (.ident (C.text t')) false)) i o
  | index {f ls n t t' e x i j o} : n = 18 ∨ n = 19 → Small C f ls (.expr n e) i (t :: j) →
      Is t .openBracket → Small C f.all ls (.expr 0 x) j (t' :: o) → Is t' .closeBracket →
      Small C f ls (.expr n (.member e x true)) i o
  | tagged {f ls n t w e i o} : n = 18 ∨ n = 19 → Small C f ls (.expr n e) i (t :: o) →
      t.item.token = .template .noSub → C.text t = '`' :: (w ++ ['`']) →
      Small C f ls (.expr n (.taggedTemplate e [] [⟨C.text t, w, true⟩])) i o
  | newArgs {f ls t e l i j o} : Kw t .new → Small C f ls (.expr 19 e) i j →
      Small C f.all ls (.args l) j o → Small C f ls (.expr 19 (.new e l)) (t :: i) o
  | new {f ls t e i o} : Kw t .new → Small C f ls (.expr 19 e) i o → memEnd o →
      head o ≠ .punct .openParen → Small C f ls (.expr 17 (.new e [])) (t :: i) o
  | call {f ls e l i j o} : Small C f ls (.expr 18 e) i j → Small C f.all ls (.args l) j o →
      Small C f ls (.expr 18 (.call e l)) i o
  | argsNone {f ls t t' o} : Is t .openParen → Is t' .closeParen →
      Small C f ls (.args []) (t :: t' :: o) o
  | args {f ls t t' l i o} : Is t .openParen → Small C f ls (.list l) i (t' :: o) →
      Is t' .closeParen → Small C f ls (.args l) (t :: i) o

  -- Operators

  | prefix {f ls t op e i o} : t.item.token = updateToken op → Small C f ls (.expr 16 e) i o →
      target e = true → Small C f ls (.expr 17 (.update op e true)) (t :: i) o
  | postfix {f ls t op e i o} : Small C f ls (.expr 18 e) i (t :: o) → target e = true →
      t.item.token = updateToken op → t.nl = false →
      Small C f ls (.expr 17 (.update op e false)) i o
  | unary {f ls t op e i o} : unaryOperator t.item.token = some op →
      Small C f ls (.expr 16 e) i o → Small C f ls (.expr 16 (.unary op e true)) (t :: i) o
  | power {f ls t l r i j o} : Small C f ls (.expr 16 l) i (t :: j) → Is t .exponent →
      Small C f ls (.expr 15 r) j o → Small C f ls (.expr 15 (.binary .powerOf l r)) i o
  | binary {f ls t} {op : Op} {l r i j o} : Small C f ls (.expr (op.level + 3) l) i (t :: j) →
      t.item.token = op.token → op ≠ .bin .powerOf → (op = .bin .in → f.inOk = true) →
      Small C f ls (.expr (op.level + 4) r) j o →
      Small C f ls (.expr (op.level + 3) (op.node l r)) i o
  | cond {f ls t t' c a b i j k o} : Small C f ls (.expr 4 c) i (t :: j) → Is t .questionMark →
      Small C f.all ls (.expr 1 a) j (t' :: k) → Is t' .colon → Small C f ls (.expr 1 b) k o →
      Small C f ls (.expr 3 (.conditional c b a)) i o
  | assign {f ls t p op l r i j o} : Small C f ls (.expr 4 l) i (t :: j) → target l = true →
      Is t p → assignmentOperator p = some op → Small C f ls (.expr 1 r) j o →
      Small C f ls (.expr 1 (.assignment op l r)) i o
  | comma {f ls l i o} : Small C f ls (.list l) i o → 2 ≤ l.length →
      Small C f ls (.expr 0 (.sequence l)) i o
  | weaken {f ls n m e i o} : Small C f ls (.expr n e) i o → m ≤ n → Small C f ls (.expr m e) i o

  -- Lists

  | listOne {f ls e i o} : Small C f ls (.expr 1 e) i o → Small C f ls (.list [e]) i o
  | listMore {f ls e l t i j o} : Small C f ls (.expr 1 e) i (t :: j) → Is t .comma →
      Small C f ls (.list l) j o → Small C f ls (.list (e :: l)) i o
  | elemsNone {f ls o} : Small C f ls (.elems []) o o
  | elemsHole {f ls t l i o} : Is t .comma → Small C f ls (.elems l) i o →
      Small C f ls (.elems (none :: l)) (t :: i) o
  | elemsMore {f ls t e l i j o} : Small C f ls (.expr 1 e) i (t :: j) → Is t .comma →
      Small C f ls (.elems l) j o → Small C f ls (.elems (some e :: l)) i o
  | elemsLast {f ls e i o} : Small C f ls (.expr 1 e) i o → Small C f ls (.elems [some e]) i o

  -- Functions

  | fnAnonymous {f ls o} : head o = .punct .openParen → Small C f ls (.fnName none) o o
  | fnNamed {f ls t o} : t.item.token = .ident →
      Small C f ls (.fnName (some (C.text t))) (t :: o) o
  | namesOne {f ls t o} : t.item.token = .ident → Small C f ls (.names [C.text t]) (t :: o) o
  | namesMore {f ls t t' l i o} : t.item.token = .ident → Is t' .comma →
      Small C f ls (.names l) i o → Small C f ls (.names (C.text t :: l)) (t :: t' :: i) o
  | paramsNone {f ls t t' o} : Is t .openParen → Is t' .closeParen →
      Small C f ls (.params []) (t :: t' :: o) o
  | params {f ls t t' l i o} : Is t .openParen → Small C f ls (.names l) i (t' :: o) →
      Is t' .closeParen → Small C f ls (.params l) (t :: i) o
  | fn {f ls t id ps b i j k o} : Kw t .function → Small C f ls (.fnName id) i j →
      Small C f ls (.params ps) j k → Small C f.body [] (.block b) k o →
      Small C f ls (.fn (.mk id (ps.map fun n => .pat (.identifier n)) b false false)) (t :: i) o

  -- Statements

  | declare {f ls t o} : t.item.token = .ident →
      Small C f ls (.decl (.mk (.identifier (C.text t)) none)) (t :: o) o
  | declareInit {f ls t t' e i o} : t.item.token = .ident → Is t' .assign →
      Small C f ls (.expr 1 e) i o →
      Small C f ls (.decl (.mk (.identifier (C.text t)) (some e))) (t :: t' :: i) o
  /-- *(quirk)* keywords are names of variables, too, but not `let`. -/
  | declareKey {f ls t k o} : Kw t k → k ≠ .let →
      Small C f ls (.decl (.mk (.identifier k.text) none)) (t :: o) o
  /-- *(quirk)* -/
  | declareKeyInit {f ls t k t' e i o} : Kw t k → k ≠ .let → Is t' .assign →
      Small C f ls (.expr 1 e) i o →
      Small C f ls (.decl (.mk (.identifier k.text) (some e))) (t :: t' :: i) o
  | declsOne {f ls d i o} : Small C f ls (.decl d) i o → Small C f ls (.decls [d]) i o
  | declsMore {f ls d l t i j o} : Small C f ls (.decl d) i (t :: j) → Is t .comma →
      Small C f ls (.decls l) j o → Small C f ls (.decls (d :: l)) i o
  | lexInit {f ls k t t' e i o} : t.item.token = .ident → Is t' .assign →
      Small C f ls (.expr 1 e) i o →
      Small C f ls (.lex k (.mk (.identifier (C.text t)) (some e))) (t :: t' :: i) o
  | lexNone {f ls t o} : t.item.token = .ident →
      Small C f ls (.lex .let (.mk (.identifier (C.text t)) none)) (t :: o) o
  | lexsOne {f ls k d i o} : Small C f ls (.lex k d) i o → Small C f ls (.lexs k [d]) i o
  | lexsMore {f ls k d l t i j o} : Small C f ls (.lex k d) i (t :: j) → Is t .comma →
      Small C f ls (.lexs k l) j o → Small C f ls (.lexs k (d :: l)) i o
  | braces {f ls t t' l i o} : Is t .openBrace → Small C f ls (.stmts l) i (t' :: o) →
      Is t' .closeBrace → Small C f ls (.block l) (t :: i) o
  | noCatch {f ls o} : head o ≠ .keyword .catch → Small C f ls (.handler none) o o
  | catchAll {f ls t l i o} : Kw t .catch → Small C f ls (.block l) i o →
      Small C f ls (.handler (some (.mk none l))) (t :: i) o
  | catch {f ls t t' t'' t3 l i o} : Kw t .catch → Is t' .openParen → t''.item.token = .ident →
      Is t3 .closeParen → Small C f ls (.block l) i o →
      Small C f ls (.handler (some (.mk (some (.identifier (C.text t''))) l)))
        (t :: t' :: t'' :: t3 :: i) o
  | noFinally {f ls o} : head o ≠ .keyword .finally → Small C f ls (.final none) o o
  | finally {f ls t l i o} : Kw t .finally → Small C f ls (.block l) i o →
      Small C f ls (.final (some l)) (t :: i) o
  | casesNone {f ls d o} : Small C f ls (.cases d []) o o
  | case {f ls d t t' e b l i j k o} : Kw t .case → Small C f ls (.expr 0 e) i (t' :: j) →
      Is t' .colon → Small C f ls (.stmts b) j k → Small C f ls (.cases d l) k o →
      Small C f ls (.cases d (.mk (some e) b :: l)) (t :: i) o
  | default {f ls t t' b l i j o} : Kw t .default → Is t' .colon → Small C f ls (.stmts b) i j →
      Small C f ls (.cases true l) j o →
      Small C f ls (.cases false (.mk none b :: l)) (t :: t' :: i) o
  | noLabel {f ls i o} : C.ends i o → Small C f ls (.label none) i o
  | label {f ls t i o} : t.item.token = .ident → t.nl = false → C.ends i o →
      Small C f ls (.label (some (C.text t))) (t :: i) o
  | initNone {f ls o} : head o = .punct .semiColon → Small C f ls (.init none) o o
  | initExpr {f ls e i o} : head i ≠ .keyword .let → Small C f.head ls (.expr 1 e) i o →
      Small C f ls (.init (some (.expr e))) i o
  /-- *(quirk)* from the second expression on, `in` is an operator again. -/
  | initSeq {f ls e l t i j o} : head i ≠ .keyword .let →
      Small C f.head ls (.expr 1 e) i (t :: j) → Is t .comma →
      Small C f ls (.list l) j o → Small C f ls (.init (some (.expr (.sequence (e :: l))))) i o
  | initVar {f ls t l i o} : Kw t .var → Small C f.head ls (.decls l) i o →
      Small C f ls (.init (some (.variable .var l))) (t :: i) o
  | initLex {f ls t k l i o} : lexKind t k → Small C f.head ls (.lexs k l) i o →
      Small C f ls (.init (some (.variable k l))) (t :: i) o
  | optNone {f ls o} : head o = .punct .semiColon ∨ head o = .punct .closeParen →
      Small C f ls (.opt none) o o
  | optSome {f ls e i o} : Small C f ls (.expr 0 e) i o → Small C f ls (.opt (some e)) i o
  | empty {f ls t o} : Is t .semiColon → Small C f ls (.stmt .empty) (t :: o) o
  | expr {f ls e i j o} : head i ≠ .keyword .function → Small C f ls (.expr 0 e) i j →
      C.ends j o → Small C f ls (.stmt (.expr e)) i o
  /-- *(quirk)* anywhere, and without a name. -/
  | fnStmt {f ls g i o} : Small C f ls (.fn g) i o → Small C f ls (.stmt (.expr (.function g))) i o
  | var {f ls t l i j o} : Kw t .var → Small C f ls (.decls l) i j → C.ends j o →
      Small C f ls (.stmt (.var l)) (t :: i) o
  | block {f ls l i o} : Small C f ls (.block l) i o → Small C f ls (.stmt (.block l)) i o
  | labeled {f ls t t' s i o} : t.item.token = .ident → Is t' .colon → C.text t ∉ ls →
      Small C f (C.text t :: ls) (.stmt s) i o →
      Small C f ls (.stmt (.labeled (C.text t) s)) (t :: t' :: i) o
  | break {f ls t n i o} : Kw t .break → Small C f ls (.label n) i o →
      Small C f ls (.stmt (.break n)) (t :: i) o
  | continue {f ls t n i o} : Kw t .continue → Small C f ls (.label n) i o →
      Small C f ls (.stmt (.continue n)) (t :: i) o
  | debugger {f ls t i o} : Kw t .debugger → C.ends i o →
      Small C f ls (.stmt .debugger) (t :: i) o
  | return {f ls t i o} : f.fn = true → Kw t .return → C.ends i o →
      Small C f ls (.stmt (.return none)) (t :: i) o
  | returnValue {f ls t e i j o} : f.fn = true → Kw t .return → C.nl i = false →
      Small C f ls (.expr 0 e) i j → C.ends j o →
      Small C f ls (.stmt (.return (some e))) (t :: i) o
  /-- *(quirk)* also over lines. -/
  | throw {f ls t e i j o} : Kw t .throw → Small C f ls (.expr 0 e) i j → C.ends j o →
      Small C f ls (.stmt (.throw e)) (t :: i) o
  /-- *(quirk)* the clauses may both be missing. -/
  | try {f ls t l h g i j k o} : Kw t .try → Small C f ls (.block l) i j →
      Small C f ls (.handler h) j k → Small C f ls (.final g) k o →
      Small C f ls (.stmt (.try l h g)) (t :: i) o
  | switch {f ls t t' t'' t3 t4 e l i j o} : Kw t .switch → Is t' .openParen →
      Small C f ls (.expr 0 e) i (t'' :: t3 :: j) → Is t'' .closeParen → Is t3 .openBrace →
      Small C f ls (.cases false l) j (t4 :: o) → Is t4 .closeBrace →
      Small C f ls (.stmt (.switch e l)) (t :: t' :: i) o
  | while {f ls t t' t'' e s i j o} : Kw t .while → Is t' .openParen →
      Small C f ls (.expr 0 e) i (t'' :: j) → Is t'' .closeParen → Small C f ls (.stmt s) j o →
      Small C f ls (.stmt (.while e s)) (t :: t' :: i) o
  | doWhile {f ls t t' t'' t3 e s i j o} : Kw t .do → Small C f ls (.stmt s) i (t' :: t'' :: j) →
      Kw t' .while → Is t'' .openParen → Small C f ls (.expr 0 e) j (t3 :: o) →
      Is t3 .closeParen → head o ≠ .punct .semiColon →
      Small C f ls (.stmt (.doWhile e s)) (t :: i) o
  | doWhileSemi {f ls t t' t'' t3 t4 e s i j o} : Kw t .do →
      Small C f ls (.stmt s) i (t' :: t'' :: j) → Kw t' .while → Is t'' .openParen →
      Small C f ls (.expr 0 e) j (t3 :: t4 :: o) → Is t3 .closeParen → Is t4 .semiColon →
      Small C f ls (.stmt (.doWhile e s)) (t :: i) o
  | with {f ls t t' t'' e s i j o} : Kw t .with → Is t' .openParen →
      Small C f ls (.expr 0 e) i (t'' :: j) → Is t'' .closeParen → Small C f ls (.stmt s) j o →
      Small C f ls (.stmt (.with e s)) (t :: t' :: i) o
  | for {f ls t t' t1 t2 t3 x a b s i j k l o} : Kw t .for → Is t' .openParen →
      Small C f ls (.init x) i (t1 :: j) → Is t1 .semiColon →
      Small C f ls (.opt a) j (t2 :: k) → Is t2 .semiColon →
      Small C f ls (.opt b) k (t3 :: l) → Is t3 .closeParen → Small C f ls (.stmt s) l o →
      Small C f ls (.stmt (.for x a b s)) (t :: t' :: i) o
  /-- *(quirk)* the left side need not be a target. -/
  | forIn {f ls t t' t1 t2 e r s i j k o} : Kw t .for → Is t' .openParen →
      head i ≠ .keyword .let →
      Small C f.head ls (.expr 1 e) i (t1 :: j) → Kw t1 .in →
      Small C f ls (.expr 0 r) j (t2 :: k) → Is t2 .closeParen → Small C f ls (.stmt s) k o →
      Small C f ls (.stmt (.forIn (.expr e) r s)) (t :: t' :: i) o
  | forVarIn {f ls t t' t0 t1 t2 d r s i j k o} : Kw t .for → Is t' .openParen → Kw t0 .var →
      Small C f.head ls (.decl d) i (t1 :: j) → Kw t1 .in →
      Small C f ls (.expr 0 r) j (t2 :: k) → Is t2 .closeParen → Small C f ls (.stmt s) k o →
      Small C f ls (.stmt (.forIn (.variable .var d) r s)) (t :: t' :: t0 :: i) o
  | forLexIn {f ls t t' t0 n t1 t2 k r s i j o} : Kw t .for → Is t' .openParen → lexKind t0 k →
      n.item.token = .ident → Kw t1 .in →
      Small C f ls (.expr 0 r) i (t2 :: j) → Is t2 .closeParen → Small C f ls (.stmt s) j o →
      Small C f ls (.stmt (.forIn (.variable k (.mk (.identifier (C.text n)) none)) r s))
        (t :: t' :: t0 :: n :: t1 :: i) o
  | if {f ls t t' t'' e s i j o} : Kw t .if → Is t' .openParen →
      Small C f ls (.expr 0 e) i (t'' :: j) → Is t'' .closeParen → Small C f ls (.stmt s) j o →
      head o ≠ .keyword .else → Small C f ls (.stmt (.if e s none)) (t :: t' :: i) o
  | ifElse {f ls t t' t'' t3 e a b i j k o} : Kw t .if → Is t' .openParen →
      Small C f ls (.expr 0 e) i (t'' :: j) → Is t'' .closeParen →
      Small C f ls (.stmt a) j (t3 :: k) → Kw t3 .else → Small C f ls (.stmt b) k o →
      Small C f ls (.stmt (.if e a (some b))) (t :: t' :: i) o
  | fnPart {f ls g i o} : Small C f ls (.fn g) i o →
      Small C f ls (.part (.decl (.function g))) i o
  | lexPart {f ls t k l i j o} : lexKind t k → Small C f ls (.lexs k l) i j → C.ends j o →
      Small C f ls (.part (.decl (.variable k l))) (t :: i) o
  | stmtPart {f ls s i o} : head i ≠ .keyword .function →
      (head i = .keyword .let → head i.tail ≠ .ident) → Small C f ls (.stmt s) i o →
      Small C f ls (.part (.stmt s)) i o
  | stop {f ls o} : Small C f ls (.stmts []) o o
  | more {f ls p l i j o} : Small C f ls (.part p) i j → Small C f ls (.stmts l) j o →
      Small C f ls (.stmts (p :: l)) i o

end Ressa.Gr
