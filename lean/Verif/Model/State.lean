import Verif.Model.Token
import Verif.Model.Ast

/-!
# Parser state, errors and the parser monad

`&mut self` methods returning `Res<T>` become functions `St → Res T`.  The state survives an
`Err` (the caller of `Iterator::next` may keep using the parser), so `Res.err` carries it.
A Rust panic is the explicit outcome `Res.panic`.  A loop or a recursion that runs out of the
fuel the model gives it is the explicit outcome `Res.diverge`; `Verif.Props` proves that it is
never produced.
-/

namespace Ressa

/-- `Position` (src/lib.rs:64-68). -/
structure Position where
  line : Nat
  column : Nat
  deriving DecidableEq, Repr

/-- `Line` (src/lib.rs:323-328): byte offsets of the start and end of a line. -/
structure Line where
  start : Nat
  stop : Nat
  deriving DecidableEq, Repr

/-- One entry of the `expectation` slice of `expected_token_error`: a literal text, or the
`{:?}` rendering of a punctuator or keyword (src/lib.rs:4243, 4253). -/
inductive Expect
  | text (t : Txt)
  | punct (p : Punct)
  | keyword (k : Keyword)
  deriving DecidableEq, Repr

/-- The text of an `UnexpectedToken` error, kept structured: `expected_token_error`
(src/lib.rs:4482-4502) formats the expectations and the token found, `unexpected_token_error`
(4503-4513) the text of the token and a message, and src/lib.rs:2330 a constant. -/
inductive Msg
  | expected (expectation : List Expect) (found : Token)
  | unexpected (name : Txt) (msg : Txt)
  | raw (msg : Txt)
  deriving DecidableEq, Repr

/-- `Error` (src/error.rs:4-15).  `Other` wraps a foreign error and is only built by
`From<io::Error>` (src/error.rs:40-44), which nothing in the parser calls; it is omitted. -/
inductive Error
  | unexpectedToken (pos : Position) (msg : Msg)
  | unexpectedEoF
  | parseAfterEoF
  | unableToReinterpret (pos : Position) (from_ to : Txt)
  | redecl (pos : Position) (name : Txt)
  | operationError (pos : Position) (msg : Txt)
  | invalidGetterParams (pos : Position)
  | invalidSetterParams (pos : Position)
  | nonStrictFeatureInStrictContext (pos : Position) (name : Txt)
  deriving DecidableEq, Repr

/-- `Context` (src/lib.rs:88-127).  `is_module` never changes after construction and lives in
`St` next to `tolerant`.  `label_set : HashSet<String>` is a list without duplicates;
`insert` conses, `remove` filters. -/
structure Ctx where
  allowIn : Bool
  allowStrictDirective : Bool
  allowYield : Bool
  await : Bool
  firstCovert : Option Item
  isAssignmentTarget : Bool
  isBindingElement : Bool
  inFunctionBody : Bool
  inIteration : Bool
  inSwitch : Bool
  labelSet : List Txt
  strict : Bool
  hasLineTerm : Bool
  pastProlog : Bool
  deriving DecidableEq, Repr

/-- `impl Default for Context` (src/lib.rs:136-157). -/
def Ctx.default : Ctx :=
  { allowIn := true
    allowStrictDirective := true
    allowYield := true
    await := false
    firstCovert := none
    isAssignmentTarget := false
    isBindingElement := false
    inFunctionBody := false
    inIteration := false
    inSwitch := false
    labelSet := []
    strict := false
    hasLineTerm := false
    pastProlog := false }

/-- One item the scanner will yield, together with the value of `scanner.pending_new_line` at the
moment just before that item is requested (src/lib.rs:4163). -/
structure Tok where
  nl : Bool
  item : Item
  deriving DecidableEq, Repr

/-- Predicates of the external crate `ress` on tokens whose definition is not in the repository
and cannot be read off `src/lib.rs`: `is_restricted` (1703, 1707, 2740), `is_strict_reserved`
(1709, 2346, 2750, 2819) and `is_literal` (2196).  `is_restricted` may look at the text an
identifier token carries, which is the source text of the item; the other two depend on the kind of
token.  Every theorem holds for all choices. -/
structure Ext where
  isRestricted : Token → Txt → Bool
  isStrictReserved : Token → Bool
  isLiteral : Token → Bool

/-- `Parser` (src/lib.rs:288-322).  `scanner` is split into `stream` (its text), `rest` (the
items it has not yielded yet, comments included) and `pendEnd` (`pending_new_line` once it is
exhausted).  `comments` is the log of everything passed to `comment_handler.handle_comment`:
the kind, the text and the span.  `_tokens`, `_comments` and `_look_ahead` are never read. -/
structure St where
  ext : Ext
  tolerant : Bool
  isModule : Bool
  stream : Txt
  lines : List Line
  rest : List Tok
  pendEnd : Bool
  look : Item
  foundEof : Bool
  curPos : Position
  lookPos : Position
  comments : List (CommentKind × Txt × Span)
  ctx : Ctx

/-- Outcome of running a parser method. -/
inductive Res (α : Type)
  | ok (a : α) (s : St)
  | err (e : Error) (s : St)
  | panic
  | diverge

/-- A `&mut self` method returning `Res<α>`. -/
def P (α : Type) := St → Res α

namespace P

/-- `Ok(a)`. -/
@[inline] protected def pure {α} (a : α) : P α := fun s => .ok a s

/-- Sequencing with the `?` operator. -/
@[inline] protected def bind {α β} (m : P α) (f : α → P β) : P β := fun s =>
  match m s with
  | .ok a s' => f a s'
  | .err e s' => .err e s'
  | .panic => .panic
  | .diverge => .diverge

instance : Monad P where
  pure := P.pure
  bind := P.bind

/-- `return Err(e)`. -/
def fail {α} (e : Error) : P α := fun s => .err e s

/-- A panic: failing slice index, arithmetic underflow or `unreachable!()`. -/
def panic {α} : P α := fun _ => .panic

/-- Reading the parser state. -/
def get {α} (f : St → α) : P α := fun s => .ok (f s) s

/-- Assigning to fields of `self.context`. -/
def modC (f : Ctx → Ctx) : P Unit := fun s => .ok () { s with ctx := f s.ctx }

/-- `let _ = m;` on a `Result`: the error is discarded (src/lib.rs:699). -/
def ignoreErr {α} (m : P α) : P Unit := fun s =>
  match m s with
  | .ok _ s' => .ok () s'
  | .err _ s' => .ok () s'
  | .panic => .panic
  | .diverge => .diverge

/-- Short-circuit `a && b`. -/
def and (a b : P Bool) : P Bool := do if ← a then b else pure false

/-- Short-circuit `a || b`. -/
def or (a b : P Bool) : P Bool := do if ← a then pure true else b

/-- `!a`. -/
def not (a : P Bool) : P Bool := do return !(← a)

/-- `if c { m }`. -/
def when (c : P Bool) (m : P Unit) : P Unit := do if ← c then m else pure ()

/-- Unwrapping an `Option` where `None` is a Rust panic. -/
def ofOption {α} (o : Option α) : P α := fun s =>
  match o with
  | some a => .ok a s
  | none => .panic

end P

/-- Number of `next_item` calls the parser can still make before `ParseAfterEoF`, counting
comments.  Used as loop fuel. -/
def mu (s : St) : Nat := s.rest.length + (if s.foundEof then 0 else 1)

/-- `loop`/`while` with an iteration bound. -/
def loopN {σ α : Type} : Nat → (σ → P (Option α)) → (σ → P (σ ⊕ α)) → σ → P α
  | 0, _, _, _ => fun _ => .diverge
  | n + 1, test, body, x => do
    match ← test x with
    | some a => pure a
    | none =>
      match ← body x with
      | .inl x' => loopN n test body x'
      | .inr a => pure a

/-- `loop`/`while`.  `test x` is the exit test at the head of the loop (`some a` leaves with
`a`); `body x` is one iteration and returns `.inl x'` to go round again or `.inr a` for a
`break`/`return` in the middle.  The bound is one more than the number of items left, so the
model diverges as soon as some iteration fails to consume an item. -/
def loopP {σ α : Type} (test : σ → P (Option α)) (body : σ → P (σ ⊕ α)) (x : σ) : P α :=
  fun s => loopN (mu s + 1) test body x s

/-- `while !cond { body }` over an accumulator. -/
def untilP {σ : Type} (cond : P Bool) (body : σ → P σ) (x : σ) : P σ :=
  loopP (fun x => do if ← cond then pure (some x) else pure none)
    (fun x => do return .inl (← body x)) x

/-! ## The line table and positions -/

/-- The loop of `get_lines` (src/lib.rs:339-388) over the remaining characters.
`lineStart` is `line_start`, `pos` is `byte_position`. -/
def getLinesGo : Txt → Nat → Nat → List Line × Nat
  | [], lineStart, _ => ([], lineStart)
  | c :: t, lineStart, pos =>
    let next := pos + c.utf8Size
    if c = '\r' then
      -- 347: `text.get(byte_position..byte_position + 2)`
      match takeB (c :: t) 2 with
      | some two =>
        if two = ['\r', '\n'] then getLinesGo t lineStart next
        else
          let r := getLinesGo t (pos + 1) next
          ({ start := lineStart, stop := pos } :: r.1, r.2)
      | none => getLinesGo t lineStart next
    else if c = '\n' then
      let r := getLinesGo t (pos + 1) next
      ({ start := lineStart, stop := pos } :: r.1, r.2)
    else if c = '\u2028' ∨ c = '\u2029' then
      let r := getLinesGo t (pos + 3) next
      ({ start := lineStart, stop := pos + 2 } :: r.1, r.2)
    else getLinesGo t lineStart next

/-- `get_lines` (src/lib.rs:332-396). -/
def getLines (text : Txt) : List Line :=
  let r := getLinesGo text 0 0
  r.1 ++ [{ start := r.2, stop := blen text - 1 }]

/-- The inner function `search` of `get_item_position` (src/lib.rs:4461-4473).  `none` is the
panic on an empty slice (`lines[half - 1]` with `half = 0`).  The first argument bounds the
recursion; `getItemPosition` passes the length of the table, which halves at each step. -/
def search : Nat → List Line → Nat → Nat → Option (Nat × Line)
  | _, [], _, _ => none
  | _, [l], _, index => some (index, l)
  | 0, _ :: _ :: _, _, _ => none
  | fuel + 1, lines@(_ :: _ :: _), start, index =>
    let half := lines.length / 2
    match lines[half - 1]? with
    | none => none
    | some l =>
      if l.stop > start then search fuel (lines.take half) start index
      else search fuel (lines.drop half) start (index + half)

/-- `get_item_position` (src/lib.rs:4455-4480); only `item.span.start` is read. -/
def getItemPosition (lines : List Line) (start : Nat) : Option Position :=
  match search lines.length lines start 0 with
  | none => none
  | some (idx, line) => some { line := idx + 1, column := start - line.start }

/-- `update_positions` (src/lib.rs:4206-4236); `none` is a panic (bad slice or underflow of the
subtraction in line 4212). Returns the new `(current_position, look_ahead_position)`. -/
def updatePositions (stream : Txt) (lookPos : Position) (span : Span) (nextStart : Nat) :
    Option (Position × Position) := do
  let prev ← sliceB stream span.start nextStart
  let ws ← sliceB stream span.stop nextStart
  let terms := prev.countP isLineTerm
  let crlf := countCrlf ws
  if terms < crlf then none
  else if terms - crlf = 0 then
    some (lookPos, { lookPos with column := lookPos.column + blen prev })
  else
    let lastLineLen :=
      match prev.getLast? with
      | some c => if isLineTerm c then 0 else blen (afterLastLf prev)
      | none => 0
    some (lookPos, { line := lookPos.line + (terms - crlf), column := lastLineLen })

/-! ## Errors -/

/-- `expected_token_error` (src/lib.rs:4482-4502). -/
def expectedTokenError {α} (item : Item) (expectation : List Expect) : P α := fun s =>
  match getItemPosition s.lines item.span.start with
  | none => .panic
  | some pos => .err (.unexpectedToken pos (.expected expectation item.token)) s

/-- `unexpected_token_error` (src/lib.rs:4503-4513). -/
def unexpectedTokenError {α} (item : Item) (msg : Txt) : P α := fun s =>
  match getItemPosition s.lines item.span.start with
  | none => .panic
  | some pos =>
    let name := (sliceB s.stream item.span.start item.span.stop).getD []
    .err (.unexpectedToken pos (.unexpected name msg)) s

/-- `self.expected_token_error(&self.look_ahead, ..)`. -/
def expectedLook {α} (expectation : List Expect) : P α := fun s =>
  expectedTokenError s.look expectation s

/-- `self.unexpected_token_error(&self.look_ahead, ..)`. -/
def unexpectedLook {α} (msg : Txt) : P α := fun s => unexpectedTokenError s.look msg s

/-- `Err(self.op_error(msg))` (src/lib.rs:4523-4525). -/
def opError {α} (msg : Txt) : P α := fun s => .err (.operationError s.curPos msg) s

/-- `Err(self.redecl_error(name))` (src/lib.rs:4526-4528). -/
def redeclError {α} (name : Txt) : P α := fun s => .err (.redecl s.curPos name) s

/-- `Err(self.reinterpret_error(from, to))` (src/lib.rs:4529-4531). -/
def reinterpretError {α} (from_ to : Txt) : P α :=
  fun s => .err (.unableToReinterpret s.curPos from_ to) s

/-- `if !self.config.tolerant { return m; }` where `m` builds an error: `m` has no successful
outcome, which its type records. -/
def ifNotTolerant (m : P Empty) : P Unit := fun s =>
  if s.tolerant then .ok () s
  else match m s with
    | .ok a _ => nomatch a
    | .err e s' => .err e s'
    | .panic => .panic
    | .diverge => .diverge

/-- `tolerate_error` (src/lib.rs:4514-4522). -/
def tolerateError (e : Error) : P Unit := ifNotTolerant (P.fail e)

/-! ## Token access -/

/-- `get_string` (src/lib.rs:4449-4451). -/
def getString (item : Item) : P Txt := fun s =>
  match sliceB s.stream item.span.start item.span.stop with
  | some t => .ok t s
  | none => .err (.operationError s.curPos t!"Unable to get string") s

/-- `self.scanner.string_for(&item.span).unwrap_or(String::new())`. -/
def stringForOrEmpty (item : Item) : P Txt := P.get fun s =>
  (sliceB s.stream item.span.start item.span.stop).getD []

/-- `&self.scanner.stream[item.span.start..item.span.end]`, which panics on a bad slice. -/
def streamSlice (item : Item) : P Txt := fun s =>
  match sliceB s.stream item.span.start item.span.stop with
  | some t => .ok t s
  | none => .panic

/-- The loop of `next_item` (src/lib.rs:4160-4204) over the items the scanner still has;
`span` is `look_ahead_span`. -/
def nextItemGo (span : Span) : List Tok → St → Res Item
  | [], s =>
    let s := { s with rest := [], ctx := { s.ctx with hasLineTerm := s.pendEnd } }
    if s.look.token.isEof then
      if s.foundEof then .err .parseAfterEoF s
      else .ok s.look { s with foundEof := true }
    else .err .unexpectedEoF s
  | t :: ts, s =>
    let s := { s with rest := ts, ctx := { s.ctx with hasLineTerm := t.nl } }
    match updatePositions s.stream s.lookPos span t.item.span.start with
    | none => .panic
    | some (cur, look) =>
      let s := { s with curPos := cur, lookPos := look }
      match t.item.token with
      | .comment kind =>
        match sliceB s.stream t.item.span.start t.item.span.stop with
        | none => .err (.operationError s.curPos t!"Unable to get string") s
        | some c =>
          nextItemGo t.item.span ts
            { s with comments := s.comments ++ [(kind, c, t.item.span)] }
      | _ => .ok s.look { s with look := t.item }

/-- `next_item` (src/lib.rs:4160-4204). -/
def nextItem : P Item := fun s => nextItemGo s.look.span s.rest s

/-- Consume an item and discard it: `let _ = self.next_item()?;`. -/
def skipItem : P Unit := do let _ ← nextItem

/-- Reading `self.context`. -/
def readC {α} (f : Ctx → α) : P α := P.get fun s => f s.ctx

/-- Reading `self.context.is_module`. -/
def readModule : P Bool := P.get (·.isModule)

/-- `self.look_ahead`. -/
def look : P Item := P.get (·.look)

/-- `self.look_ahead.token`. -/
def lookTok : P Token := P.get (·.look.token)

/-- `self.look_ahead_position`. -/
def lookPos : P Position := P.get (·.lookPos)

/-- `self.current_position`. -/
def curPos : P Position := P.get (·.curPos)

/-- `self.look_ahead.token.<pred>()`. -/
def lookIs (f : Token → Bool) : P Bool := P.get fun s => f s.look.token

/-- `at_punct` (src/lib.rs:4317-4319). -/
def atPunct (p : Punct) : P Bool := lookIs (·.matchesPunct p)

/-- `at_keyword` (src/lib.rs:4321-4323). -/
def atKeyword (k : Keyword) : P Bool := lookIs (·.matchesKeyword k)

/-- `at_contextual_keyword` (src/lib.rs:4390-4394). -/
def atContextual (t : Txt) : P Bool := do return (← streamSlice (← look)) == t

/-- `expect_punct` (src/lib.rs:4240-4246). -/
def expectPunct (p : Punct) : P Unit := do
  let next ← nextItem
  if !next.token.matchesPunct p then expectedTokenError next [.punct p] else pure ()

/-- `expect_keyword` (src/lib.rs:4250-4256). -/
def expectKeyword (k : Keyword) : P Unit := do
  let next ← nextItem
  if !next.token.matchesKeyword k then expectedTokenError next [.keyword k] else pure ()

/-- `at_return_arg` (src/lib.rs:4258-4265). -/
def atReturnArg : P Bool := do
  if ← readC (·.hasLineTerm) then
    lookIs fun t => t.isString || t.isTemplate
  else
    lookIs fun t => !t.matchesPunct .semiColon && !t.matchesPunct .closeBrace && !t.isEof

/-- The item `scanner.next()` returns after `scanner.skip_comments()`; the state is put back
with `set_state` by both callers, so this is a read. -/
def peekSkipComments (rest : List Tok) : Option Item :=
  match rest with
  | [] => none
  | t :: ts => if t.item.token.isComment then peekSkipComments ts else some t.item

/-- `at_import_call` (src/lib.rs:4267-4282). -/
def atImportCall : P Bool := P.get fun s =>
  s.look.token.matchesKeyword .import &&
    match peekSkipComments s.rest with
    | some next => next.token.matchesPunct .openParen
    | none => false

/-- `at_qualified_prop_key` (src/lib.rs:4284-4295). -/
def atQualifiedPropKey : P Bool := lookIs fun t =>
  match t with
  | .ident | .string | .boolean _ | .numeric | .null | .keyword _ => true
  | .punct p => p == .openBracket
  | _ => false

/-- `at_lexical_decl` (src/lib.rs:4301-4315). -/
def atLexicalDecl : P Bool := P.get fun s =>
  match peekSkipComments s.rest with
  | some next =>
    next.token.isIdent || next.token.matchesPunct .openBracket ||
      next.token.matchesPunct .openBrace || next.token.matchesKeyword .let ||
      next.token.matchesKeyword .yield
  | none => false

/-- `at_assign` (src/lib.rs:4326-4353). -/
def atAssign : P Bool := lookIs fun t =>
  t.matchesPunct .assign || t.matchesPunct .multiplyAssign || t.matchesPunct .exponentAssign ||
    t.matchesPunct .divideAssign || t.matchesPunct .moduloAssign || t.matchesPunct .addAssign ||
    t.matchesPunct .subtractAssign || t.matchesPunct .leftShiftAssign ||
    t.matchesPunct .rightShiftAssign || t.matchesPunct .unsignedRightShiftAssign ||
    t.matchesPunct .addAssign || t.matchesPunct .bitwiseOrAssign ||
    t.matchesPunct .bitwiseXOrAssign || t.matchesPunct .bitwiseAndAssign

/-- `self.scanner.look_ahead()`: the next item of the scanner without consuming it; unlike
`next_item` it does not skip comments. -/
def scanPeek : P (Option Item) := P.get fun s => s.rest.head?.map (·.item)

/-- `self.get_item_position(item)` (src/lib.rs:4455-4480). -/
def positionOf (item : Item) : P Position := fun s =>
  match getItemPosition s.lines item.span.start with
  | some p => .ok p s
  | none => .panic

/-- `at_async_function` (src/lib.rs:4357-4373). -/
def atAsyncFunction : P Bool := do
  if ← atContextual t!"async" then
    match ← scanPeek with
    | some peek =>
      let pos ← lookPos
      let nextPos ← positionOf peek
      return pos.line == nextPos.line && peek.token.matchesKeyword .function
    | none => pure false
  else pure false

/-- `consume_semicolon` (src/lib.rs:4378-4387). -/
def consumeSemicolon : P Unit := do
  if ← atPunct .semiColon then skipItem
  else if ← readC (·.hasLineTerm) then pure ()
  else if ← lookIs (fun t => !t.isEof && !t.matchesPunct .closeBrace) then
    expectedLook [.text t!"`;`", .text t!"`eof`", .text t!"`}`"]
  else pure ()

/-- `item.token.is_restricted()` of `ress`. -/
def isRestrictedTok (item : Item) : P Bool := P.get fun s =>
  s.ext.isRestricted item.token ((sliceB s.stream item.span.start item.span.stop).getD [])

/-- `tok.is_strict_reserved()` of `ress`. -/
def isStrictReservedTok (t : Token) : P Bool := P.get fun s => s.ext.isStrictReserved t

/-- `tok.is_literal()` of `ress`. -/
def isLiteralTok (t : Token) : P Bool := P.get fun s => s.ext.isLiteral t

/-- `is_restricted_word` (src/lib.rs:4398-4400). -/
def isRestrictedWord (w : Txt) : Bool := w == t!"eval" || w == t!"arguments"

/-- `is_strict_reserved` (src/lib.rs:4403-4413). -/
def isStrictReservedWord (w : Txt) : Bool :=
  w == t!"implements" || w == t!"interface" || w == t!"package" || w == t!"private" ||
    w == t!"protected" || w == t!"public" || w == t!"static" || w == t!"yield" || w == t!"let"

/-- `is_start_of_expr` (src/lib.rs:4417-4447). -/
def isStartOfExpr : P Bool := lookIs fun t =>
  match t with
  | .punct p =>
    p == .openBracket || p == .openParen || p == .openBracket || p == .plus || p == .minus ||
      p == .not || p == .bitwiseNot || p == .increment || p == .decrement
  | .keyword k =>
    k == .class || k == .delete || k == .function || k == .let || k == .new || k == .super ||
      k == .this || k == .typeOf || k == .void || k == .yield
  | _ => true

/-! ## Context updates -/

/-- The save/run/restore idiom on `self.context`: remember the context, apply `set`, run `m` and,
if it succeeds, apply `restore` with the remembered context.  As in the source, nothing is
restored when `m` fails. -/
def inScope {α} (set : Ctx → Ctx) (restore : Ctx → Ctx → Ctx) (m : P α) : P α := do
  let c ← readC id
  P.modC set
  let r ← m
  P.modC (restore c)
  pure r

/-- `isolate_cover_grammar` (src/lib.rs:4117-4124) and `inherit_cover_grammar` (4149-4156), which
have the same effect. -/
def freshCover (c : Ctx) : Ctx :=
  { c with isBindingElement := true, isAssignmentTarget := true, firstCovert := none }

/-- `set_isolate_cover_grammar_state` (src/lib.rs:4100-4114); `c` is the remembered context. -/
def isolateCover (c x : Ctx) : Ctx :=
  { x with isBindingElement := c.isBindingElement, isAssignmentTarget := c.isAssignmentTarget,
           firstCovert := c.firstCovert }

/-- `set_inherit_cover_grammar_state` (src/lib.rs:4135-4146); `c` is the remembered context. -/
def inheritCover (c x : Ctx) : Ctx :=
  { x with isBindingElement := x.isBindingElement && c.isBindingElement
           isAssignmentTarget := x.isAssignmentTarget && c.isAssignmentTarget
           firstCovert := if c.firstCovert.isSome then c.firstCovert else x.firstCovert }

/-- `let prev = self.isolate_cover_grammar(); let r = m?; self.set_isolate_..(prev)?; r`
(e.g. src/lib.rs:1001-1003). -/
def isolated {α} (m : P α) : P α := inScope freshCover isolateCover m

/-- `let prev = self.inherit_cover_grammar(); let r = m?; self.set_inherit_..(prev); r`
(e.g. src/lib.rs:1309-1311). -/
def inherited {α} (m : P α) : P α := inScope freshCover inheritCover m

/-- `self.context.is_assignment_target = false; self.context.is_binding_element = false;`. -/
def notTarget : P Unit :=
  P.modC fun x => { x with isAssignmentTarget := false, isBindingElement := false }

/-- Save `allow_in`, set it to `b`, run, restore (e.g. src/lib.rs:1219-1222). -/
def withAllowIn {α} (b : Bool) (m : P α) : P α :=
  inScope (fun c => { c with allowIn := b }) (fun c x => { x with allowIn := c.allowIn }) m

/-- Save `in_iteration`, set it to `b`, run, restore (src/lib.rs:1415-1420, 1427-1430). -/
def withIteration {α} (b : Bool) (m : P α) : P α :=
  inScope (fun c => { c with inIteration := b })
    (fun c x => { x with inIteration := c.inIteration }) m

/-- Save `in_iteration`, run, restore, without setting it (src/lib.rs:965-967). -/
def savingIteration {α} (m : P α) : P α :=
  inScope id (fun c x => { x with inIteration := c.inIteration }) m

/-- Save `in_switch`, set it, run, restore (src/lib.rs:1081-1099). -/
def withSwitch {α} (m : P α) : P α :=
  inScope (fun c => { c with inSwitch := true }) (fun c x => { x with inSwitch := c.inSwitch }) m

/-- Save `strict`, set it, run, restore (src/lib.rs:1782-1810). -/
def withStrict {α} (m : P α) : P α :=
  inScope (fun c => { c with strict := true }) (fun c x => { x with strict := c.strict }) m

/-- Save `strict` and `allow_strict_directive`, set the latter to `simple`, run, restore both
(src/lib.rs:1729-1742, 2113-2124, 2174-2188). -/
def withDirective {α} (simple : Bool) (m : P α) : P α :=
  inScope (fun c => { c with allowStrictDirective := simple })
    (fun c x => { x with strict := c.strict, allowStrictDirective := c.allowStrictDirective }) m

/-- Save `strict`, run, restore it, and then set `allow_strict_directive` to `simple` without
restoring it (src/lib.rs:2759-2770). -/
def leakDirective {α} (simple : Bool) (m : P α) : P α :=
  inScope id (fun c x => { x with strict := c.strict, allowStrictDirective := simple }) m

/-- Save `await` and `allow_yield`, set them, run, restore both (src/lib.rs:1721-1744,
2036-2043, 2732-2772). -/
def withAwaitYield {α} (await yield_ : Bool) (m : P α) : P α :=
  inScope (fun c => { c with await := await, allowYield := yield_ })
    (fun c x => { x with await := c.await, allowYield := c.allowYield }) m

/-- Save `allow_yield`, set it to `b`, run, restore (src/lib.rs:2056-2060, 2130-2134,
2908-2913, 3396-3405). -/
def withYield {α} (b : Bool) (m : P α) : P α :=
  inScope (fun c => { c with allowYield := b }) (fun c x => { x with allowYield := c.allowYield }) m

/-- Save `allow_yield`, run, restore, without setting it (src/lib.rs:2092-2099). -/
def savingYield {α} (m : P α) : P α :=
  inScope id (fun c x => { x with allowYield := c.allowYield }) m

/-- `self.context.allow_yield = b;`. -/
def setYield (b : Bool) : P Unit := P.modC fun x => { x with allowYield := b }

/-- Save the four fields, enter a function body, run, restore (src/lib.rs:1758-1776). -/
def withFunctionBody {α} (m : P α) : P α :=
  inScope (fun c => { c with labelSet := [], inIteration := false, inSwitch := false,
                             inFunctionBody := true })
    (fun c x => { x with labelSet := c.labelSet, inIteration := c.inIteration,
                         inSwitch := c.inSwitch, inFunctionBody := c.inFunctionBody }) m

/-- `label_set.insert("$id")`, failing with `Redecl` if it was present; run; `label_set.remove`
(src/lib.rs:1490-1513). -/
def withLabel {α} (id : Txt) (m : P α) : P α := do
  if ← readC (fun c => c.labelSet.contains ('$' :: id)) then redeclError id
  else
    P.modC fun c => { c with labelSet := ('$' :: id) :: c.labelSet }
    let r ← m
    P.modC fun c => { c with labelSet := c.labelSet.filter (fun l => l != '$' :: id) }
    pure r

end Ressa
