import Verif.Model.Stmt

/-!
# The recursion, the iterator and the constructors
-/

namespace Ressa

/-- One unfolding of the mutual recursion. -/
def step (R : Rec) : Rec where
  assign := assignExpr R
  expression := expression R
  unary := unaryExpr R
  expo := expoExpr R
  lhs := lhsExpr R
  stmt := statement R
  listItem := statementListItem R
  pattern := pattern R

/-- The parser with the recursion cut off after `n` nested calls. -/
def recN : Nat → Rec
  | 0 =>
    { assign := fun _ => .diverge
      expression := fun _ => .diverge
      unary := fun _ => .diverge
      expo := fun _ => .diverge
      lhs := fun _ => .diverge
      stmt := fun _ => .diverge
      listItem := fun _ => .diverge
      pattern := fun _ _ => .diverge }
  | n + 1 => step (recN n)

/-- The parser.  The nesting bound is one more than the number of items left in the state the
method is called in.  `Ressa.full_eq` (Verif.Proof.Fix) shows that the bound is invisible: `full`
satisfies the recursion equations of the source. -/
def full : Rec where
  assign := fun s => (recN (mu s + 1)).assign s
  expression := fun s => (recN (mu s + 1)).expression s
  unary := fun s => (recN (mu s + 1)).unary s
  expo := fun s => (recN (mu s + 1)).expo s
  lhs := fun s => (recN (mu s + 1)).lhs s
  stmt := fun s => (recN (mu s + 1)).stmt s
  listItem := fun s => (recN (mu s + 1)).listItem s
  pattern := fun k s => (recN (mu s + 1)).pattern k s

/-- `ProgramPart::Dir(_)`. -/
def isDir : ProgramPart → Bool
  | .dir _ _ => true
  | _ => false

/-- `next_part` (src/lib.rs:4533-4549). -/
def nextPart : P ProgramPart := do
  if ← P.and (readC (fun c => !c.pastProlog)) (lookIs (·.isString)) then
    let part ← directive full
    P.modC fun c => { c with pastProlog := !isDir part }
    pure part
  else
    P.modC fun c => { c with pastProlog := true }
    full.listItem

/-- `Iterator::next` (src/lib.rs:4557-4563).  `ok none` is `None`, `ok (some p)` is
`Some(Ok(p))` and `err e` is `Some(Err(e))`. -/
def next : P (Option ProgramPart) := do
  if ← lookIs (·.isEof) then pure none
  else
    let part ← nextPart
    return some part

/-- `Parser::parse` (src/lib.rs:496-510), with the call of `next` in the loop head unfolded. -/
def parse : P Program := do
  let body ← untilP (lookIs (·.isEof)) (fun acc => do return acc ++ [← nextPart]) []
  if ← readModule then return .mod body else return .script body

/-- The external scanner: `Scanner::new(text)` as the items it yields with the value of
`pending_new_line` before each, the value of `pending_new_line` after the last, and the token
predicates of `Ext`. -/
structure Lexer where
  ext : Ext
  scan : Txt → List Tok
  pendEnd : Txt → Bool

/-- A parser value before its first `next_item` (src/lib.rs:445-468), with `Context::default()`
(136-157) except `is_module`. -/
def initState (L : Lexer) (tolerant isModule : Bool) (text : Txt) (lines : List Line) : St :=
  { ext := L.ext
    tolerant := tolerant
    isModule := isModule
    stream := text
    lines := lines
    rest := L.scan text
    pendEnd := L.pendEnd text
    look := { token := .eof, span := { start := 0, stop := 0 } }
    foundEof := false
    curPos := { line := 1, column := 0 }
    lookPos := { line := 1, column := 0 }
    comments := []
    ctx := Ctx.default }

/-- `Parser::_new` (src/lib.rs:438-471); on `Ok` the returned parser is the final state. -/
def Parser._new (L : Lexer) (tolerant isModule : Bool) (text : Txt) (lines : List Line) :
    Res Unit :=
  skipItem (initState L tolerant isModule text lines)

/-- `Parser::build` (src/lib.rs:419-435). -/
def Parser.build (L : Lexer) (tolerant isModule : Bool) (text : Txt) (lines : List Line) :
    Res Unit :=
  Parser._new L tolerant isModule text lines

/-- `Parser::new` (src/lib.rs:405-411); `Config::default()` is not tolerant (73-86). -/
def Parser.new (L : Lexer) (text : Txt) : Res Unit :=
  Parser._new L false false text (getLines text)

/-- `Builder` (src/lib.rs:208-212). -/
structure Builder where
  tolerant : Bool
  isModule : Bool
  js : Txt
  deriving DecidableEq

namespace Builder

/-- `Builder::new` (src/lib.rs:215-221). -/
def new : Builder := ⟨false, false, []⟩

/-- `Builder::set_tolerant` and `Builder::tolerant` (src/lib.rs:224-233). -/
def setTolerant (b : Builder) (v : Bool) : Builder := { b with tolerant := v }

/-- `Builder::set_module` and `Builder::module` (src/lib.rs:236-245). -/
def setModule (b : Builder) (v : Bool) : Builder := { b with isModule := v }

/-- `Builder::set_js` and `Builder::js` (src/lib.rs:248-256). -/
def setJs (b : Builder) (js : Txt) : Builder := { b with js := js }

/-- `Builder::build` (src/lib.rs:259-265) and `Builder::with_comment_handler` (268-275): the
comment handler only receives the log `St.comments`. -/
def build (b : Builder) (L : Lexer) : Res Unit :=
  Parser.build L b.tolerant b.isModule b.js (getLines b.js)

end Builder

end Ressa
