import Verif.Spec.Runs
import Verif.Spec.KernelRfl

/-!
# Concrete inputs

Item lists for the examples that accompany the theorems.  `Demo.lexer ts` lays the given tokens
out one after the other, each preceded by a line feed or a space, and ends with the end of file.
-/

namespace Ressa.Demo

/-- A token to lay out: on a new line or not, its kind and its text. -/
structure Piece where
  nl : Bool
  token : Token
  text : Txt

/-- The text of the pieces. -/
def text : List Piece → Txt
  | [] => []
  | p :: ps => (if p.nl then '\n' else ' ') :: (p.text ++ text ps)

/-- The items of the pieces, from byte offset `n`. -/
def items : List Piece → Nat → List Tok
  | [], n => [⟨false, .eof, n, n⟩]
  | p :: ps, n =>
    ⟨p.nl, p.token, n + 1, n + 1 + blen p.text⟩ :: items ps (n + 1 + blen p.text)

/-- A choice of the token predicates of the scanner. -/
def ext : Ext where
  isRestricted _ _ := false
  isStrictReserved t := match t with
    | .keyword k => k == .implements || k == .interface || k == .package || k == .private ||
        k == .protected || k == .public || k == .static || k == .yield || k == .let
    | _ => false
  isLiteral t := match t with
    | .numeric | .string | .regex | .template _ | .boolean _ | .null => true
    | _ => false

/-- The scanner that yields the given pieces. -/
def lexer (ps : List Piece) : Lexer where
  ext := ext
  scan _ := items ps 0
  pendEnd _ := false

/-- An identifier. -/
def id (t : Txt) : Piece := ⟨false, .ident, t⟩
/-- A punctuator. -/
def p (p : Punct) (t : Txt) : Piece := ⟨false, .punct p, t⟩
/-- A keyword. -/
def k (k : Keyword) : Piece := ⟨false, .keyword k, k.text⟩
/-- A number. -/
def n (t : Txt) : Piece := ⟨false, .numeric, t⟩
/-- A string. -/
def str (t : Txt) : Piece := ⟨false, .string, t⟩
/-- The same piece on a new line. -/
def nl (p : Piece) : Piece := { p with nl := true }

/-- The builder for the pieces. -/
def builder (ps : List Piece) (tolerant := false) (isModule := false) : Builder :=
  ⟨tolerant, isModule, text ps⟩

/-- The parser right after construction. -/
def start (ps : List Piece) (tolerant := false) (isModule := false) : Res Unit :=
  (builder ps tolerant isModule).build (lexer ps)

/-- Build and parse. -/
def parse (ps : List Piece) (tolerant := false) (isModule := false) : Outcome Program :=
  match start ps tolerant isModule with
  | .ok _ s => (Ressa.parse s).outcome
  | .err e _ => .err e
  | .panic => .panic
  | .diverge => .diverge

/-- The state of the parser right after construction. -/
def state (ps : List Piece) (tolerant := false) (isModule := false) : St :=
  match start ps tolerant isModule with
  | .ok _ s => s
  | _ => (initState (lexer ps) tolerant isModule (text ps) [])

/-- The state after a successful or failing call. -/
def after {α : Type} (m : P α) (s : St) : St :=
  match m s with
  | .ok _ s' => s'
  | .err _ s' => s'
  | _ => s

end Ressa.Demo
