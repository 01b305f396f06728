import Verif.Model.Token
import Verif.Model.State

/-!
# Balanced brackets

`Balanced ts`: reading the items from left to right with a stack, every closing bracket matches the
innermost open one and no bracket is left open.  Nothing but the kind of the items is looked at.
-/

namespace Ressa

/-- The three kinds of brackets. -/
inductive Bracket
  | paren | square | brace
  deriving DecidableEq, Repr

/-- The bracket an item opens. -/
def Token.opens : Token → Option Bracket
  | .punct .openParen => some .paren
  | .punct .openBracket => some .square
  | .punct .openBrace => some .brace
  | _ => none

/-- The bracket an item closes. -/
def Token.closes : Token → Option Bracket
  | .punct .closeParen => some .paren
  | .punct .closeBracket => some .square
  | .punct .closeBrace => some .brace
  | _ => none

/-- Is the item a bracket? -/
def Token.isBracket (t : Token) : Bool := t.opens.isSome || t.closes.isSome

/-- The brackets that are open after the items, given those that are open before; `none` if a
closing bracket does not match. -/
def openAfter : List Bracket → List Tok → Option (List Bracket)
  | st, [] => some st
  | st, t :: ts =>
    match t.item.token.opens, t.item.token.closes with
    | some b, _ => openAfter (b :: st) ts
    | none, none => openAfter st ts
    | none, some b =>
      match st with
      | [] => none
      | b' :: st => if b = b' then openAfter st ts else none

/-- Every bracket is matched. -/
def Balanced (ts : List Tok) : Prop := openAfter [] ts = some []

/-- Two items in a row such that neither is a bracket in the place of a name: no bracket follows a
dot, and modules import for effect or by a call, and export declarations. -/
def PlainPair (t t' : Token) : Prop :=
  (t = .punct .period → t'.isBracket = false) ∧
  (t = .keyword .import → t' = .punct .openParen ∨ t' = .string) ∧
  (t = .keyword .export → t' ≠ .punct .openBrace ∧ t' ≠ .punct .asterisk)

/-- No bracket stands in the place of a name or word: every bracket is spelled by one character,
and the items that are not comments form such pairs. -/
def PlainText (text : Txt) (toks : List Tok) : Prop :=
  (∀ t ∈ toks, t.item.token.isBracket = true →
    ∃ c, sliceB text t.item.span.start t.item.span.stop = some [c]) ∧
  ∀ pre t t' post, toks.filter (fun t => !t.item.token.isComment) = pre ++ t :: t' :: post →
    PlainPair t.item.token t'.item.token

end Ressa
