import Verif.Model.Text

/-!
# Lines of a text

ECMAScript line terminators: LF, CR, LS (U+2028), PS (U+2029); the sequence CR LF is one
terminator.  Written without reference to the line table of the parser.
-/

namespace Ressa

/-- The byte offsets at which a line starts, except the first line, for a text that begins at
byte offset `pos`. -/
def lineStarts : Txt → Nat → List Nat
  | [], _ => []
  | '\r' :: '\n' :: t, pos => (pos + 2) :: lineStarts t (pos + 2)
  | c :: t, pos =>
    if c = '\n' ∨ c = '\r' ∨ c = '\u2028' ∨ c = '\u2029' then
      (pos + c.utf8Size) :: lineStarts t (pos + c.utf8Size)
    else lineStarts t (pos + c.utf8Size)

/-- The line number of the end of a text, counting from 1. -/
def lineOf (p : Txt) : Nat := 1 + (lineStarts p 0).length

/-- The byte offset of the start of the last line of a text. -/
def startOfLine (p : Txt) : Nat := (lineStarts p 0).getLast?.getD 0

/-- The distance in bytes from the start of its line to the end of a text. -/
def columnOf (p : Txt) : Nat := blen p - startOfLine p

/-- Every carriage return is followed by a character that takes one byte.  Outside these texts
the line table misses a lone carriage return. -/
def CrOk (t : Txt) : Prop := ∀ a b, t = a ++ '\r' :: b → ∃ c u, b = c :: u ∧ c.utf8Size = 1

end Ressa
