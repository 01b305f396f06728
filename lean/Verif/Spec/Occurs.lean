import Verif.Spec.Runs
import Verif.Spec.Tree
import Verif.Spec.Spell

/-!
# What a parser returns

Whatever the calls before, also failed ones.
-/

namespace Ressa
open Ressa.Tree

/-- The parser returns `n` to some call: a part to `next` or, as every part of a program is one
that `next` returns, to `parse`; or an expression to `parse_expression`.  The call may come after
any other calls, also failed ones. -/
inductive Returned (L : Lexer) (b : Builder) : Node → Prop
  | part {s p s'} : Reachable L b s → next s = .ok (some p) s' → Returned L b (.part p)
  | expression {s e s'} : Reachable L b s → full.expression s = .ok e s' → Returned L b (.expr e)

/-- `m` occurs in something that the parser returns. -/
def Occurs (L : Lexer) (b : Builder) (m : Node) : Prop := ∃ n, Returned L b n ∧ Sub m n

/-- No item of the text is `get`. -/
def NoGet (L : Lexer) (b : Builder) : Prop := ∀ t ∈ L.scan b.js, ¬ Source b.js t t!"get"

end Ressa
