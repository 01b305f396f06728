import Verif.Model.Api

/-!
# Histories of public calls

What a user of the crate can do with a parser: build it, and then call `next`, `parse` and
`parse_expression` in any order and any number of times, also after errors.
-/

namespace Ressa

/-- The public operations on a parser, as a relation between the states before and after.
A call that panics has no state after it. -/
inductive Call : St → St → Prop
  | nextOk {s o s'} : next s = .ok o s' → Call s s'
  | nextErr {s e s'} : next s = .err e s' → Call s s'
  | parseOk {s p s'} : parse s = .ok p s' → Call s s'
  | parseErr {s e s'} : parse s = .err e s' → Call s s'
  | exprOk {s x s'} : full.expression s = .ok x s' → Call s s'
  | exprErr {s e s'} : full.expression s = .err e s' → Call s s'

/-- Any number of calls. -/
inductive Calls : St → St → Prop
  | refl {s} : Calls s s
  | tail {a b c} : Calls a b → Call b c → Calls a c

/-- The states a user can bring a parser into. -/
def Reachable (L : Lexer) (b : Builder) (s : St) : Prop :=
  ∃ s0, b.build L = .ok () s0 ∧ Calls s0 s

/-- The results of calling `next` again and again: `Some(Ok(p))` is `.ok (some p)`, `None` is
`.ok none` and `Some(Err(e))` is `.err e`. -/
inductive Outcome (α : Type)
  | ok (a : α)
  | err (e : Error)
  | panic
  | diverge

/-- The call succeeded. -/
def Outcome.isOk {α : Type} : Outcome α → Bool
  | .ok _ => true
  | _ => false

/-- The error a call returned. -/
def Outcome.error? {α : Type} : Outcome α → Option Error
  | .err e => some e
  | _ => none

/-- What a call returned. -/
def Res.outcome {α : Type} : Res α → Outcome α
  | .ok a _ => .ok a
  | .err e _ => .err e
  | .panic => .panic
  | .diverge => .diverge

/-- `Collects s ps s'`: the calls of `next` starting in `s` return `Some(Ok(p))` for the `p` in
`ps`, in that order, and leave the parser in `s'`. -/
inductive Collects : St → List ProgramPart → St → Prop
  | nil {s} : Collects s [] s
  | cons {s p s1 ps s'} : next s = .ok (some p) s1 → Collects s1 ps s' → Collects s (p :: ps) s'

/-- `ps` are the parts that a new parser returns by its first calls of `next`, none of which has
failed.  The parts of a successful `parse` are of this form. -/
def Yields (L : Lexer) (b : Builder) (ps : List ProgramPart) : Prop :=
  ∃ s s', b.build L = .ok () s ∧ Collects s ps s'

end Ressa
