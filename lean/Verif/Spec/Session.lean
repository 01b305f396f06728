import Verif.Spec.Runs

/-!
# What a user sees of a parser

The results of a sequence of public calls, in the order of the calls.
-/

namespace Ressa

/-- The result of one call. -/
inductive Reply
  | nextOk (o : Option ProgramPart)
  | nextErr (e : Error)
  | parseOk (p : Program)
  | parseErr (e : Error)
  | exprOk (x : Expr)
  | exprErr (e : Error)

/-- `Session s rs s'`: calls made in the state `s` return `rs`, in that order, and leave the parser
in `s'`.  No call panics. -/
inductive Session : St → List Reply → St → Prop
  | nil {s} : Session s [] s
  | nextOk {s o s1 rs s'} : next s = .ok o s1 → Session s1 rs s' → Session s (.nextOk o :: rs) s'
  | nextErr {s e s1 rs s'} : next s = .err e s1 → Session s1 rs s' →
    Session s (.nextErr e :: rs) s'
  | parseOk {s p s1 rs s'} : parse s = .ok p s1 → Session s1 rs s' →
    Session s (.parseOk p :: rs) s'
  | parseErr {s e s1 rs s'} : parse s = .err e s1 → Session s1 rs s' →
    Session s (.parseErr e :: rs) s'
  | exprOk {s x s1 rs s'} : full.expression s = .ok x s1 → Session s1 rs s' →
    Session s (.exprOk x :: rs) s'
  | exprErr {s e s1 rs s'} : full.expression s = .err e s1 → Session s1 rs s' →
    Session s (.exprErr e :: rs) s'

end Ressa
