import Lean

/-!
# Evaluation by the kernel

`kernel_rfl` closes `a = b` with the term `Eq.refl a` and leaves the conversion check to the
kernel, which evaluates the model on the concrete input.  It adds no axiom.
-/

open Lean Elab Tactic Meta in
/-- Close `a = b` by `Eq.refl a`, checked by the kernel only. -/
elab "kernel_rfl" : tactic => do
  let g ← getMainGoal
  let t ← instantiateMVars (← g.getType)
  let some (_, a, _) := t.eq? | throwError "not an equation"
  g.assign (← mkEqRefl a)
