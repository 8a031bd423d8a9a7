import Lean
/- `kernel_rfl` closes `a = b` with `Eq.refl`, leaving the definitional check to the kernel alone
(the elaborator does not repeat it). -/
set_option autoImplicit false
open Lean Elab Tactic Meta in
elab "kernel_rfl" : tactic => do
  let g ← getMainGoal
  let t ← instantiateMVars (← g.getType)
  match t.eq? with
  | some (_, _, b) => g.assign (← mkEqRefl b)
  | none => throwError "kernel_rfl: not an equation"
