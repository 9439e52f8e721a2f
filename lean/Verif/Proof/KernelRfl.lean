import Lean.Elab.Tactic.Basic
import Lean.Meta.AppBuilder

/-!
`kernel_rfl` closes `a = b` by `Eq.refl b` without looking at it: only the kernel computes both sides.
-/

open Lean Elab Tactic Meta in
elab "kernel_rfl" : tactic => do
  let g ← getMainGoal
  let t ← instantiateMVars (← g.getType)
  let some (_, _, rhs) := t.eq? | throwError "kernel_rfl: the goal is not an equation"
  g.assign (← mkEqRefl rhs)
