import Lean.Elab.Tactic.Basic
import Lean.Meta.AppBuilder
/-
`kernel_rfl` closes a goal `a = b` with `Eq.refl a`, leaving the comparison of `a` and `b` to the kernel (the elaborator's own check is too slow
on evaluations of whole programs).
-/
open Lean Elab Tactic Meta in
elab "kernel_rfl" : tactic => do
  let g ← getMainGoal
  let some (_, l, _) := (← instantiateMVars (← g.getType)).eq? | throwError "not an equation"
  g.assign (← mkEqRefl l)
