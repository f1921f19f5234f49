import Lean.Elab.Tactic.Basic
import Lean.Meta.AppBuilder

/-!
# Computations done by the kernel

`kernel_rfl` proves `a = b` by `Eq.refl a` and leaves it to the kernel to check that `a` and `b` compute to the same. (`decide +kernel` does the same,
but not for statements with variables.)
-/

open Lean Elab Tactic Meta in
elab "kernel_rfl" : tactic => do
  let g ← getMainGoal
  let t ← instantiateMVars (← g.getType)
  let some (_, a, _) := t.eq? | throwError "not an equation"
  g.assign (← mkEqRefl a)
