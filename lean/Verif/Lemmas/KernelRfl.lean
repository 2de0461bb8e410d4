import Lean.Elab.Tactic.Basic
import Lean.Meta.AppBuilder

/-!
A tactic that closes an equation by `Eq.refl`, leaving the comparison of the two sides to the kernel alone.
-/

namespace PyDice

open Lean Elab Tactic Meta in
/-- Close `a = b` with `Eq.refl a`; the kernel compares the sides when the theorem is added. -/
elab "krfl" : tactic => do
  let g ← getMainGoal
  let some (_, lhs, _) := (← instantiateMVars (← g.getType)).eq? | throwError "not an equation"
  g.assign (← mkEqRefl lhs)

end PyDice
