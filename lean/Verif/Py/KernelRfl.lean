import Lean.Elab.Tactic.Basic
import Lean.Meta.AppBuilder
/-!
# `kernel_rfl`

Proves `a = b` by `Eq.refl a`, leaving the comparison of `a` and `b` to the kernel (the elaborator does not try it first).
-/
namespace Verif.Py
open Lean Elab Tactic Meta

elab "kernel_rfl" : tactic => do
  let g ← getMainGoal
  let some (_, lhs, _) := (← g.getType).eq? | throwError "not an equation"
  g.assign (← mkEqRefl lhs)

end Verif.Py
