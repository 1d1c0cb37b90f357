import Lean.Elab.Tactic.Basic
import Lean.Meta.AppBuilder
/-!
# `krfl`: close `a = b` by `rfl`, checked by the kernel only

The elaborator's own check of definitional equality is slow on long computations; this tactic leaves the
whole check to the kernel.
-/
open Lean Elab Tactic Meta

elab "krfl" : tactic => liftMetaTactic fun g => do
  let t ← instantiateMVars (← g.getType)
  let some (_, a, _) := t.eq? | throwError "krfl: not an equation"
  g.assign (← mkEqRefl a)
  return []
