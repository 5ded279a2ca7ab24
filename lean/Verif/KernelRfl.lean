import Lean.Elab.Tactic.Basic
import Lean.Meta.AppBuilder

/-!
# `kernel_rfl`

Closes a goal `a = b` with the proof term `Eq.refl b`, leaving the definitional equality check to Lean's
kernel (which computes with big natural numbers efficiently) instead of the elaborator.  It adds nothing to
the trusted base: if the kernel cannot verify the equality the declaration is rejected.
It is used to evaluate the float model on concrete inputs, for every `Cfg`.
-/

namespace Micromath
open Lean Elab Tactic Meta

elab "kernel_rfl" : tactic => do
  let g ← getMainGoal
  let t ← instantiateMVars (← g.getType)
  match t.eq? with
  | some (_, _, b) => g.assign (← mkEqRefl b)
  | none => throwError "kernel_rfl: the goal is not an equality"

end Micromath
