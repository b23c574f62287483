import Lean.Elab.Tactic.ElabTerm

/-!
# Equalities by evaluation in the kernel

`kernel_rfl` closes a goal `a = b` with `Eq.refl a`.  Unlike `rfl` it does not evaluate `a` and `b` itself: the kernel does when it checks
the theorem, and rejects the theorem if they differ.
-/

set_option autoImplicit false

namespace Langtag.Source
open Lean Elab Tactic

elab "kernel_rfl" : tactic => do
  let g ← getMainGoal
  let t ← instantiateMVars (← g.getType)
  match t.getAppFnArgs with
  | (``Eq, #[α, a, _]) =>
    let u ← Meta.getLevel α
    g.assign (mkApp2 (.const ``Eq.refl [u]) α a)
  | _ => throwError "kernel_rfl: not an equality"

/-- `kernel_exact h` closes a goal with `h`; whether its statement is the goal is left to the kernel. -/
elab "kernel_exact " e:term : tactic => do
  let g ← getMainGoal
  g.withContext do
    let v ← Tactic.elabTerm e none
    g.assign (← instantiateMVars v)

example : 2 + 2 = 4 := by kernel_rfl

end Langtag.Source
