import Lean.Elab.Tactic.Basic
import Lean.Meta.Tactic.AuxLemma
/-!
# A tactic: reflexivity checked by the kernel only

`kernel_rfl` closes `x = y` with `Eq.refl x`, which the kernel accepts if it can compute that both sides are the same. It is `rfl` without the
elaborator trying first, which is slow for long computations. It adds nothing to the trusted base: what it produces is checked like any proof.
-/
namespace Blake2
open Lean Elab Tactic Meta

/-- Close an equation by reflexivity, leaving the check to the kernel. -/
elab "kernel_rfl" : tactic => do
  let goal ← getMainGoal
  let target ← instantiateMVars (← goal.getType)
  let some (type, lhs, _) := target.eq? | throwError "kernel_rfl: not an equation"
  let proof := mkApp2 (mkConst ``Eq.refl [← getLevel type]) type lhs
  goal.assign (mkConst (← mkAuxLemma [] target proof))

/-- The characters of a literal. Evaluating `String.toList` in the kernel is slow, comparing literals is not. -/
theorem toList_of {s : String} {l : List Char} (h : s = String.ofList l) : s.toList = l := by rw [h, String.toList_ofList]

end Blake2
