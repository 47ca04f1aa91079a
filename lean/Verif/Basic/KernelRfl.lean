import Lean.Elab.Tactic.Basic
/-! # `kernel_rfl`

Closes a goal `a = b` with `Eq.refl a` and leaves the comparison of the two sides to the kernel, which evaluates both when
the declaration is added. Nothing is trusted beyond the kernel: if the sides do not evaluate to the same value, the
declaration is rejected. -/

open Lean Elab Tactic Meta in
/-- Close `a = b` by evaluation in the kernel. -/
elab "kernel_rfl" : tactic => do
  let g ← getMainGoal
  let t ← instantiateMVars (← g.getType)
  match t.consumeMData.eq? with
  | some (α, a, _) => g.assign (mkApp2 (mkConst ``Eq.refl [← getLevel α]) α a)
  | none => throwError "kernel_rfl: not an equation"
