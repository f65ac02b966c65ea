import Lean

/-!
# Equations by evaluation in the kernel

`kernel_rfl` closes `a = b` with the proof `Eq.refl a`: the kernel evaluates both sides. (`rfl` would first evaluate
in the elaborator.)
-/

open Lean Elab Tactic Meta

elab "kernel_rfl" : tactic => liftMetaTactic fun g => do
  let some (α, a, _) := (← g.getType).eq? | throwError "not an equation"
  let u ← getLevel α
  g.assign (mkApp2 (mkConst ``Eq.refl [u]) α a)
  return []
