import Verif.Spec.Rounding
import Verif.Model.Trig
import Mathlib.Analysis.SpecialFunctions.Trigonometric.Basic

/-!
# Errors of `numpy.cos`, `numpy.pi` and of the literal `1e-14`
-/

namespace Interp.Spec
open Interp.Smolyak

/-- The constant has a relative error of at most `u`, the cosine an absolute error of at most `2 u` on
`[-4, 4]` (for doubles: less than two units in the last place), and the threshold is `1e-14` up to one percent. -/
structure TrigErr (R : Rounding) [Trig (Fl R)] : Prop where
  pi : |(Trig.pi : Fl R).val - Real.pi| ≤ R.u * Real.pi
  cos : ∀ x : Fl R, |x.val| ≤ 4 → |(Trig.cos x).val - Real.cos x.val| ≤ 2 * R.u
  tol : |(Trig.tol : Fl R).val - 1 / 10 ^ 14| ≤ 1 / 10 ^ 16

end Interp.Spec
