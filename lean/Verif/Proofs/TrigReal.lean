import Verif.Model.Trig
import Mathlib.Analysis.SpecialFunctions.Trigonometric.Basic

/-!
# The cosine
-/

namespace Interp.Smolyak

/-- The functions used by `s_n`, in exact arithmetic. -/
noncomputable instance : Trig ℝ where
  cos := Real.cos
  pi := Real.pi
  tol := 1 / 10 ^ 14

/-- For the examples in rational numbers; they use no cosine. -/
instance : Trig ℚ where
  cos := fun _ => 0
  pi := 0
  tol := 1 / 10 ^ 14

end Interp.Smolyak
