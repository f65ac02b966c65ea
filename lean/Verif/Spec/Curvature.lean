import Mathlib.Analysis.Calculus.Deriv.Basic

/-! Functions with derivatives on an interval. -/

namespace Interp.Spec
open Set

/-- `f` has the continuous second derivative `f''` on `[a, b]`. -/
structure C2On (a b : ℝ) (f f' f'' : ℝ → ℝ) : Prop where
  first : ∀ t ∈ Icc a b, HasDerivWithinAt f (f' t) (Icc a b) t
  second : ∀ t ∈ Icc a b, HasDerivWithinAt f' (f'' t) (Icc a b) t
  cont : ContinuousOn f'' (Icc a b)

/-- `f` has the continuous derivative `f'` on `[a, b]`. -/
structure C1On (a b : ℝ) (f f' : ℝ → ℝ) : Prop where
  first : ∀ t ∈ Icc a b, HasDerivWithinAt f (f' t) (Icc a b) t
  cont : ContinuousOn f' (Icc a b)

/-- `f1, …, f4` are the first four derivatives of `f` on `[a, b]`. -/
structure Four (a b : ℝ) (f f1 f2 f3 f4 : ℝ → ℝ) : Prop where
  d1 : ∀ t ∈ Icc a b, HasDerivWithinAt f (f1 t) (Icc a b) t
  d2 : ∀ t ∈ Icc a b, HasDerivWithinAt f1 (f2 t) (Icc a b) t
  d3 : ∀ t ∈ Icc a b, HasDerivWithinAt f2 (f3 t) (Icc a b) t
  d4 : ∀ t ∈ Icc a b, HasDerivWithinAt f3 (f4 t) (Icc a b) t

end Interp.Spec
