import Verif.Model.Hermite

/-! Data of a Hermite spline. -/

namespace Interp.Spec

/-- Strictly increasing abscissae (at least two), one value and one tangent for each. -/
structure HermiteData {F : Type} [LT F] (x y yp : List F) : Prop where
  two : 2 ≤ x.length
  sorted : x.Pairwise (· < ·)
  values : y.length = x.length
  tangents : yp.length = x.length

end Interp.Spec
