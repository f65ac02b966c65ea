import Verif.Spec.Grid

/-!
# What the coefficients of a natural cubic spline are

Independent description of the outcome of filtering, used in the statements about it.
-/

namespace Interp.Spec
open Interp.Codegen

variable {F : Type} [Field F] [LinearOrder F]

/-- Second difference zero at both ends of a line of `M + 2` coefficients. -/
def NaturalLine (M : ℕ) (c : ℕ → F) : Prop :=
  c 0 - 2 * c 1 + c 2 = 0 ∧ c (M - 1) - 2 * c M + c (M + 1) = 0

/-- Every line of coefficients in every direction is natural. `ms` are the numbers of data points
along the axes. -/
def NaturalCoefs (ms : List ℕ) (c : List ℕ → F) : Prop :=
  ∀ l1 M l2, ms = l1 ++ M :: l2 → ∀ pre post, InShape (l1.map (· + 2)) pre →
    InShape (l2.map (· + 2)) post → NaturalLine M (fun i => c (pre ++ i :: post))

/-- A legitimate filtering problem: a uniform grid in one to four dimensions, and data of the
corresponding shape, scalar (`vec = false`) or with `m` components. -/
structure FilterRequest (G : List (GridDim F)) (D : NdArray F) (vec : Bool) (m : ℕ) : Prop where
  grid : ValidGrid G
  uniform : ∀ g ∈ G, g.gtype = .uniform
  dim : G.length ≤ 4
  shape : D.shape = gridShape G ++ (if vec then [m] else [])

/-- Shape of the coefficients. -/
def coefsShape (G : List (GridDim F)) (vec : Bool) (m : ℕ) : List ℕ :=
  (G.map fun g => nNodes g + 2) ++ (if vec then [m] else [])

end Interp.Spec
