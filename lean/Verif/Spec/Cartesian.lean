import Verif.Model.Basic
import Mathlib.Algebra.Field.Defs
import Mathlib.Data.List.Basic

/-! Vocabulary for cartesian products and regular grids. -/

namespace Interp.Spec

variable {K : Type}

/-- Row number `r` of a matrix. -/
def rowOf (A : NdArray K) (r : ℕ) : List K :=
  (List.range (A.shape.getD 1 0)).map fun c => A.get [r, c]

/-- The rows of a matrix. -/
def rowsOf (A : NdArray K) : List (List K) := (List.range (A.shape.getD 0 0)).map (rowOf A)

/-- The combination of nodes with multi-index `idx`. -/
def pick [Zero K] (nodes : List (List K)) (idx : List ℕ) : List K :=
  List.zipWith (fun x i => x.getD i 0) nodes idx

/-- The point with multi-index `idx` of the regular grid with bounds `a`, `b`. -/
def linPoint {F : Type} [Field F] (a b : List F) (nums : List ℤ) (idx : List ℕ) : List F :=
  (List.range nums.length).map fun i =>
    a.getD i 0 + (idx.getD i 0 : F) * ((b.getD i 0 - a.getD i 0) / ((nums.getD i 0 : F) - 1))

end Interp.Spec
