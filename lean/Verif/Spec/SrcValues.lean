import Verif.Spec.PyRun
import Verif.Model.Codegen

/-!
# Python values of the arguments of the spline functions
-/

namespace Interp.Spec.PySrc
open Interp
open Interp.Codegen (GridDim)

variable {K : Type}

/-- `v` is the axis `g`: a tuple `(a, b, n)`, or an array of the heap. -/
def AxisVal (h : Heap K) (v : Val K) : GridDim K → Prop
  | .uniform a b n => v = .tup [.flt a, .flt b, .int (n : ℤ)]
  | .array gc => ∃ r, v = .arr r [none] ∧ HasVec h r gc

/-- `v` is not a view of array `r`. -/
def Other (r : ℕ) (v : Val K) : Prop := ∀ r' pat, v = .arr r' pat → r' ≠ r

end Interp.Spec.PySrc
