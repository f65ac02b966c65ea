import Verif.Spec.Api

/-!
# The functions computed by a spline and its derivative requests

`SplineFamily k G C vec m V` says that `V orders x component` are the numbers `eval_spline` returns
in its default mode, for every point, every list of derivative orders and every way of calling it.
-/

namespace Interp.Spec
open Interp.Codegen

variable {K : Type} [Add K] [Sub K] [Mul K] [Div K] [Neg K] [Zero K] [One K] [NatCast K]
  [IntCast K] [LT K] [DecidableLT K] [BEq K] [IntFloor K]

structure SplineFamily (k : ℕ) (G : List (GridDim K)) (C : NdArray K) (vec : Bool) (m : ℕ)
    (V : List ℕ → List K → List ℕ → K) : Prop where
  /-- `V [0, …, 0]` are the values. -/
  value : ∀ x : List K, x.length = G.length →
    Returns k G C vec m none "linear" x (V (List.replicate G.length 0) x)
  /-- Requesting the orders `os`, the entry `[component, j]` is `V os[j]`. -/
  deriv : ∀ (os : List (List ℕ)) (x : List K), x.length = G.length → os ≠ [] →
    (∀ oo ∈ os, oo.length = G.length ∧ (k = 3 → ∀ l ∈ oo, l ≤ 1)) →
    Returns k G C vec m (some os) "linear" x
      (fun tail => V (os.getD (tail.getLastD 0) []) x tail.dropLast)

end Interp.Spec
