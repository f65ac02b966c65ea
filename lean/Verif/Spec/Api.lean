import Verif.Model.Codegen

/-!
# Observable behaviour of the spline entry points

`Returns k G C vec m orders mode x E` says that whatever the way `eval_spline` is called on grid `G`
and coefficients `C` (one point or rows of a matrix, result allocated or written in a supplied
array), the numbers obtained for the point `x` are `E tail`, where `tail` is the trailing index
(`[]`, `[component]`, `[order]` or `[component, order]`).
-/

namespace Interp.Spec
open Interp.Codegen

variable {K : Type} [Add K] [Sub K] [Mul K] [Div K] [Neg K] [Zero K] [One K] [NatCast K]
  [IntCast K] [LT K] [DecidableLT K] [BEq K] [IntFloor K]

/-- Trailing dimensions of the output: components, then derivative orders. -/
def tailShape (vec : Bool) (m : ℕ) (orders : Option (List (List ℕ))) : List ℕ :=
  (if vec then [m] else []) ++ (orders.map List.length).toList

/-- Single-point calls on grids with a nonuniform axis only work in linear mode (see C17). -/
def PointModeOk (mode : String) (G : List (GridDim K)) : Prop :=
  mode = "nearest" ∨ mode = "constant" → ∀ g ∈ G, g.gtype = .uniform

structure Returns (k : ℕ) (G : List (GridDim K)) (C : NdArray K) (vec : Bool) (m : ℕ)
    (orders : Option (List (List ℕ))) (mode : String) (x : List K) (E : List ℕ → K) : Prop where
  /-- matrix of points, result allocated -/
  rows : ∀ xs : List (List K), (∀ y ∈ xs, y.length = G.length) →
    ∃ A, evalSpline G C (.rows xs) none k orders mode = .ok ⟨.array A, none⟩ ∧
      A.shape = xs.length :: tailShape vec m orders ∧
      ∀ i, xs[i]? = some x → ∀ tail, InShape (tailShape vec m orders) tail →
        A.get (i :: tail) = E tail
  /-- matrix of points, result written in an array supplied by the caller, whatever it contains -/
  rowsOut : ∀ (xs : List (List K)) (B : NdArray K), (∀ y ∈ xs, y.length = G.length) →
    B.shape = xs.length :: tailShape vec m orders →
    ∃ A, evalSpline G C (.rows xs) (some B) k orders mode = .ok ⟨.none, some A⟩ ∧
      A.shape = B.shape ∧
      ∀ i, xs[i]? = some x → ∀ tail, InShape (tailShape vec m orders) tail →
        A.get (i :: tail) = E tail
  /-- one point, scalar data: a number -/
  pointScalar : PointModeOk mode G → vec = false → orders = none → ∀ out,
    evalSpline G C (.point x) out k orders mode = .ok ⟨.scalar (E []), out⟩
  /-- one point, scalar data, derivative orders: a tuple -/
  pointTuple : PointModeOk mode G → mode ≠ "constant" → vec = false → ∀ os, orders = some os →
    evalSpline G C (.point x) none k orders mode
      = .ok ⟨.tuple ((List.range os.length).map fun j => E [j]), none⟩
  /-- one point, vector-valued data: an array -/
  pointArray : PointModeOk mode G → vec = true →
    ∃ A, evalSpline G C (.point x) none k orders mode = .ok ⟨.array A, none⟩ ∧
      A.shape = tailShape vec m orders ∧
      ∀ tail, InShape (tailShape vec m orders) tail → A.get tail = E tail
  /-- one point, result written in an array supplied by the caller -/
  pointOut : PointModeOk mode G → mode ≠ "constant" → (vec = true ∨ orders ≠ none) →
    ∀ B : NdArray K, B.shape = tailShape vec m orders →
    ∃ A, evalSpline G C (.point x) (some B) k orders mode = .ok ⟨.none, some A⟩ ∧
      A.shape = B.shape ∧
      ∀ tail, InShape (tailShape vec m orders) tail → A.get tail = E tail

/-- The numbers may be replaced by equal ones. -/
theorem Returns.congr {k : ℕ} {G : List (GridDim K)} {C : NdArray K} {vec : Bool} {m : ℕ}
    {orders : Option (List (List ℕ))} {mode : String} {x : List K} {E E' : List ℕ → K}
    (h : Returns k G C vec m orders mode x E)
    (hE : ∀ tail, InShape (tailShape vec m orders) tail → E tail = E' tail) :
    Returns k G C vec m orders mode x E' where
  rows xs hx := by
    obtain ⟨A, h1, h2, h3⟩ := h.rows xs hx
    exact ⟨A, h1, h2, fun i hi tail ht => (h3 i hi tail ht).trans (hE tail ht)⟩
  rowsOut xs B hx hB := by
    obtain ⟨A, h1, h2, h3⟩ := h.rowsOut xs B hx hB
    exact ⟨A, h1, h2, fun i hi tail ht => (h3 i hi tail ht).trans (hE tail ht)⟩
  pointScalar hm hv ho out := by
    rw [h.pointScalar hm hv ho out, hE [] (by subst hv ho; exact trivial)]
  pointTuple hm hc hv os ho := by
    rw [h.pointTuple hm hc hv os ho]
    congr 3
    apply List.map_congr_left
    intro j hj
    exact hE [j] (by subst hv ho; exact ⟨by simpa using hj, trivial⟩)
  pointArray hm hv := by
    obtain ⟨A, h1, h2, h3⟩ := h.pointArray hm hv
    exact ⟨A, h1, h2, fun tail ht => (h3 tail ht).trans (hE tail ht)⟩
  pointOut hm hc hv B hB := by
    obtain ⟨A, h1, h2, h3⟩ := h.pointOut hm hc hv B hB
    exact ⟨A, h1, h2, fun tail ht => (h3 tail ht).trans (hE tail ht)⟩

end Interp.Spec
