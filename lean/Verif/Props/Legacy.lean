import Verif.Model.Objects
import Verif.Proofs.CubicNumba
import Verif.Props.SplineCalls

/-!
# Compatibility calls (C76)

Any arithmetic.  `T` lists the axes `(a, b, n)`; the compatibility calls receive the three columns.
-/

set_option linter.unusedSectionVars false
set_option linter.unusedSimpArgs false

namespace Interp.Props
open Interp.Codegen Interp.Ref Interp.Spec Interp.CubicNumba Interp.Objects

variable {K : Type} [Add K] [Sub K] [Mul K] [Div K] [Neg K] [Zero K] [One K] [NatCast K]
  [IntCast K] [LT K] [DecidableLT K] [BEq K] [IntFloor K]

variable {T : List (K × K × ℤ)} {C : NdArray K}

theorem getGrid_ok (hT : T ≠ []) (h : C.shape.length = T.length) :
    getGrid (T.map (·.1)) (T.map (·.2.1)) (T.map (·.2.2)) C = .ok (gridZ T) := by
  have h0 : C.shape.length ≠ 0 := by
    rw [h]; simpa using hT
  rw [getGrid, if_neg h0, h]
  apply mapM_range_listRead
  intro i hi
  rw [listRead_nat _ i (by simpa using hi), listRead_nat _ i (by simpa using hi),
    listRead_nat _ i (by simpa using hi)]
  simp

theorem firstComponent_ok {sh : List ℕ} {m : ℕ} (h : C.shape = sh ++ [m]) (hm : m ≠ 0) :
    firstComponent C = .ok (C.sliceLast 0) := by
  rw [firstComponent, if_neg (by rw [h]; simpa using hm)]; rfl

/-- What a compatibility call with an output array leaves: the array as the modern call leaves it;
it returns `None`. -/
def intoOut (r : Py (Outcome K)) : Py (Outcome K) := r.map fun o => ⟨.none, o.out⟩

/-- C76, one cubic spline.  `eval_cubic_spline` and `vec_eval_cubic_spline` behave as `eval_cubic`
(same result, same errors) on the grid described by `a, b, orders`; with an output array, the array
receives what `eval_cubic` writes. -/
theorem C76_cubic_scalar (hT : T ≠ []) (h : C.shape.length = T.length) (points : Points K) :
    evalCubicSpline (T.map (·.1)) (T.map (·.2.1)) (T.map (·.2.2)) C points
      = evalCubic (gridZ T) C points [] ∧
    vecEvalCubicSpline (T.map (·.1)) (T.map (·.2.1)) (T.map (·.2.2)) C points none
      = evalCubic (gridZ T) C points [] ∧
    ∀ B, vecEvalCubicSpline (T.map (·.1)) (T.map (·.2.1)) (T.map (·.2.2)) C points (some B)
      = intoOut (evalCubic (gridZ T) C points [.out B]) := by
  simp only [evalCubicSpline, vecEvalCubicSpline, getGrid_ok hT h, ok_bind, withOut, true_and]
  intro B
  cases evalCubic (gridZ T) C points [.out B] <;> rfl

/-- C76, several cubic splines (at least one component; see `C76_no_component_fails`). -/
theorem C76_cubic_vector_partial (hT : T ≠ []) {sh : List ℕ} {m : ℕ} (hs : C.shape = sh ++ [m])
    (hl : sh.length = T.length) (hm : m ≠ 0) (points : Points K) :
    evalCubicSplines (T.map (·.1)) (T.map (·.2.1)) (T.map (·.2.2)) C points none
      = evalCubic (gridZ T) C points [] ∧
    vecEvalCubicSplines (T.map (·.1)) (T.map (·.2.1)) (T.map (·.2.2)) C points none
      = evalCubic (gridZ T) C points [] ∧
    ∀ B,
      evalCubicSplines (T.map (·.1)) (T.map (·.2.1)) (T.map (·.2.2)) C points (some B)
        = intoOut (evalCubic (gridZ T) C points [.out B]) ∧
      vecEvalCubicSplines (T.map (·.1)) (T.map (·.2.1)) (T.map (·.2.2)) C points (some B)
        = intoOut (evalCubic (gridZ T) C points [.out B]) := by
  have h0 : (C.sliceLast 0).shape.length = T.length := by
    simp [NdArray.sliceLast, hs, hl]
  simp only [evalCubicSplines, vecEvalCubicSplines, firstComponent_ok hs hm, getGrid_ok hT h0,
    ok_bind, withOut, true_and, and_self]
  intro B
  cases evalCubic (gridZ T) C points [.out B] <;> rfl

/-- C76, linear splines: `multilinear_interpolation` with and without output array,
`vec_multilinear_interpolation` without. -/
theorem C76_linear_partial (hT : T ≠ []) (points : Points K) :
    (C.shape.length = T.length →
      multilinearInterpolation (T.map (·.1)) (T.map (·.2.1)) (T.map (·.2.2)) C points none
        = evalLinear (gridZ T) C points [] ∧
      ∀ B, multilinearInterpolation (T.map (·.1)) (T.map (·.2.1)) (T.map (·.2.2)) C points (some B)
        = intoOut (evalLinear (gridZ T) C points [.out B])) ∧
    ∀ (sh : List ℕ) (m : ℕ), C.shape = sh ++ [m] → sh.length = T.length → m ≠ 0 →
      vecMultilinearInterpolation (T.map (·.1)) (T.map (·.2.1)) (T.map (·.2.2)) C points none
        = evalLinear (gridZ T) C points [] := by
  constructor
  · intro h
    simp only [multilinearInterpolation, getGrid_ok hT h, ok_bind, withOut, true_and]
    intro B
    cases evalLinear (gridZ T) C points [.out B] <;> rfl
  · intro sh m hs hl hm
    have h0 : (C.sliceLast 0).shape.length = T.length := by
      simp [NdArray.sliceLast, hs, hl]
    simp only [vecMultilinearInterpolation, firstComponent_ok hs hm, getGrid_ok hT h0, ok_bind]

/-- C76 is false for `vec_multilinear_interpolation` with an output array: every such call raises
`NameError` (the variable `values` does not exist). -/
theorem C76_linear_out_fails (hT : T ≠ []) {sh : List ℕ} {m : ℕ} (hs : C.shape = sh ++ [m])
    (hl : sh.length = T.length) (hm : m ≠ 0) (points : Points K) (B : NdArray K) :
    vecMultilinearInterpolation (T.map (·.1)) (T.map (·.2.1)) (T.map (·.2.2)) C points (some B)
      = .error (.name "values") := by
  have h0 : (C.sliceLast 0).shape.length = T.length := by
    simp [NdArray.sliceLast, hs, hl]
  simp only [vecMultilinearInterpolation, firstComponent_ok hs hm, getGrid_ok hT h0, ok_bind]
  rfl

/-- C76 is false without components: `eval_cubic` returns an array without columns, the
compatibility calls raise `IndexError`. -/
theorem C76_no_component_fails (h : AnyRequest 3 (gridZ T) C true 0 none) (xs : List (List K))
    (hx : ∀ x ∈ xs, x.length = T.length) :
    (∃ A, evalCubic (gridZ T) C (.rows xs) [] = .ok ⟨.array A, none⟩ ∧ A.shape = [xs.length, 0]) ∧
    vecEvalCubicSplines (T.map (·.1)) (T.map (·.2.1)) (T.map (·.2.2)) C (.rows xs) none
      = .error .index := by
  constructor
  · obtain ⟨A, h1, h2, _⟩ := C07_rows_are_points h "linear" xs (by simpa [gridZ] using hx)
    exact ⟨A, h1, h2⟩
  · have hs : C.shape.getLastD 0 = 0 := by rw [h.shape]; simp
    simp only [vecEvalCubicSplines, firstComponent, hs, if_true]
    rfl

/-! ### Concrete instances -/

/-- A 2-dimensional grid, arrays with two components. -/
example : vecEvalCubicSplines [0, 1] [2, 3] [3, 2] (⟨[5, 4, 2], fun idx => (idx.sum : ℚ)⟩ : NdArray ℚ)
    (.rows [[1, 2], [7, 5/2]]) (some ⟨[2, 2], fun _ => 9⟩)
    = intoOut (evalCubic [.uniform 0 2 3, .uniform 1 3 2] ⟨[5, 4, 2], fun idx => (idx.sum : ℚ)⟩
        (.rows [[1, 2], [7, 5/2]]) [.out ⟨[2, 2], fun _ => 9⟩]) :=
  ((C76_cubic_vector_partial (T := [((0 : ℚ), (2 : ℚ), (3 : ℤ)), (1, 3, 2)]) (by simp)
    (C := ⟨[5, 4, 2], fun idx => (idx.sum : ℚ)⟩) (sh := [5, 4]) (m := 2) rfl rfl (by norm_num) _).2.2 _).2

end Interp.Props
