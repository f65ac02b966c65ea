import Verif.Model.Mlinterp
import Verif.Spec.Grid
import Verif.Spec.Monomials

/-!
# Observable behaviour of `interp` and `mlinterp`
-/

namespace Interp.Spec
open Interp.Codegen Interp.Mlinterp

variable {K : Type} [Add K] [Sub K] [Mul K] [Div K] [Neg K] [Zero K] [One K] [NatCast K]
  [IntCast K] [LT K] [DecidableLT K] [BEq K] [IntFloor K]

/-- An axis passed as an argument. -/
def axisArg : GridDim K → Arg K
  | .uniform a b n => .coord a b n
  | .array l => .arr ⟨[l.length], fun idx => l.getD (idx.headD 0) 0⟩

/-- The arguments that denote the number `t`. -/
def Denotes : Arg K → K → Prop
  | .flt x, t => x = t
  | .int n, t => (n : K) = t
  | _, _ => False

/-- `interp(x1, ..., xd, C, ...)` returns the numbers `v x`, whatever the way the points `x` are
passed. -/
structure InterpReturns (G : List (GridDim K)) (C : NdArray K) (v : List K → K) : Prop where
  /-- separate numbers -/
  scalars : ∀ (x : List K) (ss : List (Arg K)), x.length = G.length → List.Forall₂ Denotes ss x →
    interp (G.map axisArg ++ .arr C :: ss) = .ok (.num (v x))
  /-- a tuple -/
  tuple : ∀ x : List K, x.length = G.length →
    interp (G.map axisArg ++ [.arr C, .tup x]) = .ok (.num (v x))
  /-- a vector containing the coordinates, in dimension two or more -/
  point : ∀ A : NdArray K, 2 ≤ G.length → A.shape = [G.length] →
    interp (G.map axisArg ++ [.arr C, .arr A]) = .ok (.num (v (vecOf A)))
  /-- a vector of points, in dimension one -/
  points : ∀ (A : NdArray K) (N : ℕ), G.length = 1 → A.shape = [N] →
    ∃ R, interp (G.map axisArg ++ [.arr C, .arr A]) = .ok (.arr R) ∧ R.shape = [N] ∧
      ∀ i < N, R.get [i] = v [A.get [i]]
  /-- the rows of a matrix -/
  rows : ∀ (A : NdArray K) (N : ℕ), A.shape = [N, G.length] →
    ∃ R, interp (G.map axisArg ++ [.arr C, .arr A]) = .ok (.arr R) ∧ R.shape = [N] ∧
      ∀ i < N, R.get [i] = v ((List.range G.length).map fun j => A.get [i, j])
  /-- a cartesian product, in dimension two -/
  product : ∀ (A B : NdArray K) (N M : ℕ), G.length = 2 → A.shape = [N] → B.shape = [M] →
    ∃ R, interp (G.map axisArg ++ [.arr C, .arr A, .arr B]) = .ok (.arr R) ∧ R.shape = [N, M] ∧
      ∀ i < N, ∀ j < M, R.get [i, j] = v [A.get [i], B.get [j]]

/-- `mlinterp(grid, C, u)` returns the numbers `v u`, for a tuple and for the rows of a matrix. -/
structure MlReturns (G : List (GridDim K)) (C : NdArray K) (v : List K → K) : Prop where
  tuple : ∀ u : List K, u.length = G.length → mlinterp G C (.tup u) = .ok (.num (v u))
  rows : ∀ (A : NdArray K) (N : ℕ), A.shape = [N, G.length] →
    ∃ R, mlinterp G C (.mat A) = .ok (.arr R) ∧ R.shape = [N] ∧
      ∀ i < N, R.get [i] = v ((List.range G.length).map fun j => A.get [i, j])

/-- In any arithmetic, an axis on which no division by zero occurs. -/
def NoZeroDiv : GridDim K → Prop
  | .uniform a b n => 2 ≤ n ∧ (((n - 1 : ℤ) : K) == 0) = false ∧ ((b - a) / ((n - 1 : ℤ) : K) == 0) = false
  | .array l => 2 ≤ l.length ∧ ∀ i, i + 1 < l.length → (l.getD (i + 1) 0 - l.getD i 0 == 0) = false

/-- Number of nodes, in any arithmetic. -/
def axisLen : GridDim K → ℕ
  | .uniform _ _ n => n.toNat
  | .array l => l.length

/-- The types of the evaluation arguments accepted after `d` axes and the values, with the
evaluation they stand for. -/
inductive DocForm (d : ℕ) : List Ty → Eval → Prop
  | scalars : DocForm d (List.replicate d .scalar) .scalar
  | tuple : DocForm d [.uniTuple] .tuple
  | vector : DocForm d [.arr 1] .point
  | matrix : DocForm d [.arr 2] .vectorized
  | product : 2 ≤ d → DocForm d (List.replicate d (.arr 1)) .cartesian

/-- The types of the axes: a vector, or a tuple `(a, b, n)`. -/
def IsAxisTy (t : Ty) : Prop := t = .arr 1 ∨ t = .other ∨ t = .uniTuple

end Interp.Spec
