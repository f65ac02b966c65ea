import Verif.Model.Basic
import Mathlib.Algebra.BigOperators.Group.List.Defs
import Mathlib.Algebra.BigOperators.Group.Finset.Defs
import Mathlib.Algebra.Order.Field.Basic

/-! Vocabulary for multivariate polynomials and least squares. -/

namespace Interp.Spec

variable {K : Type}

/-- The monomial with exponents `e` at the point `x`. -/
def monomialAt [CommSemiring K] (e : List ℕ) (x : List K) : K :=
  (List.zipWith (fun k t => t ^ k) e x).prod

/-- The entries of a vector. -/
def vecOf (z : NdArray K) : List K := (List.range (z.shape.getD 0 0)).map fun i => z.get [i]

/-- Column number `k` of a matrix. -/
def colOf (z : NdArray K) (k : ℕ) : List K :=
  (List.range (z.shape.getD 0 0)).map fun i => z.get [i, k]

/-- The array `z` with one entry replaced. -/
def setAt (z : NdArray K) (idx : List ℕ) (t : K) : NdArray K :=
  ⟨z.shape, fun j => if j = idx then t else z.get j⟩

/-- The vector with the entries of column `k`. -/
def colArr (z : NdArray K) (k : ℕ) : NdArray K :=
  ⟨[z.shape.getD 0 0], fun idx => z.get (idx ++ [k])⟩

/-- Sum of squared residuals of the coefficients `c` for the right-hand side `b`. -/
def residual {F : Type} [Field F] (N p : ℕ) (A : NdArray F) (b c : ℕ → F) : F :=
  ∑ i ∈ Finset.range N, ((∑ j ∈ Finset.range p, A.get [i, j] * c j) - b i) ^ 2

/-- The contract of `lstsq(A, x)[0]`: for a nonempty matrix and a right-hand side with the same
number of rows (one or several columns, indexed by `tail`), it returns coefficients that minimise
the sum of squared residuals of every column. -/
def LeastSquares {F : Type} [Field F] [LinearOrder F]
    (lstsq : NdArray F → NdArray F → Py (NdArray F)) : Prop :=
  ∀ (A x : NdArray F) (N p : ℕ) (t : List ℕ), 0 < N → 0 < p → A.shape = [N, p] → x.shape = N :: t →
    ∃ c, lstsq A x = .ok c ∧ c.shape = p :: t ∧ ∀ tail, InShape t tail → ∀ c' : ℕ → F,
      residual N p A (fun i => x.get (i :: tail)) (fun j => c.get (j :: tail)) ≤
        residual N p A (fun i => x.get (i :: tail)) c'

end Interp.Spec
