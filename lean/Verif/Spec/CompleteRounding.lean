import Verif.Spec.Rounding
import Verif.Spec.Monomials

/-!
# Exact values of computed points and partial derivatives of monomials
-/

namespace Interp.Spec

variable {R : Rounding}

/-- The entries of row `i` of a matrix with `n` columns, as exact numbers. -/
def exactRow (n : ℕ) (s : NdArray (Fl R)) (i : ℕ) : List ℝ := (List.range n).map fun j => (s.get [i, j]).val

/-- The entries of a vector, as exact numbers. -/
def exactPoint (n : ℕ) (s : NdArray (Fl R)) : List ℝ := (List.range n).map fun j => (s.get [j]).val

/-- The partial derivative with respect to variable `k` of the monomial with exponents `e` at the point `x`. -/
def monomialDerAt (e : List ℕ) (k : ℕ) (x : List ℝ) : ℝ := (e.getD k 0 : ℝ) * monomialAt (e.set k (e.getD k 0 - 1)) x

end Interp.Spec
