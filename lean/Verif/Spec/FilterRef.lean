import Verif.Model.Filter

/-!
# Closed form of filtering

What the elimination and the back substitution of `solve_deriv_interp_1d` compute along one line,
as recursive functions of the row number.  Valid in any arithmetic.
-/

namespace Interp.FilterRef

variable {K : Type} [Add K] [Sub K] [Mul K] [Div K] [Neg K] [Zero K] [One K] [NatCast K]

/-- Weights of the interpolation rows. -/
def β0 : K := 1 / (6 : ℕ)
def β1 : K := ((2 : ℕ) : K) / (3 : ℕ)

/-- Entries of the boundary rows. -/
def fA (δ : K) : K := 1 * δ * δ
def fB (δ : K) : K := -((2 : ℕ) : K) * δ * δ

/-- First row after normalisation. -/
def u1 (δ : K) : K := fB δ / fA δ
def u2 (δ : K) : K := fA δ / fA δ
def u3 (δ : K) : K := 0 / fA δ

/-- Pivot of row `1` is `piv0`. -/
def piv0 (δ : K) : K := β1 - β0 * u1 δ

/-- Superdiagonal of row `r + 1` after elimination. -/
def q (δ : K) : ℕ → K
  | 0 => (β0 - β0 * u2 δ) / piv0 δ
  | r + 1 => β0 / (β1 - β0 * q δ r)

/-- Pivot of row `r + 1`. -/
def piv (δ : K) : ℕ → K
  | 0 => piv0 δ
  | r + 1 => β1 - β0 * q δ r

/-- Right-hand side of row `r + 1` after elimination. -/
def rhs (δ : K) (data : ℕ → K) : ℕ → K
  | 0 => (data 0 - β0 * u3 δ) / piv0 δ
  | r + 1 => (data (r + 1) - β0 * rhs δ data r) / piv δ (r + 1)

/-- Last row, for `M ≥ 2` data. -/
def l1 (δ : K) (M : ℕ) : K := fB δ - fA δ * q δ (M - 2)
def l2 (δ : K) (M : ℕ) : K := fA δ - l1 δ M * q δ (M - 1)
def top (δ : K) (M : ℕ) (data : ℕ → K) : K :=
  (0 - fA δ * rhs δ data (M - 2) - l1 δ M * rhs δ data (M - 1)) / l2 δ M

/-- Back substitution: `bk k` is coefficient number `M + 1 - k`. -/
def bk (δ : K) (M : ℕ) (data : ℕ → K) : ℕ → K
  | 0 => top δ M data
  | k + 1 => rhs δ data (M - 1 - k) - q δ (M - 1 - k) * bk δ M data k

/-- The coefficients computed from `M` data. -/
def solve (δ : K) (M : ℕ) (data : ℕ → K) (i : ℕ) : K :=
  if i = 0 then u3 δ - u1 δ * bk δ M data M - u2 δ * bk δ M data (M - 1)
  else bk δ M data (M + 1 - i)

/-- None of the divisors is zero. -/
def NoZeroPivot [BEq K] (δ : K) (M : ℕ) : Prop :=
  (fA δ == 0) = false ∧ (∀ r < M, (piv δ r == 0) = false) ∧ (l2 δ M == 0) = false

end Interp.FilterRef
