import Verif.Model.Basic

/-!
# B-spline basis functions

Model of `interpolation/splines/basis_splines.py` (plain Python, not compiled).
-/

namespace Interp.BSplines

variable {K : Type} [Add K] [Sub K] [Mul K] [Div K] [Neg K] [Zero K] [One K]
  [LT K] [DecidableLT K] [LE K] [DecidableLE K] [BEq K]

/-- `u[i]` in interpreted Python: an index outside the list raises `IndexError`. -/
def pyIndex {α : Type} (l : List α) (i : ℤ) : Py α :=
  match wrapIndex l.length i with
  | none => throw .index
  | some j => match l[j]? with
    | some v => pure v
    | none => throw .index

/-- `B0(u, i, x)`, `basis_splines.py` L1-5. The comparison chain reads `u[i + 1]` only if
`u[i] <= x`. -/
def B0 (u : List K) (i : ℤ) (x : K) : Py K := do
  let a ← pyIndex u i
  if a ≤ x then do
    let b ← pyIndex u (i + 1)
    if x < b then pure 1 else pure 0
  else pure 0

/-- `B(p, u, i, x)`, `basis_splines.py` L8-14, for `p` a natural number (the recursion does not
terminate for negative `p`). Division is that of Python floats. -/
def B : ℕ → List K → ℤ → K → Py K
  | 0, u, i, x => B0 u i x
  | p + 1, u, i, x => do
    let a ← pyIndex u i
    let b ← pyIndex u (i + ((p + 1 : ℕ) : ℤ))
    let w1 ← pyDiv (x - a) (b - a)
    let v1 ← B p u i x
    let c ← pyIndex u (i + ((p + 1 : ℕ) : ℤ) + 1)
    let e ← pyIndex u (i + 1)
    let w2 ← pyDiv (c - x) (c - e)
    let v2 ← B p u (i + 1) x
    pure (w1 * v1 + w2 * v2)

end Interp.BSplines
