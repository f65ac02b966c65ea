import Verif.Model.Arrays

/-!
# Hermite splines

Model of `interpolation/splines/hermite.py`.
-/

namespace Interp.Hermite

variable {K : Type} [Add K] [Sub K] [Mul K] [Div K] [Neg K] [Zero K] [One K] [NatCast K]
  [LT K] [DecidableLT K] [LE K] [DecidableLE K] [BEq K]

/-- `hermite_splines(lambda0)`, `hermite.py` L11-20; the powers are written as products. -/
def hermiteSplines (t : K) : K × K × K × K :=
  (((2 : ℕ) : K) * (t * t * t) - ((3 : ℕ) : K) * (t * t) + 1,
   t * t * t - ((2 : ℕ) : K) * (t * t) + t,
   -((2 : ℕ) : K) * (t * t * t) + ((3 : ℕ) : K) * (t * t),
   t * t * t - t * t)

/-- `hermite_interp(x0, xk, xkn, pk, pkn, mk, mkn)`, `hermite.py` L23-44. -/
def hermiteInterp (x0 xk xkn pk pkn mk mkn : K) : Py K := do
  let t ← pyDiv (x0 - xk) (xkn - xk)
  let h := hermiteSplines t
  pure (pk * h.1 + mk * (xkn - xk) * h.2.1 + pkn * h.2.2.1 + mkn * (xkn - xk) * h.2.2.2)

/-- `np.min(x)` of a 1d array; raises on the empty array. NaNs are not treated specially. -/
def npMin : List K → Py K
  | [] => throw .value
  | v :: l => pure (l.foldl pyMin v)

/-- `np.max(x)` of a 1d array; raises on the empty array. -/
def npMax : List K → Py K
  | [] => throw .value
  | v :: l => pure (l.foldl pyMax v)

/-- `HermiteInterpolation(x0, x, y, yp)`, `hermite.py` L47-66. -/
def hermiteInterpolation (x0 : K) (x y yp : List K) : Py K := do
  let lo ← npMin x
  if x0 ≤ lo then listRead y 0
  else do
    let hi ← npMax x
    if hi ≤ x0 then listRead y (-1)
    else do
      let indx : ℤ := searchsorted x x0
      let xk ← listRead x (indx - 1)
      let xkn ← listRead x indx
      let pk ← listRead y (indx - 1)
      let pkn ← listRead y indx
      let mk ← listRead yp (indx - 1)
      let mkn ← listRead yp indx
      hermiteInterp x0 xk xkn pk pkn mk mkn

/-- `HermiteInterpolationVect(xvect, x, y, yp)`, `hermite.py` L69-87. -/
def hermiteInterpolationVect (xvect x y yp : List K) : Py (NdArray K) :=
  pyFor (List.range xvect.length) (fun i out => do
    let x0 ← listRead xvect (i : ℤ)
    let v ← hermiteInterpolation x0 x y yp
    out.write [(i : ℤ)] v) (.zeros [xvect.length])

/-- The argument `x0` of `hermite`: a number, a 1d array, a 2d array given by its rows (all of the
same length `cols`), or an array with more dimensions. -/
inductive Arg (K : Type) where
  | scalar (v : K)
  | vector (vs : List K)
  | matrix (cols : ℕ) (rows : List (List K))
  | other

/-- What `hermite` returns. -/
inductive Ret (K : Type) where
  | scalar (v : K)
  | array (A : NdArray K)

/-- `hermite(x0, x, y, yp, out=None)`, `hermite.py` L104-137: the `raise` for more than two
dimensions is caught and the scalar version chosen, which does not type-check. The argument `out` is
accepted and ignored. -/
def hermite (x0 : Arg K) (x y yp : List K) (_out : Option (NdArray K)) : Py (Ret K) :=
  match x0 with
  | .scalar v => do
    let r ← hermiteInterpolation v x y yp
    pure (.scalar r)
  | .vector vs => do
    let A ← hermiteInterpolationVect vs x y yp
    pure (.array A)
  | .matrix _ rows => do
    let col ← rows.mapM fun r => listRead r 0
    let A ← hermiteInterpolationVect col x y yp
    pure (.array A)
  | .other => throw .typing

end Interp.Hermite
