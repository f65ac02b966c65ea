import Verif.Model.Codegen
import Verif.Model.Arrays

/-!
# Model of `interpolation/splines/eval_cubic_numba.py`

The file contains the same five functions written out for `d = 1, 2, 3, 4`:

* `eval_cubic_spline_d` (L79, L138, L269, L544): one spline, one point;
* `vec_eval_cubic_spline_d` (L1251, L1325, L1483, L1797): one spline, many points;
* `eval_cubic_splines_d` (L2555, L2616, L2749, L3026): several splines, one point;
* `vec_eval_cubic_splines_d` (L3735, L3811, L3971, L4287): several splines, many points;
* `vec_eval_cubic_splines_G_d` (L5047, L5154, L5422, L6187): the same with gradients.

The twenty texts differ only by the number of axes; the definitions below are generic in `d`.
That executing the twenty texts gives what these definitions say is C112 (`Props/SourceNumba.lean`).

The tables `Ad` and `dAd` (L14-27) are the same as those of `eval_splines.py` and are shared with
`Model/Codegen.lean`.  Compiled code: indices are not checked by numba; an access outside an array is
the value `outOfBounds` here.
-/

namespace Interp.CubicNumba
open Interp.Codegen

variable {K : Type} [Add K] [Sub K] [Mul K] [Div K] [Neg K] [Zero K] [One K] [NatCast K]
  [IntCast K] [LT K] [DecidableLT K] [BEq K] [IntFloor K]

/-- The variables `M0, start0, dinv0` of one axis. -/
structure Ax (K : Type) where
  M : ℤ
  start : K
  dinv : K

/-- `M0 = orders[0]; start0 = a[0]; dinv0 = (orders[0] - 1.0) / (b[0] - a[0])` for each axis; for
instance L5158-5163. -/
def header (d : ℕ) (a b : List K) (orders : List ℤ) : Py (List (Ax K)) :=
  (List.range d).mapM fun i : ℕ => do
    let n ← listRead orders i
    let s ← listRead a i
    let e ← listRead b i
    let dinv ← pyDiv ((n : K) - 1) (e - s)
    pure ⟨n, s, dinv⟩

/-- `x0 = point[0]`, ...; for instance L5166-5167. -/
def coords (d : ℕ) (x : List K) : Py (List K) := (List.range d).mapM fun i : ℕ => listRead x i

/-- The variables `i0, t0, dinv0` of one axis. -/
structure Cell (K : Type) where
  i : ℤ
  t : K
  dinv : K

/-- `u0 = (x0 - start0) * dinv0; i0 = int(floor(u0)); i0 = max(min(i0, M0 - 2), 0); t0 = u0 - i0`;
for instance L5168-5171. -/
def locate (ax : Ax K) (x : K) : Cell K :=
  let u := (x - ax.start) * ax.dinv
  let i := pyMax (pyMin (IntFloor.ifloor u) (ax.M - 2)) 0
  ⟨i, u - (i : K), ax.dinv⟩

/-- `Phi0_j`; for instance L5184-5228. -/
def phi (t : K) (j : ℕ) : K :=
  if t < 0 then dAd j 3 * t + Ad j 3
  else if 1 < t then
    (3 * Ad j 0 + 2 * Ad j 1 + Ad j 2) * (t - 1) + (Ad j 0 + Ad j 1 + Ad j 2 + Ad j 3)
  else Ad j 0 * (t * t * t) + Ad j 1 * (t * t) + Ad j 2 * t + Ad j 3 * 1

/-- `dPhi0_j`; for instance L5274-5297.  There is no case distinction: outside the grid the
polynomial of the last cell is differentiated. -/
def dphi (t dinv : K) (j : ℕ) : K :=
  (dAd j 0 * (t * t * t) + dAd j 1 * (t * t) + dAd j 2 * t + dAd j 3 * 1) * dinv

/-- The nested sum `Phi0_0 * (Phi1_0 * coefs[i0 + 0, i1 + 0, k] + ...) + ...`: the cells and weights of
the remaining axes, the indices of the axes already treated, the trailing index. -/
def contract (C : NdArray K) (tail : List ℤ) : List (ℤ × (ℕ → K)) → List ℤ → Py K
  | [], pos => C.read (pos ++ tail)
  | (i, w) :: rest, pos => do
    let c0 ← contract C tail rest (pos ++ [i + 0])
    let c1 ← contract C tail rest (pos ++ [i + 1])
    let c2 ← contract C tail rest (pos ++ [i + 2])
    let c3 ← contract C tail rest (pos ++ [i + 3])
    pure (w 0 * c0 + w 1 * c1 + w 2 * c2 + w 3 * c3)

/-- Weights of the value. -/
def plain (cs : List (Cell K)) : List (ℤ × (ℕ → K)) := cs.map fun c => (c.i, phi c.t)

/-- Weights of the derivative along axis `q`. -/
def along (q : ℕ) (cs : List (Cell K)) : List (ℤ × (ℕ → K)) :=
  cs.mapIdx fun i c => (c.i, if i = q then dphi c.t c.dinv else phi c.t)

/-- `eval_cubic_spline_d(a, b, orders, coefs, point)`. -/
def evalSplineD (d : ℕ) (a b : List K) (orders : List ℤ) (C : NdArray K) (x : List K) : Py K := do
  let axs ← header d a b orders
  let xs ← coords d x
  contract C [] (plain (List.zipWith locate axs xs)) []

/-- `vec_eval_cubic_spline_d(a, b, orders, coefs, points, out)`. -/
def vecEvalSplineD (d : ℕ) (a b : List K) (orders : List ℤ) (C : NdArray K)
    (points : List (List K)) (out : NdArray K) : Py (NdArray K) :=
  pyFor (List.range points.length) (fun (n : ℕ) out => do
    let p ← listRead points n
    let xs ← coords d p
    let axs ← header d a b orders
    let v ← contract C [] (plain (List.zipWith locate axs xs)) []
    out.write [Int.ofNat n] v) out

/-- `n_vals = coefs.shape[d]`; an array with another number of dimensions does not compile. -/
def nVals (d : ℕ) (C : NdArray K) : Py ℕ :=
  if C.shape.length = d + 1 then pure (C.shape.getD d 0) else throw .typing

/-- `eval_cubic_splines_d(a, b, orders, coefs, point, vals)`. -/
def evalSplinesD (d : ℕ) (a b : List K) (orders : List ℤ) (C : NdArray K) (x : List K)
    (vals : NdArray K) : Py (NdArray K) := do
  let m ← nVals d C
  let axs ← header d a b orders
  let xs ← coords d x
  pyFor (List.range m) (fun (k : ℕ) vals => do
    let v ← contract C [Int.ofNat k] (plain (List.zipWith locate axs xs)) []
    vals.write [Int.ofNat k] v) vals

/-- `vec_eval_cubic_splines_d(a, b, orders, coefs, points, vals)`. -/
def vecEvalSplinesD (d : ℕ) (a b : List K) (orders : List ℤ) (C : NdArray K)
    (points : List (List K)) (vals : NdArray K) : Py (NdArray K) := do
  let m ← nVals d C
  let axs ← header d a b orders
  pyFor (List.range points.length) (fun (n : ℕ) vals => do
    let p ← listRead points n
    let xs ← coords d p
    pyFor (List.range m) (fun (k : ℕ) vals => do
      let v ← contract C [Int.ofNat k] (plain (List.zipWith locate axs xs)) []
      vals.write [Int.ofNat n, Int.ofNat k] v) vals) vals

/-- `vec_eval_cubic_splines_G_d(a, b, orders, coefs, points, vals, dvals)`: for each point and each
component the value, then the `d` partial derivatives; for instance L5382-5419. -/
def vecEvalSplinesGD (d : ℕ) (a b : List K) (orders : List ℤ) (C : NdArray K)
    (points : List (List K)) (vals dvals : NdArray K) : Py (NdArray K × NdArray K) := do
  let m ← nVals d C
  let axs ← header d a b orders
  pyFor (List.range points.length) (fun (n : ℕ) s => do
    let p ← listRead points n
    let xs ← coords d p
    let cs := List.zipWith locate axs xs
    pyFor (List.range m) (fun (k : ℕ) s => do
      let v ← contract C [Int.ofNat k] (plain cs) []
      let vals ← s.1.write [Int.ofNat n, Int.ofNat k] v
      let dvals ← pyFor (List.range d) (fun (q : ℕ) dv => do
        let g ← contract C [Int.ofNat k] (along q cs) []
        dv.write [Int.ofNat n, Int.ofNat q, Int.ofNat k] g) s.2
      pure (vals, dvals)) s) (vals, dvals)

/-- `vec_eval_cubic_splines_G(a, b, orders, mcoefs, points, values, dvalues)`, `eval_cubic.py`
L166-193.  `garbage` is the content of `numpy.empty`.  In more than four dimensions nothing is
computed and the arrays are returned as they are. -/
def vecEvalCubicSplinesG (a b : List K) (orders : List ℤ) (C : NdArray K)
    (points : List (List K)) (values dvalues : Option (NdArray K)) (garbage : List ℕ → K) :
    Py (NdArray K × NdArray K) :=
  let d := a.length
  let m := C.shape.getLastD 0
  let vals := values.getD ⟨[points.length, m], garbage⟩
  let dvals := dvalues.getD ⟨[points.length, d, m], garbage⟩
  if 1 ≤ d ∧ d ≤ 4 then vecEvalSplinesGD d a b orders C points vals dvals
  else pure (vals, dvals)

end Interp.CubicNumba
