import Verif.Model.CubicNumba
import Verif.Model.Filter
import Verif.Model.Cartesian

/-!
# Model of the compatibility calls and of the spline classes

* `interpolation/splines/eval_cubic.py` (L19-153; `vec_eval_cubic_splines_G` is in
  `Model/CubicNumba.lean`);
* `interpolation/splines/multilinear_numba.py`;
* `interpolation/splines/splines.py`: `CubicSpline`, `CubicSplines`;
* `interpolation/splines/multilinear.py`: `mlinspace`, `LinearSpline`, `LinearSplines`.

Simplifications: array conversions (`np.array(..., dtype=float)`) are the identity; the entries of
`orders` are natural numbers (numpy would read `-1` in `reshape` as "infer"); a matrix of points is the
list of its rows, so the number of columns of a matrix without rows is not represented; attributes
are changed through the methods only.  `fin` is `numpy.isfinite` on one number; `garbage` is the
content of `numpy.empty`.  A method that may raise after having changed the object returns the pair
(what it raises, the object afterwards).
-/

namespace Interp.Objects
open Interp.Codegen Interp.Filter Interp.CubicNumba

variable {K : Type} [Add K] [Sub K] [Mul K] [Div K] [Neg K] [Zero K] [One K] [NatCast K]
  [IntCast K] [LT K] [DecidableLT K] [BEq K] [IntFloor K]

/-! ### Compatibility calls -/

/-- `get_grid(a, b, n, C)`, `eval_cubic.py` L23-34: the source text is built from `C.ndim`; without
dimension it is `return (,)`. -/
def getGrid (a b : List K) (n : List ℤ) (C : NdArray K) : Py (List (GridDim K)) :=
  if C.shape.length = 0 then throw .syntaxErr
  else (List.range C.shape.length).mapM fun k : ℕ => do
    let ak ← listRead a k
    let bk ← listRead b k
    let nk ← listRead n k
    pure (.uniform ak bk nk)

/-- `mcoefs[..., 0]` in interpreted code. -/
def firstComponent (C : NdArray K) : Py (NdArray K) :=
  if C.shape.getLastD 0 = 0 then throw .index else pure (C.sliceLast 0)

/-- `if values is None: return f(...) else: f(..., values)`: in the second case the wrapper returns
`None`. -/
def withOut (f : List (OptArg K) → Py (Outcome K)) (values : Option (NdArray K)) :
    Py (Outcome K) :=
  match values with
  | none => f []
  | some v => do
    let r ← f [.out v]
    pure ⟨.none, r.out⟩

/-- `eval_cubic_spline(a, b, orders, coefs, point)`, `eval_cubic.py` L37-59. -/
def evalCubicSpline (a b : List K) (orders : List ℤ) (C : NdArray K) (points : Points K) :
    Py (Outcome K) := do
  let grid ← getGrid a b orders C
  evalCubic grid C points []

/-- `vec_eval_cubic_spline(a, b, orders, coefs, points, values)`, `eval_cubic.py` L62-90. -/
def vecEvalCubicSpline (a b : List K) (orders : List ℤ) (C : NdArray K) (points : Points K)
    (values : Option (NdArray K)) : Py (Outcome K) := do
  let grid ← getGrid a b orders C
  withOut (evalCubic grid C points) values

/-- `eval_cubic_splines(a, b, orders, mcoefs, point, values)`, `eval_cubic.py` L93-122. -/
def evalCubicSplines (a b : List K) (orders : List ℤ) (C : NdArray K) (points : Points K)
    (values : Option (NdArray K)) : Py (Outcome K) := do
  let C0 ← firstComponent C
  let grid ← getGrid a b orders C0
  withOut (evalCubic grid C points) values

/-- `vec_eval_cubic_splines(a, b, orders, mcoefs, points, values)`, `eval_cubic.py` L125-153. -/
def vecEvalCubicSplines (a b : List K) (orders : List ℤ) (C : NdArray K) (points : Points K)
    (values : Option (NdArray K)) : Py (Outcome K) := do
  let C0 ← firstComponent C
  let grid ← getGrid a b orders C0
  withOut (evalCubic grid C points) values

/-- `vec_multilinear_interpolation(smin, smax, orders, mvalues, s, out)`, `multilinear_numba.py`
L9-15: with `out` the name `values` is not defined. -/
def vecMultilinearInterpolation (a b : List K) (orders : List ℤ) (C : NdArray K)
    (points : Points K) (out : Option (NdArray K)) : Py (Outcome K) := do
  let C0 ← firstComponent C
  let grid ← getGrid a b orders C0
  match out with
  | none => evalLinear grid C points []
  | some _ => throw (.name "values")

/-- `multilinear_interpolation(smin, smax, orders, values, s, out)`, `multilinear_numba.py`
L18-24. -/
def multilinearInterpolation (a b : List K) (orders : List ℤ) (C : NdArray K)
    (points : Points K) (out : Option (NdArray K)) : Py (Outcome K) := do
  let grid ← getGrid a b orders C
  withOut (evalLinear grid C points) out

/-! ### Helpers of the classes -/

/-- `np.all(np.isfinite(A))`. -/
def allFinite (fin : K → Bool) (A : NdArray K) : Bool :=
  (List.range A.shape.prod).all fun i => fin (A.get (unravel A.shape i))

def Points.allFinite (fin : K → Bool) : Points K → Bool
  | .point x => x.all fin
  | .rows xs => xs.all fun x => x.all fin

/-- `tuple((self.a[i], self.b[i], self.orders[i]) for i in range(len(self.a)))`. -/
def gridTuple (a b : List K) (orders : List ℕ) : Py (List (GridDim K)) :=
  (List.range a.length).mapM fun i : ℕ => do
    let ai ← Cartesian.pyIndexNat a i
    let bi ← Cartesian.pyIndexNat b i
    let ni ← Cartesian.pyIndexNat orders i
    pure (.uniform ai bi (ni : ℤ))

/-- `values` after `eval_cubic(grid, coeffs, points, values)`; `coeffs` may be `None`, which numba
cannot type. -/
def evalInto (grid : List (GridDim K)) (coeffs : Option (NdArray K)) (points : Points K)
    (values : NdArray K) : Py (NdArray K) :=
  match coeffs with
  | none => throw .typing
  | some C => do
    let r ← evalCubic grid C points [.out values]
    pure (r.out.getD values)

/-! ### `CubicSpline`, `splines.py` L9-122 -/

structure CubicSpline (K : Type) where
  a : List K
  b : List K
  orders : List ℕ
  values : Option (NdArray K) := none
  coeffs : Option (NdArray K) := none

/-- `set_values`, L48-66: the values are stored before they are filtered. -/
def CubicSpline.setValues (fin : K → Bool) (s : CubicSpline K) (v : NdArray K) :
    Py Unit × CubicSpline K :=
  if allFinite fin v = false then
    (throw (.exception "Trying to interpolate non-finite values"), s)
  else match v.reshape s.orders with
    | .error e => (throw e, s)
    | .ok v =>
      match filterCoeffs s.a s.b s.orders v with
      | .error e => (throw e, { s with values := some v })
      | .ok c => (pure (), { s with values := some v, coeffs := c })

/-- `__init__`, L17-46. -/
def CubicSpline.new (fin : K → Bool) (a b : List K) (orders : List ℕ)
    (values : Option (NdArray K)) : Py (CubicSpline K) := do
  if b.length ≠ a.length then throw .assertion
  if orders.length ≠ a.length then throw .assertion
  let s : CubicSpline K := { a := a, b := b, orders := orders }
  match values with
  | none => pure s
  | some v => do
    let r := s.setValues fin v
    r.1
    pure r.2

/-- `interpolate(points, values, with_derivatives)`, L68-105. -/
def CubicSpline.interpolate (fin : K → Bool) (s : CubicSpline K) (points : Points K)
    (values : Option (NdArray K)) (withDerivatives : Bool) (garbage : List ℕ → K) :
    Py (Outcome K) := do
  let grid ← gridTuple s.a s.b s.orders
  if Points.allFinite fin points = false then
    throw (.exception "Spline interpolator evaluated at non-finite points.")
  if withDerivatives then throw (.exception "Not implemented.")
  match points with
  | .point x =>
    match s.coeffs with
    | none => throw .typing
    | some C => do
      let r ← evalCubic grid C (.point x) []
      pure ⟨r.ret, values⟩
  | .rows xs => do
    if ¬ ∀ x ∈ xs, x.length = s.a.length then throw .assertion
    let A ← evalInto grid s.coeffs (.rows xs) (values.getD ⟨[xs.length], garbage⟩)
    pure ⟨.array A, values.map fun _ => A⟩

/-- `grid`, L107-113 (the cache is not modelled). -/
def CubicSpline.grid (s : CubicSpline K) : Py (NdArray K) :=
  Cartesian.mlinspace s.a s.b (s.orders.map fun n : ℕ => (n : ℤ)) "C"

/-- `res[0]` for what `interpolate` returns on one row. -/
def firstEntry : RetVal K → Py (RetVal K)
  | .array A =>
    match A.shape with
    | [] => throw .index
    | n :: _ => if n = 0 then throw .index else pure (.scalar (A.get [0]))
  | _ => throw .typeErr

/-- `__call__`, L115-122. -/
def CubicSpline.call (fin : K → Bool) (s : CubicSpline K) (points : Points K)
    (garbage : List ℕ → K) : Py (RetVal K) := do
  match points with
  | .point x => do
    let r ← s.interpolate fin (.rows [x]) none false garbage
    firstEntry r.ret
  | .rows xs => do
    let r ← s.interpolate fin (.rows xs) none false garbage
    pure r.ret

/-! ### `CubicSplines`, `splines.py` L125-229 -/

structure CubicSplines (K : Type) where
  a : List K
  b : List K
  orders : List ℕ
  mvalues : Option (NdArray K) := none
  mcoeffs : Option (NdArray K) := none

/-- `set_values`, L145-160. -/
def CubicSplines.setValues (fin : K → Bool) (s : CubicSplines K) (v : NdArray K) :
    Py Unit × CubicSplines K :=
  match v.shape.getLast? with
  | none => (throw .index, s)
  | some n =>
    match v.reshape (s.orders ++ [n]) with
    | .error e => (throw e, s)
    | .ok v =>
      if allFinite fin v = false then
        (throw (.exception "Trying to interpolate non-finite values"), s)
      else match filterMcoeffs s.a s.b s.orders v with
        | .error e => (throw e, s)
        | .ok c => (pure (), { s with mvalues := some v, mcoeffs := some c })

/-- `__init__`, L131-143. -/
def CubicSplines.new (fin : K → Bool) (a b : List K) (orders : List ℕ)
    (values : Option (NdArray K)) : Py (CubicSplines K) := do
  if b.length ≠ a.length then throw .assertion
  if orders.length ≠ a.length then throw .assertion
  let s : CubicSplines K := { a := a, b := b, orders := orders }
  match values with
  | none => pure s
  | some v => do
    let r := s.setValues fin v
    r.1
    pure r.2

/-- The checks of `interpolate`, L166-177, and the coefficients (`None` has no `shape`, L179). -/
def CubicSplines.checked (fin : K → Bool) (s : CubicSplines K) (points : Points K) :
    Py (List (List K) × NdArray K) := do
  match points with
  | .point _ => throw (.exception "Expected 2d array. Received 1d array")
  | .rows xs => do
    if ¬ ∀ x ∈ xs, x.length = s.a.length then throw (.exception "Second dimension")
    if Points.allFinite fin (.rows xs) = false then
      throw (.exception "Spline interpolator evaluated at non-finite points.")
    match s.mcoeffs with
    | none => throw .attribute
    | some C => pure (xs, C)

/-- `interpolate(points)`, L162-195. -/
def CubicSplines.interpolate (fin : K → Bool) (s : CubicSplines K) (points : Points K)
    (garbage : List ℕ → K) : Py (NdArray K) := do
  let r ← s.checked fin points
  let grid ← gridTuple s.a s.b s.orders
  evalInto grid (some r.2) (.rows r.1) ⟨[r.1.length, r.2.shape.getLastD 0], garbage⟩

/-- `interpolate(points, diff=True)`, L162-206. -/
def CubicSplines.interpolateDiff (fin : K → Bool) (s : CubicSplines K) (points : Points K)
    (garbage : List ℕ → K) : Py (NdArray K × NdArray K) := do
  let r ← s.checked fin points
  let m := r.2.shape.getLastD 0
  vecEvalCubicSplinesG s.a s.b (s.orders.map fun n : ℕ => (n : ℤ)) r.2 r.1
    (some ⟨[r.1.length, m], garbage⟩) (some ⟨[r.1.length, s.a.length, m], garbage⟩) garbage

/-- `grid`, L208-213. -/
def CubicSplines.grid (s : CubicSplines K) : Py (NdArray K) :=
  Cartesian.mlinspace s.a s.b (s.orders.map fun n : ℕ => (n : ℤ)) "C"

/-- `res.ravel()`. -/
def ravelAll (A : NdArray K) : NdArray K :=
  ⟨[A.shape.prod], fun idx => A.get (unravel A.shape (idx.headD 0))⟩

/-- `__call__`, L215-229. -/
def CubicSplines.call (fin : K → Bool) (s : CubicSplines K) (points : Points K)
    (garbage : List ℕ → K) : Py (NdArray K) :=
  match points with
  | .point x => do
    let r ← s.interpolate fin (.rows [x]) garbage
    pure (ravelAll r)
  | .rows xs => s.interpolate fin (.rows xs) garbage

/-! ### `LinearSpline`, `multilinear.py` L21-98 -/

/-- The rows of `np.row_stack([l.flatten() for l in np.meshgrid(*nodes, indexing="ij")])`: the
coordinate along axis `i` of every combination of nodes, in row-major order. -/
def meshRows (nodes : List (List K)) : NdArray K :=
  let sh := nodes.map List.length
  ⟨[nodes.length, sh.prod], fun idx =>
    (nodes.getD (idx.getD 0 0) []).getD ((unravel sh (idx.getD 1 0)).getD (idx.getD 0 0) 0) 0⟩

/-- `mlinspace(smin, smax, orders)`, L7-18.  With one axis `np.linspace` receives an array of length
one as number of points, which is not an index (`TypeError`); with no axis there is nothing to
stack (`ValueError`). -/
def mlinspaceColumns (smin smax : List K) (orders : List ℕ) : Py (NdArray K) := do
  if orders.length = 1 then throw .typeErr
  if orders.length = 0 then throw .value
  let nodes ← (List.range orders.length).mapM fun i : ℕ => do
    let a ← Cartesian.pyIndexNat smin i
    let b ← Cartesian.pyIndexNat smax i
    let n ← Cartesian.pyIndexNat orders i
    Cartesian.linspace a b (n : ℤ)
  pure (meshRows nodes)

structure LinearSpline (K : Type) where
  smin : List K
  smax : List K
  orders : List ℕ
  values : Option (NdArray K) := none

/-- `set_values`, L80-82. -/
def LinearSpline.setValues (s : LinearSpline K) (v : NdArray K) : Py Unit × LinearSpline K :=
  match v.reshape s.orders with
  | .error e => (throw e, s)
  | .ok v => (pure (), { s with values := some v })

/-- `__init__`, L65-72. -/
def LinearSpline.new (smin smax : List K) (orders : List ℕ) (values : Option (NdArray K)) :
    Py (LinearSpline K) := do
  let s : LinearSpline K := { smin := smin, smax := smax, orders := orders }
  match values with
  | none => pure s
  | some v => do
    let r := s.setValues v
    r.1
    pure r.2

/-- `grid`, L74-78. -/
def LinearSpline.grid (s : LinearSpline K) : Py (NdArray K) :=
  mlinspaceColumns s.smin s.smax s.orders

/-- `interpolate`, L84-92. -/
def LinearSpline.interpolate (s : LinearSpline K) (points : Points K) : Py (RetVal K) := do
  let grid ← gridTuple s.smin s.smax s.orders
  match s.values with
  | none => throw .attribute
  | some V => do
    let r ← evalLinear grid V points []
    pure r.ret

/-- `__call__`, L94-98. -/
def LinearSpline.call (s : LinearSpline K) (points : Points K) : Py (RetVal K) := do
  match points with
  | .point x => do
    let r ← s.interpolate (.rows [x])
    firstEntry r
  | .rows xs => s.interpolate (.rows xs)

/-! ### `LinearSplines`, `multilinear.py` L101-181 -/

structure LinearSplines (K : Type) where
  smin : List K
  smax : List K
  orders : List ℕ
  mvalues : Option (NdArray K) := none

/-- `set_values`, L160-164. -/
def LinearSplines.setValues (s : LinearSplines K) (v : NdArray K) : Py Unit × LinearSplines K :=
  match v.shape.getLast? with
  | none => (throw .index, s)
  | some n =>
    match v.reshape (s.orders ++ [n]) with
    | .error e => (throw e, s)
    | .ok v => (pure (), { s with mvalues := some v })

/-- `__init__`, L145-152. -/
def LinearSplines.new (smin smax : List K) (orders : List ℕ) (values : Option (NdArray K)) :
    Py (LinearSplines K) := do
  let s : LinearSplines K := { smin := smin, smax := smax, orders := orders }
  match values with
  | none => pure s
  | some v => do
    let r := s.setValues v
    r.1
    pure r.2

/-- `grid`, L154-158. -/
def LinearSplines.grid (s : LinearSplines K) : Py (NdArray K) :=
  mlinspaceColumns s.smin s.smax s.orders

/-- `interpolate`, L166-174. -/
def LinearSplines.interpolate (s : LinearSplines K) (points : Points K) : Py (RetVal K) := do
  let grid ← gridTuple s.smin s.smax s.orders
  match s.mvalues with
  | none => throw .attribute
  | some V => do
    let r ← evalLinear grid V points []
    pure r.ret

/-- `res.ravel()` for what `interpolate` returns. -/
def ravelRet : RetVal K → Py (RetVal K)
  | .array A => pure (.array (ravelAll A))
  | _ => throw .attribute

/-- `__call__`, L176-181. -/
def LinearSplines.call (s : LinearSplines K) (points : Points K) : Py (RetVal K) := do
  match points with
  | .point x => do
    let r ← s.interpolate (.rows [x])
    ravelRet r
  | .rows xs => s.interpolate (.rows xs)

end Interp.Objects
