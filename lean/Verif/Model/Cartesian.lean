import Verif.Model.Arrays
import Verif.Model.Codegen

/-!
# Cartesian products and grids

Model of `interpolation/cartesian.py` and of the grid functions of
`interpolation/splines/__init__.py`.
-/

namespace Interp.Cartesian
open Interp.Codegen (GridDim)

section
variable {K : Type}

/-- `_repeat_1d(x, K, out)`, `cartesian.py` L71-100, where `out` is the view `A[:, i]`. The compiled
integer division raises on a zero divisor. -/
def repeat1d (x : List K) (rep : ℕ) (A : NdArray K) (i : ℕ) : Py (NdArray K) := do
  let l : Line := ⟨[], [i]⟩
  let N := x.length
  if rep * N = 0 then throw .zeroDivision
  let L := l.len A / (rep * N)
  pyFor (List.range N) (fun n A => do
    let val ← listRead x n
    pyFor (List.range rep) (fun k => pyFor (List.range L) fun l' A => do
      let ind := k * N * L + n * L + l'
      A.write (l.pos ind) val) A) A

/-- `numpy.cumprod` of a list of integers, starting from the product `p`. -/
def cumprod (p : ℕ) : List ℕ → List ℕ
  | [] => []
  | n :: l => (p * n) :: cumprod (p * n) l

/-- The `repetitions`, `cartesian.py` L33-40. -/
def repetitions (order : String) (shapes : List ℕ) : List ℕ :=
  if order = "C" then cumprod 1 (1 :: shapes.dropLast)
  else
    let shapes := shapes.reverse
    let sh := 1 :: shapes.dropLast
    (cumprod 1 sh).reverse

/-- `cartesian(nodes, order)`, `cartesian.py` L13-45. With no axis at all `numpy.prod([])` is a
float, which `numpy.zeros` refuses. -/
def cartesian [Zero K] (nodes : List (List K)) (order : String) : Py (NdArray K) := do
  let shapes := nodes.map List.length
  let n := nodes.length
  if n = 0 then throw .typeErr
  let l := shapes.prod
  let out := NdArray.zeros [l, n]
  let reps := repetitions order shapes
  pyFor (List.range n) (fun i out => do
    let x ← listRead nodes i
    let rep ← listRead reps i
    repeat1d x rep out i) out

end

section
variable {K : Type} [Add K] [Sub K] [Mul K] [Div K] [Zero K] [IntCast K] [NatCast K] [BEq K]

/-- `numpy.linspace(a, b, num)` (numpy 1.x/2.x, `numpy/core/function_base.py`; not part of the
repository): `arange(num) * step + a`, the last entry overwritten by `b`; another formula when the
step underflows to zero. -/
def linspace (a b : K) (num : ℤ) : Py (List K) :=
  if num < 0 then throw .value
  else
    let div := num - 1
    let delta := b - a
    let y := (List.range num.toNat).map fun i : ℕ => (i : K)
    if 0 < div then
      let step := delta / (div : K)
      let y := if step == 0 then y.map fun t => t / (div : K) * delta + a
        else y.map fun t => t * step + a
      pure (y.set (num.toNat - 1) b)
    else pure (y.map fun t => t * delta + a)

/-- `l[i]` on a numpy array in interpreted code. -/
def pyIndexNat {α : Type} (l : List α) (i : ℕ) : Py α :=
  match l[i]? with
  | some v => pure v
  | none => throw .index

/-- `mlinspace(a, b, nums, order)`, `cartesian.py` L48-68. -/
def mlinspace (a b : List K) (nums : List ℤ) (order : String) : Py (NdArray K) := do
  let nodes ← (List.range nums.length).mapM fun i => do
    let ai ← pyIndexNat a i
    let bi ← pyIndexNat b i
    let ni ← pyIndexNat nums i
    linspace ai bi ni
  cartesian nodes order

end

/-! ### `splines/__init__.py` -/

section
variable {K : Type}

/-- An argument of `UCGrid`/`CGrid`: a tuple `(float, float, int)`, a numpy array, or anything else;
`typeable` tells whether `numba.typeof` accepts it (it raises `ValueError` otherwise). -/
inductive GridArg (K : Type) where
  | triple (a b : K) (n : ℤ)
  | ndarray (A : NdArray K)
  | other (typeable : Bool)

/-- One pass of the loop of `UCGrid`, `splines/__init__.py` L14-18. -/
def ucCheck [LT K] [DecidableLT K] : GridArg K → Py Unit
  | .triple a b n => do
    if ¬ a < b then throw .assertion
    if ¬ n > 1 then throw .assertion
  | .ndarray _ => throw .assertion
  | .other typeable => if typeable then throw .assertion else throw .value

/-- `UCGrid(*args)`, `splines/__init__.py` L12-20. -/
def ucGrid [LT K] [DecidableLT K] (args : List (GridArg K)) : Py (List (GridArg K)) := do
  args.forM ucCheck
  pure args

/-- One pass of the loop of `CGrid`, `splines/__init__.py` L25-34. -/
def cCheck [LT K] [DecidableLT K] : GridArg K → Py Unit
  | .ndarray A => do
    if ¬ A.shape.length = 1 then throw .assertion
    if ¬ A.shape.getD 0 0 ≥ 2 then throw .assertion
  | .triple a b n => do
    if ¬ a < b then throw .assertion
    if ¬ n > 1 then throw .assertion
  | .other typeable => if typeable then throw (.exception "Unknown dimension specification")
    else throw .value

/-- `CGrid(*args)`, `splines/__init__.py` L23-36. -/
def cGrid [LT K] [DecidableLT K] (args : List (GridArg K)) : Py (List (GridArg K)) := do
  args.forM cCheck
  pure args

end

section
variable {K : Type} [Add K] [Sub K] [Mul K] [Div K] [Neg K] [Zero K] [NatCast K] [IntCast K]
  [BEq K] [LT K] [DecidableLT K] [IntFloor K]

/-- `numpy.array([t], dtype="int64")`: truncation towards zero. -/
def toInt64 (t : K) : ℤ :=
  if t < 0 then -(IntFloor.ifloor (-t)) else IntFloor.ifloor t

/-- `g[0], g[1], g[2]` in `nodes`, `splines/__init__.py` L42: the three entries of a tuple, the
first three numbers of an array axis. -/
def dimTriple : GridDim K → Py (K × K × ℤ)
  | .uniform a b n => pure (a, b, n)
  | .array gc => do
    let x ← pyIndexNat gc 0
    let y ← pyIndexNat gc 1
    let z ← pyIndexNat gc 2
    pure (x, y, toInt64 z)

/-- `nodes(grid)`, `splines/__init__.py` L39-42. -/
def nodes (grid : List (GridDim K)) : Py (NdArray K) := do
  let ts ← grid.mapM dimTriple
  mlinspace (ts.map (·.1)) (ts.map (·.2.1)) (ts.map (·.2.2)) "C"

end

end Interp.Cartesian
