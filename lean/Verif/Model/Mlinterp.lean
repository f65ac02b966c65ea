import Verif.Model.Arrays
import Verif.Model.Codegen

/-!
# `interp` and `mlinterp`

Model of `interpolation/multilinear/mlinterp.py` and `interpolation/multilinear/fungen.py`.

Simplifications: arrays contain floats (integer arrays are converted by numba when read); tuples of
numbers given as evaluation point are homogeneous tuples of floats; every error raised while numba
types or generates code is a Python exception here.
-/

namespace Interp.Mlinterp
open Interp.Codegen

/-! ### Arguments -/

/-- An argument of `interp`. -/
inductive Arg (K : Type) where
  | arr (A : NdArray K)
  /-- an evenly spaced axis `(a, b, n)` -/
  | coord (a b : K) (n : ℤ)
  | flt (x : K)
  | int (n : ℤ)
  /-- a tuple of floats -/
  | tup (xs : List K)

/-- The numba type of an argument, as far as `detect_types` looks at it. -/
inductive Ty where
  | arr (ndim : ℕ)
  | scalar
  | uniTuple
  | other
  deriving DecidableEq

def tyOf {K : Type} : Arg K → Ty
  | .arr A => .arr A.shape.length
  | .coord .. => .other
  | .flt _ => .scalar
  | .int _ => .scalar
  | .tup [] => .other
  | .tup (_ :: _) => .uniTuple

def Ty.isArr : Ty → Bool
  | .arr _ => true
  | _ => false

def Ty.isScalar : Ty → Bool
  | .scalar => true
  | _ => false

/-- `e.ndim if isinstance(e, Array) else -1`. -/
def Ty.dim : Ty → ℤ
  | .arr n => n
  | _ => -1

/-- `e.ndim` (`AttributeError` if the type has none). -/
def Ty.ndim : Ty → Py ℕ
  | .arr n => pure n
  | _ => throw .attribute

inductive Values where
  | scalar
  | vector
  deriving DecidableEq

inductive Eval where
  | cartesian
  | scalar
  | point
  | vectorized
  | tuple
  deriving DecidableEq

/-- `InterpType`, mlinterp.py L88. -/
structure InterpType where
  d : ℕ
  values : Values
  eval : Eval
  deriving DecidableEq

/-- `max(dims)`. -/
def maxDim : List ℤ → Py ℤ
  | [] => throw .value
  | x :: l => pure (l.foldl pyMax x)

/-- `args[i].ndim`. -/
def ndimAt (args : List Ty) (i : ℕ) : Py ℕ :=
  match args[i]? with
  | some t => t.ndim
  | none => throw .index

/-- mlinterp.py L102-106. -/
def valuesType (n d : ℕ) : Py Values :=
  if n = d then pure .scalar
  else if n = d + 1 then pure .vector
  else throw .assertion

/-- mlinterp.py L108-132. -/
def evalType : List Ty → Py Eval
  | [] => throw .index
  | [.arr 1] => pure .point
  | [.arr 2] => pure .vectorized
  | [.uniTuple] => pure .tuple
  | [.scalar] => pure .scalar
  | [_] => throw (.exception "Undetected evaluation type.")
  | es =>
    if es.all Ty.isArr then
      if es.all (· = .arr 1) then pure .cartesian else throw .assertion
    else if es.all Ty.isScalar then pure .scalar
    else throw (.exception "Undetected evaluation type.")

/-- `detect_types(args)`, mlinterp.py L91-134. -/
def detectTypes (args : List Ty) : Py InterpType := do
  let dims := args.map Ty.dim
  let md ← maxDim dims
  let iC := if args.length = 3 then 1 else dims.idxOf md
  let d := iC
  let n ← ndimAt args iC
  let values ← valuesType n d
  let eval ← evalType (args.drop (iC + 1))
  pure ⟨d, values, eval⟩

/-! ### Interpolation at one point -/

section
variable {K : Type} [Add K] [Sub K] [Mul K] [Div K] [Neg K] [Zero K] [One K] [NatCast K]
  [IntCast K] [LT K] [DecidableLT K] [BEq K] [IntFloor K]

/-- `clamp(x, a, b)`, fungen.py L22-24. -/
def clamp (x a b : ℤ) : ℤ := pyMin b (pyMax a x)

/-- `get_index(gc, x)`, fungen.py L27-57. -/
def getIndex : GridDim K → K → Py (ℤ × K)
  | .uniform a b n, x => do
    let δ ← pyDiv (b - a) ((n - 1 : ℤ) : K)
    let d := x - a
    let i ← if δ == 0 then throw .zeroDivision else pure (IntFloor.ifloordiv d δ)
    let i := clamp i 0 (n - 2)
    let r := d - (i : K) * δ
    let lam ← pyDiv r δ
    pure (i, lam)
  | .array gc, x => do
    let N : ℤ := gc.length
    let i : ℤ := (searchsorted gc x : ℤ) - 1
    let i := clamp i 0 (N - 2)
    let g0 ← listRead gc i
    let g1 ← listRead gc (i + 1)
    let g0' ← listRead gc i
    let lam ← pyDiv (x - g0) (g1 - g0')
    pure (i, lam)

/-- `project(grid, point)`, fungen.py L266-284; `point` has at least as many entries as `grid`
(otherwise the generated code has no type). -/
def project : List (GridDim K) → List K → Py (List K)
  | [], _ => pure []
  | _ :: _, [] => throw .typing
  | g :: G, x :: xs => do
    let y ← match g with
      | .array gc => do
        let g0 ← listRead gc 0
        let g1 ← listRead gc ((gc.length : ℤ) - 1)
        pure (pyMin (pyMax x g0) g1)
      | .uniform a b _ => pure (pyMin (pyMax x a) b)
    let ys ← project G xs
    pure (y :: ys)

/-- Nested pairs. -/
inductive Tup (K : Type) where
  | leaf (v : K)
  | node (l r : Tup K)

/-- `get_coeffs(X, I)`, fungen.py L184-212: the nested tuple of `X[I[0] + e0, I[1] + e1, ...]`;
`pre` are the indices already chosen. -/
def getCoeffs (X : NdArray K) : List ℤ → List ℤ → Py (Tup K)
  | [], pre => do
    let v ← X.read pre
    pure (.leaf v)
  | i :: I, pre => do
    let l ← getCoeffs X I (pre ++ [i])
    let r ← getCoeffs X I (pre ++ [i + 1])
    pure (.node l r)

/-- `C[i0][i1]...`. -/
def Tup.at : Tup K → List Bool → Py K
  | .leaf v, [] => pure v
  | .node l _, false :: is => l.at is
  | .node _ r, true :: is => r.at is
  | _, _ => throw .typing

/-- The expression `gen_tensor_reduction("C", ["l[0]", ...], inds)`, fungen.py L220-248, evaluated
with `C`, `l`. -/
def tensorReduction (C : Tup K) : List K → List Bool → Py K
  | [], inds => C.at inds
  | h :: q, inds => do
    let e0 ← tensorReduction C q (inds ++ [false])
    let e1 ← tensorReduction C q (inds ++ [true])
    pure ((1 - h) * e0 + h * e1)

/-- `fmap(get_index, grid, u)` for tuples of the same length. -/
def getIndices : List (GridDim K) → List K → Py (List (ℤ × K))
  | g :: G, x :: xs => do
    let p ← getIndex g x
    let ps ← getIndices G xs
    pure (p :: ps)
  | _, _ => pure []

/-- The body of `mlininterp` for one point, mlinterp.py L52-58. -/
def mlPoint (G : List (GridDim K)) (C : NdArray K) (u : List K) : Py K := do
  let tmp ← getIndices G u
  let indices := tmp.map Prod.fst
  let barycenters := tmp.map Prod.snd
  let coeffs ← getCoeffs C indices []
  tensorReduction coeffs barycenters []

/-- Value returned by `interp` and `mlinterp`. -/
inductive Res (K : Type) where
  | num (v : K)
  | arr (A : NdArray K)

/-- Third argument of `mlinterp`. -/
inductive Pts (K : Type) where
  | tup (u : List K)
  | mat (A : NdArray K)
  | other

/-- The row `(a[n, 0], ..., a[n, d-1])` (`extract_row`, fungen.py L251-263, and `points[n, i]` in
the source generated by `make_mlinterp`). -/
def extractRow (A : NdArray K) (n d : ℕ) : Py (List K) :=
  (List.range d).mapM fun i => A.read [Int.ofNat n, Int.ofNat i]

/-- `res = zeros(N)`, `for n in range(N): res[n] = f(n)`. -/
def tabulate (N : ℕ) (f : ℕ → Py K) : Py (NdArray K) :=
  pyFor (List.range N) (fun n res => do
    let v ← f n
    res.write [(n : ℤ)] v) (NdArray.zeros [N])

/-- `mlinterp(grid, c, u)`, mlinterp.py L44-81. -/
def mlinterp (G : List (GridDim K)) (C : NdArray K) (u : Pts K) : Py (Res K) := do
  if G = [] ∨ C.shape.length ≠ G.length then throw .typing
  match u with
  | .tup u =>
    if u.length ≠ G.length then throw .typing
    let v ← mlPoint G C u
    pure (.num v)
  | .mat A =>
    match A.shape with
    | [N, _] =>
      let res ← tabulate N (fun n => do
        let uu ← extractRow A n G.length
        mlPoint G C uu)
      pure (.arr res)
    | _ => throw .typing
  | .other => throw .typing

/-! ### `interp` -/

/-- An argument used as an axis. -/
def axisOf : Arg K → Py (GridDim K)
  | .coord a b n => pure (.uniform a b n)
  | .arr A => match A.shape with
    | [n] => pure (.array ((List.range n).map fun i => A.get [i]))
    | _ => throw .typing
  | _ => throw .typing

/-- A number. -/
def scalarOf : Arg K → Py K
  | .flt x => pure x
  | .int n => pure (n : K)
  | _ => throw .typing

/-- `ppoint = project(grid, point)`, `mlinterp(grid, C, ppoint)`. -/
def projected (G : List (GridDim K)) (C : NdArray K) (x : List K) : Py K := do
  let p ← project G x
  mlPoint G C p

/-- A one-dimensional array argument. -/
def vec1 : Option (Arg K) → Py (NdArray K)
  | some (.arr A) => pure A
  | _ => throw .typing

/-- The function compiled from the source made by `make_mlinterp`, mlinterp.py L137-222, called with
`args`. -/
def runMlinterp (it : InterpType) (args : List (Arg K)) : Py (Res K) := do
  -- no source: `ast.parse(None)` raises
  if it.values = .vector then throw .typeErr
  -- the source contains `(,)`
  if it.d = 0 then throw .syntaxErr
  let G ← (args.take it.d).mapM axisOf
  let C ← match args[it.d]? with
    | some (.arr A) => pure A
    | _ => throw .typing
  match it.eval with
  | .scalar =>
    if args.length < 2 * it.d + 1 then throw .typing
    let x ← ((args.drop (it.d + 1)).take it.d).mapM scalarOf
    let v ← projected G C x
    pure (.num v)
  | .tuple =>
    match args[it.d + 1]? with
    | some (.tup xs) =>
      if xs.length < it.d then throw .typing
      let v ← projected G C xs
      pure (.num v)
    | _ => throw .typing
  | .point =>
    let A ← vec1 args[it.d + 1]?
    let x ← (List.range it.d).mapM fun i => A.read [Int.ofNat i]
    let v ← projected G C x
    pure (.num v)
  | .vectorized =>
    match args[it.d + 1]? with
    | some (.arr A) =>
      let res ← tabulate (A.shape.getD 0 0) (fun n => do
        let x ← extractRow A n it.d
        projected G C x)
      pure (.arr res)
    | _ => throw .typing
  | .cartesian =>
    if it.d = 1 then
      let A ← vec1 args[2]?
      let res ← tabulate (A.shape.getD 0 0) (fun n => do
        let x ← A.read [(n : ℤ)]
        projected G C [x])
      pure (.arr res)
    else if it.d = 2 then
      let A ← vec1 args[3]?
      let B ← vec1 args[4]?
      let N := A.shape.getD 0 0
      let M := B.shape.getD 0 0
      let res ← pyFor (List.range N) (fun n => pyFor (List.range M) fun m res => do
        let x ← A.read [(n : ℤ)]
        let y ← B.read [(m : ℤ)]
        let v ← projected G C [x, y]
        res.write [(n : ℤ), (m : ℤ)] v) (NdArray.zeros [N, M])
      pure (.arr res)
    else throw .typeErr

/-- `interp(*args)`, mlinterp.py L225-245. -/
def interp (args : List (Arg K)) : Py (Res K) := do
  let it ← detectTypes (args.map tyOf)
  let it := if it.d = 1 ∧ it.eval = .point then { it with eval := .cartesian } else it
  runMlinterp it args

end

end Interp.Mlinterp
