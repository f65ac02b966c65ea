import Verif.Model.Codegen

/-!
# Closed form of spline evaluation

A direct description of what evaluating a spline at one point means: one axis at a time, find the
cell, compute the weights, combine.  It has no templates, no environment and no exceptions; it is
used to state what the generated programs compute.  Valid in any arithmetic.
-/

namespace Interp.Ref
open Interp.Codegen

variable {K : Type} [Add K] [Sub K] [Mul K] [Div K] [Neg K] [Zero K] [One K] [NatCast K]
  [IntCast K] [LT K] [DecidableLT K] [BEq K] [IntFloor K]

/-- Left-to-right sum (the order matters for rounding). -/
def sumL : List K → K
  | [] => 0
  | e :: es => es.foldl (· + ·) e

/-- An axis on which evaluation does not divide by zero, in any arithmetic. -/
def WF : GridDim K → Prop
  | .uniform a b n => 2 ≤ n ∧ ((b - a == 0) = false)
  | .array gc => 2 ≤ gc.length ∧
      ∀ i, i + 1 < gc.length → ((gc.getD (i + 1) 0 - gc.getD i 0 == 0) = false)

/-- Number of nodes. -/
def size : GridDim K → ℕ
  | .uniform _ _ n => n.toNat
  | .array gc => gc.length

/-- Lower end of the axis. -/
def lo : GridDim K → K
  | .uniform a _ _ => a
  | .array gc => gc.getD 0 0

/-- Upper end of the axis. -/
def hi : GridDim K → K
  | .uniform _ b _ => b
  | .array gc => gc.getD (gc.length - 1) 0

/-- Number of the cell containing `x` (the first or last cell if `x` is outside). -/
def cell : GridDim K → K → ℤ
  | .uniform a b n, x =>
    pyMax (pyMin (IntFloor.ifloor ((x - a) * (((n : K) - 1) / (b - a)))) (n - 2)) 0
  | .array gc, x => pyMin (pyMax ((searchsorted gc x : ℤ) - 1) 0) ((gc.length : ℤ) - 2)

/-- The variable `δ`: inverse spacing on uniform axes, cell width on nonuniform axes. -/
def delta : GridDim K → K → K
  | .uniform a b n, _ => ((n : K) - 1) / (b - a)
  | .array gc, x => gc.getD ((cell (.array gc) x).toNat + 1) 0 - gc.getD (cell (.array gc) x).toNat 0

/-- Barycentric coordinate inside the cell. -/
def lam : GridDim K → K → K
  | .uniform a b n, x =>
    (x - a) * (((n : K) - 1) / (b - a)) - ((cell (.uniform a b n) x : ℤ) : K)
  | .array gc, x =>
    (x - gc.getD (cell (.array gc) x).toNat 0) / delta (.array gc) x

/-- The `k+1` weights along one axis for derivative order `l`. -/
def weights (k l : ℕ) (g : GridDim K) (x : K) : List K :=
  if k = 1 then
    if l = 0 then [1 - lam g x, lam g x]
    else if l = 1 then [-1 / delta g x, 1 / delta g x]
    else [0, 0]
  else (List.range 4).map (blend3Vals l (lam g x) (delta g x))

/-- Value at `x` of the tensor-product spline with coefficients `c`, derivative orders `oo`. -/
def evalAt (k : ℕ) : List (GridDim K) → List ℕ → List K → (List ℕ → K) → K
  | g :: G, l :: oo, x :: xs, c =>
    sumL ((weights k l g x).mapIdx fun j w =>
      w * evalAt k G oo xs (fun r => c (((cell g x).toNat + j) :: r)))
  | _, _, _, c => c []

/-- Projection on the axis interval. -/
def clampAxis (g : GridDim K) (x : K) : K := pyMax (lo g) (pyMin x (hi g))

/-- Is `x` outside the axis interval? -/
def isOutside (g : GridDim K) (x : K) : Bool := decide (x < lo g) || decide (hi g < x)

/-- Evaluation with extrapolation mode. -/
def evalMode (k : ℕ) (mode : String) (G : List (GridDim K)) (oo : List ℕ) (x : List K)
    (c : List ℕ → K) : K :=
  if mode = "nearest" then evalAt k G oo (List.zipWith clampAxis G x) c
  else if mode = "constant" then
    if (List.zipWith isOutside G x).any id then 0 else evalAt k G oo x c
  else evalAt k G oo x c

/-- Entry of the output for one point, at the trailing indices `tail`:
`[]`, `[order]`, `[component]` or `[component, order]`. -/
def rowEntry (k : ℕ) (mode : String) (G : List (GridDim K)) (C : NdArray K) (vec : Bool)
    (orders : Option (List (List ℕ))) (x : List K) (tail : List ℕ) : K :=
  let comp : List ℕ := if vec then tail.take 1 else []
  let oo : List ℕ :=
    match orders with
    | none => List.replicate G.length 0
    | some os => os.getD ((tail.drop comp.length).headD 0) []
  evalMode k mode G oo x (fun r => C.get (r ++ comp))

end Interp.Ref
