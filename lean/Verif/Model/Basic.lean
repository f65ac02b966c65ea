import Mathlib.Algebra.Order.Floor.Ring
import Mathlib.Algebra.Field.Defs
import Mathlib.Data.List.Basic

/-!
# Scalars, exceptions and arrays

Python/numba primitives used by every model file.  Nothing here is specific to one source file of
`/repo`; comments say which Python construct is meant.
-/

namespace Interp

/-- What a Python call may raise.  `outOfBounds` stands for a memory access outside an array in
compiled code (numba does not check bounds: in reality this is undefined behaviour). -/
inductive Err where
  | zeroDivision
  | name (v : String)
  | syntaxErr
  | typing
  | exception (msg : String)
  | outOfBounds
  | assertion
  | value
  | index
  | attribute
  | typeErr
  | runtime
  | linAlg
  deriving DecidableEq, Repr

/-- Result of a Python call. -/
abbrev Py (α : Type) := Except Err α

/-- `int(floor(x))` and `int(x // y)`.  No laws: a theorem that only assumes `IntFloor K` holds for
every behaviour of the float-to-integer conversion (in particular on NaN and overflow). -/
class IntFloor (K : Type) where
  ifloor : K → ℤ
  ifloordiv : K → K → ℤ

instance {K : Type} [Field K] [LinearOrder K] [FloorRing K] : IntFloor K where
  ifloor x := ⌊x⌋
  ifloordiv x y := ⌊x / y⌋

/-- Python/numba `max(a, b)`: the second argument wins only if it is strictly larger. -/
def pyMax {α : Type} [LT α] [DecidableLT α] (a b : α) : α := if a < b then b else a

/-- Python/numba `min(a, b)`: the second argument wins only if it is strictly smaller. -/
def pyMin {α : Type} [LT α] [DecidableLT α] (a b : α) : α := if b < a then b else a

/-- Division in numba-compiled code (`error_model="python"`): a zero divisor raises. -/
def pyDiv {K : Type} [Div K] [Zero K] [BEq K] (x y : K) : Py K :=
  if y == 0 then throw .zeroDivision else pure (x / y)

/-- Numba index normalisation: a negative index counts from the end; outside `[-n, n)` the access is
out of bounds. -/
def wrapIndex (n : ℕ) (i : ℤ) : Option ℕ :=
  if 0 ≤ i ∧ i < n then some i.toNat
  else if -(n : ℤ) ≤ i ∧ i < 0 then some (i + n).toNat
  else none

/-- `l[i]` for a one dimensional array. -/
def listRead {α : Type} (l : List α) (i : ℤ) : Py α :=
  match wrapIndex l.length i with
  | none => throw .outOfBounds
  | some j => match l[j]? with
    | some v => pure v
    | none => throw .outOfBounds

/-- An n-dimensional array: shape and contents (the contents outside the shape are irrelevant). -/
structure NdArray (K : Type) where
  shape : List ℕ
  get : List ℕ → K

/-- A multi-index inside a shape. -/
def InShape : List ℕ → List ℕ → Prop
  | [], [] => True
  | n :: sh, i :: idx => i < n ∧ InShape sh idx
  | _, _ => False

def decInShape : (sh idx : List ℕ) → Decidable (InShape sh idx)
  | [], [] => isTrue trivial
  | [], _ :: _ => isFalse (fun h => h)
  | _ :: _, [] => isFalse (fun h => h)
  | n :: sh, i :: idx =>
    match Nat.decLt i n, decInShape sh idx with
    | isTrue h, isTrue h' => isTrue ⟨h, h'⟩
    | isFalse h, _ => isFalse (fun x => h x.1)
    | _, isFalse h' => isFalse (fun x => h' x.2)

instance (sh idx : List ℕ) : Decidable (InShape sh idx) := decInShape sh idx

/-- Normalisation of a multi-index. -/
def wrapIndices : List ℕ → List ℤ → Option (List ℕ)
  | [], [] => some []
  | n :: sh, i :: idx =>
    match wrapIndex n i, wrapIndices sh idx with
    | some j, some js => some (j :: js)
    | _, _ => none
  | _, _ => none

namespace NdArray

variable {K : Type}

/-- `A[i, j, ...]` (as many indices as dimensions). -/
def read (A : NdArray K) (idx : List ℤ) : Py K :=
  match wrapIndices A.shape idx with
  | some js => pure (A.get js)
  | none => throw .outOfBounds

/-- `A[i, j, ...] = v`. -/
def write (A : NdArray K) (idx : List ℤ) (v : K) : Py (NdArray K) :=
  match wrapIndices A.shape idx with
  | some js => pure { A with get := fun k => if k = js then v else A.get k }
  | none => throw .outOfBounds

/-- `np.zeros(shape)`. -/
def zeros [Zero K] (shape : List ℕ) : NdArray K := ⟨shape, fun _ => 0⟩

/-- Two arrays with the same observable contents. -/
def Same (A B : NdArray K) : Prop :=
  A.shape = B.shape ∧ ∀ idx, InShape A.shape idx → A.get idx = B.get idx

end NdArray

/-- `np.searchsorted(a, v)` (side `left`): the binary search
`while hi > lo: mid = (lo + hi) >> 1; if a[mid] < v: lo = mid + 1 else: hi = mid`. -/
def bsearch {K : Type} [LT K] [DecidableLT K] (a : List K) (v : K) (lo hi : ℕ) : ℕ :=
  if _h : lo < hi then
    let mid := (lo + hi) / 2
    match a[mid]? with
    | some y => if y < v then bsearch a v (mid + 1) hi else bsearch a v lo mid
    | none => bsearch a v lo mid
  else lo
termination_by hi - lo
decreasing_by all_goals omega

def searchsorted {K : Type} [LT K] [DecidableLT K] (a : List K) (v : K) : ℕ :=
  bsearch a v 0 a.length

end Interp
