import Verif.Model.Basic

/-!
# Loops, views and reshaping

Python constructs used by several model files: `for` loops over ranges, one-dimensional views
`A[i, :, k]` of an array, slices `A[..., i]`, and row-major `reshape`.
-/

namespace Interp

/-- `for a in l: body`, with the state `s` threaded through. -/
def pyFor {α S : Type} (l : List α) (body : α → S → Py S) (s : S) : Py S :=
  l.foldlM (fun s a => body a s) s

/-- `range(lo, hi)`. -/
def rangeZ (lo hi : ℤ) : List ℤ := (List.range (hi - lo).toNat).map fun i => lo + Int.ofNat i

/-- `range(hi, lo, -1)`. -/
def rangeDownZ (hi lo : ℤ) : List ℤ := (List.range (hi - lo).toNat).map fun i => hi - Int.ofNat i

/-- The view `A[pre, :, post]`. -/
structure Line where
  pre : List ℕ
  post : List ℕ

namespace Line

/-- Index in the array of entry number `i` of the view. -/
def pos (l : Line) (i : ℤ) : List ℤ := l.pre.map Int.ofNat ++ i :: l.post.map Int.ofNat

/-- `view.shape[0]`. -/
def len {K : Type} (l : Line) (A : NdArray K) : ℕ := A.shape.getD l.pre.length 0

end Line

namespace NdArray

variable {K : Type}

/-- `A[i, ...] = f(A[i, ...])`, e.g. `A[i, j] -= v`. -/
def modify (A : NdArray K) (idx : List ℤ) (f : K → Py K) : Py (NdArray K) := do
  let v ← A.read idx
  let w ← f v
  A.write idx w

/-- The view `A[..., i]`. -/
def sliceLast (A : NdArray K) (i : ℕ) : NdArray K :=
  ⟨A.shape.dropLast, fun idx => A.get (idx ++ [i])⟩

/-- The array `A` after its view `A[..., i]` has been modified and contains `B`. -/
def setLast (A : NdArray K) (i : ℕ) (B : NdArray K) : NdArray K :=
  ⟨A.shape, fun idx => if idx.getLast? = some i then B.get idx.dropLast else A.get idx⟩

end NdArray

/-- Position of a multi-index in row-major order. -/
def ravel : List ℕ → List ℕ → ℕ
  | _ :: sh, i :: idx => i * sh.prod + ravel sh idx
  | _, _ => 0

/-- Multi-index at a row-major position. -/
def unravel : List ℕ → ℕ → List ℕ
  | [], _ => []
  | _ :: sh, r => (r / sh.prod) :: unravel sh (r % sh.prod)

/-- `A.reshape(shape)`: same elements in row-major order; `ValueError` if the sizes differ. -/
def NdArray.reshape {K : Type} (A : NdArray K) (shape : List ℕ) : Py (NdArray K) :=
  if A.shape.prod = shape.prod then
    pure ⟨shape, fun idx => A.get (unravel A.shape (ravel shape idx))⟩
  else throw .value

end Interp
