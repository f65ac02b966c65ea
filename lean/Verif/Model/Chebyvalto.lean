import Verif.Model.Smolyak

/-!
# `chebyvalto`

Model of `chebyvalto` of `interpolation/smolyak/grid.py` (not exported and never called by the
package).  Matrices only: `row, col = x.shape` raises `ValueError` otherwise.
-/

namespace Interp.Smolyak
open Interp.CompletePoly (rangeN)

variable {K : Type} [Add K] [Sub K] [Mul K] [Zero K] [One K] [NatCast K]

/-- Bounds of a slice `lo:hi` of an axis of length `n`, with `lo, hi >= 0`. -/
def sliceBounds (n lo hi : ℕ) : ℕ × ℕ := (min lo n, max (min lo n) (min hi n))

/-- `A[:, lo:hi]` of a matrix. -/
def getCols (A : NdArray K) (lo hi : ℕ) : NdArray K :=
  let s := sliceBounds (A.shape.getD 1 0) lo hi
  ⟨[A.shape.getD 0 0, s.2 - s.1], fun idx => A.get [idx.getD 0 0, s.1 + idx.getD 1 0]⟩

/-- A binary operation on two matrices with the same number of rows; numpy repeats a single
column. -/
def matOp (f : K → K → K) (A B : NdArray K) : Py (NdArray K) :=
  let m := A.shape.getD 1 0
  let n := B.shape.getD 1 0
  if m = n ∨ m = 1 ∨ n = 1 then
    pure ⟨[A.shape.getD 0 0, if m = 1 then n else m], fun idx =>
      f (A.get [idx.getD 0 0, if m = 1 then 0 else idx.getD 1 0])
        (B.get [idx.getD 0 0, if n = 1 then 0 else idx.getD 1 0])⟩
  else throw .value

/-- `A[:, lo:hi] = B`. -/
def setCols (A : NdArray K) (lo hi : ℕ) (B : NdArray K) : Py (NdArray K) :=
  let s := sliceBounds (A.shape.getD 1 0) lo hi
  let n := B.shape.getD 1 0
  if n = s.2 - s.1 ∨ n = 1 then
    pure ⟨A.shape, fun idx =>
      if s.1 ≤ idx.getD 1 0 ∧ idx.getD 1 0 < s.2 then
        B.get [idx.getD 0 0, if n = 1 then 0 else idx.getD 1 0 - s.1]
      else A.get idx⟩
  else throw .value

/-- `chebyvalto(x, n, kind)`, grid.py L116-161. -/
def chebyvalto (x : NdArray K) (n : ℤ) (kind : K) : Py (NdArray K) :=
  match x.shape with
  | [row, col] => do
    -- `np.zeros` of a negative shape
    if (col : ℤ) * (n - 1) < 0 then throw .value
    let ret := NdArray.zeros [row, ((col : ℤ) * (n - 1)).toNat]
    let init : NdArray K := ⟨[row, col], fun _ => 1⟩
    let ret ← setCols ret 0 col ⟨[row, col], fun idx => x.get idx * kind⟩
    let x2 : NdArray K := ⟨[row, col], fun idx => ((2 : ℕ) : K) * x.get idx⟩
    let t ← matOp (· * ·) x2 (getCols ret 0 col)
    let t ← matOp (· - ·) t init
    let ret ← setCols ret col (2 * col) t
    pyFor (rangeN 3 n.toNat) (fun i ret => do
      let t ← matOp (· * ·) x2 (getCols ret (col * (i - 2)) (col * (i - 1)))
      let t ← matOp (· - ·) t (getCols ret (col * (i - 3)) (col * (i - 2)))
      setCols ret (col * (i - 1)) (col * i) t) ret
  | _ => throw .value

end Interp.Smolyak
