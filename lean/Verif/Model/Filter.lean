import Verif.Model.Arrays
import Verif.Model.Codegen

/-!
# Filtering: computation of cubic spline coefficients

Model of `interpolation/splines/prefilter_cubic.py` and of the older
`interpolation/splines/filter_cubic.py`.  Arrays are updated in place exactly as in the source; the
views passed to `find_coefs_1d` are `Line`s of an array.
-/

namespace Interp.Filter
open Interp.Codegen (GridDim)

variable {K : Type} [Add K] [Sub K] [Mul K] [Div K] [Neg K] [Zero K] [One K] [NatCast K]
  [IntCast K] [LT K] [DecidableLT K] [BEq K]

/-- `basis`, `prefilter_cubic.py` L15 and `filter_cubic.py` L8. -/
def basis : ℕ → K
  | 0 => 1 / (6 : ℕ)
  | 1 => ((2 : ℕ) : K) / (3 : ℕ)
  | 2 => 1 / (6 : ℕ)
  | _ => 0

/-- `bands[i, j] /= bands[r, c]`. -/
def divBy (b : NdArray K) (i j r c : ℤ) : Py (NdArray K) := do
  let p ← b.read [r, c]
  b.modify [i, j] fun v => pyDiv v p

/-- `bands[i, j] -= bands[r, c] * bands[s, e]`. -/
def subMul (b : NdArray K) (i j r c s e : ℤ) : Py (NdArray K) := do
  let x ← b.read [r, c]
  let y ← b.read [s, e]
  b.modify [i, j] fun v => pure (v - x * y)

/-- First two rows of the elimination, `prefilter_cubic.py` L27-37, `filter_cubic.py` L18-28. -/
def elimHead (b : NdArray K) : Py (NdArray K) := do
  let b ← divBy b 0 1 0 0
  let b ← divBy b 0 2 0 0
  let b ← divBy b 0 3 0 0
  let b ← b.write [0, 0] 1
  let b ← subMul b 1 1 1 0 0 1
  let b ← subMul b 1 2 1 0 0 2
  let b ← subMul b 1 3 1 0 0 3
  let b ← b.write [0, 0] 0
  let b ← divBy b 1 2 1 1
  let b ← divBy b 1 3 1 1
  b.write [1, 1] 1

/-- One pass of the loop, `prefilter_cubic.py` L40-46, `filter_cubic.py` L31-37. -/
def elimRow (row : ℤ) (b : NdArray K) : Py (NdArray K) := do
  let b ← subMul b row 1 row 0 (row - 1) 2
  let b ← subMul b row 3 row 0 (row - 1) 3
  let b ← divBy b row 2 row 1
  let b ← divBy b row 3 row 1
  let b ← b.write [row, 0] 0
  b.write [row, 1] 1

/-- Last row, `prefilter_cubic.py` L48-54, `filter_cubic.py` L39-45. -/
def elimLast (M : ℤ) (b : NdArray K) : Py (NdArray K) := do
  let b ← subMul b (M + 1) 1 (M + 1) 0 (M - 1) 2
  let b ← subMul b (M + 1) 3 (M + 1) 0 (M - 1) 3
  let b ← subMul b (M + 1) 2 (M + 1) 1 M 2
  let b ← subMul b (M + 1) 3 (M + 1) 1 M 3
  let b ← divBy b (M + 1) 3 (M + 1) 2
  b.write [M + 1, 2] 1

/-- One pass of the back substitution, `prefilter_cubic.py` L58-59, `filter_cubic.py` L49-50. -/
def backRow (b : NdArray K) (l : Line) (row : ℤ) (C : NdArray K) : Py (NdArray K) := do
  let x ← b.read [row, 3]
  let y ← b.read [row, 2]
  let z ← C.read (l.pos (row + 1))
  C.write (l.pos row) (x - y * z)

/-- `coefs[0] = ...`, `prefilter_cubic.py` L62, `filter_cubic.py` L53. -/
def backFirst (b : NdArray K) (l : Line) (C : NdArray K) : Py (NdArray K) := do
  let x ← b.read [0, 3]
  let y1 ← b.read [0, 1]
  let z1 ← C.read (l.pos 1)
  let y2 ← b.read [0, 2]
  let z2 ← C.read (l.pos 2)
  C.write (l.pos 0) (x - y1 * z1 - y2 * z2)

/-- `solve_deriv_interp_1d(bands, coefs)` where `coefs` is the view `l` of `C`;
`prefilter_cubic.py` L19-62, `filter_cubic.py` L11-53. -/
def solveDerivInterp1d (b C : NdArray K) (l : Line) : Py (NdArray K × NdArray K) := do
  let M : ℤ := (l.len C : ℤ) - 2
  let b ← elimHead b
  let b ← pyFor (rangeZ 2 (M + 1)) elimRow b
  let b ← elimLast M b
  let v ← b.read [M + 1, 3]
  let C ← C.write (l.pos (M + 1)) v
  let C ← pyFor (rangeDownZ M 0) (backRow b l) C
  let C ← backFirst b l C
  pure (b, C)

/-- The boundary rows `abcd_left`, `abcd_right`, `prefilter_cubic.py` L72-75, `filter_cubic.py`
L65-75. -/
def abcd (δ : K) : ℤ → K
  | 0 => 1 * δ * δ
  | 1 => -((2 : ℕ) : K) * δ * δ
  | 2 => 1 * δ * δ
  | _ => 0

/-- Filling of `bands`, `prefilter_cubic.py` L77-84, `filter_cubic.py` L77-84; `data i` reads
`data[i]`. -/
def fillBands (δ : K) (M : ℤ) (data : ℤ → Py K) (b : NdArray K) : Py (NdArray K) := do
  let b ← pyFor (rangeZ 0 4) (fun i b => do
    let b ← b.write [0, i] (abcd δ i)
    b.write [M + 1, i] (abcd δ i)) b
  pyFor (rangeZ 0 M) (fun i b =>
    pyFor (rangeZ 0 3) (fun j b => do
      let b ← b.write [i + 1, j] (basis j.toNat)
      let v ← data i
      b.write [i + 1, 3] v) b) b

/-- `find_coefs_1d(δ, data, coefs, bands)`, `prefilter_cubic.py` L65-86; the state is
`(bands, C)`. `data` is a view of `src` (`some D`) or of `C` itself (`none`). -/
def findCoefs1d (δ : K) (src : Option (NdArray K)) (l : Line) (s : NdArray K × NdArray K) :
    Py (NdArray K × NdArray K) := do
  let M : ℤ := (s.1.shape.getD 0 0 : ℤ) - 2
  let b ← fillBands δ M (fun i => (src.getD s.2).read (l.pos i)) s.1
  solveDerivInterp1d b s.2 l

/-- `(grid[i][1] - grid[i][0]) / grid[i][2]`, `prefilter_cubic.py` L109 etc. On an array axis the
same expression reads its first three entries. -/
def dinv (g : GridDim K) : Py K :=
  match g with
  | .uniform a b n => pyDiv (b - a) (n : K)
  | .array gc => do
    let y ← listRead gc 1
    let x ← listRead gc 0
    let n ← listRead gc 2
    pyDiv (y - x) n

/-- `d == 1`, `prefilter_cubic.py` L106-119. -/
def filter1 (g0 : GridDim K) (D C : NdArray K) : Py (NdArray K) := do
  let dinv0 ← dinv g0
  let Mx := D.shape.getD 0 0
  let s ← findCoefs1d dinv0 (some D) ⟨[], []⟩ (.zeros [Mx + 2, 4], C)
  pure s.2

/-- `d == 2`, `prefilter_cubic.py` L121-143 (the second direction also uses `dinv_0`). -/
def filter2 (g0 g1 : GridDim K) (D C : NdArray K) : Py (NdArray K) := do
  let dinv0 ← dinv g0
  let _dinv1 ← dinv g1
  let Mx := D.shape.getD 0 0
  let My := D.shape.getD 1 0
  let Nx := Mx + 2
  let s ← pyFor (List.range My) (fun iy => findCoefs1d dinv0 (some D) ⟨[], [iy]⟩)
    (.zeros [Mx + 2, 4], C)
  let s ← pyFor (List.range Nx) (fun ix => findCoefs1d dinv0 none ⟨[ix], []⟩)
    (.zeros [My + 2, 4], s.2)
  pure s.2

/-- `d == 3`, `prefilter_cubic.py` L145-176. -/
def filter3 (g0 g1 g2 : GridDim K) (D C : NdArray K) : Py (NdArray K) := do
  let dinv0 ← dinv g0
  let dinv1 ← dinv g1
  let dinv2 ← dinv g2
  let Mx := D.shape.getD 0 0
  let My := D.shape.getD 1 0
  let Mz := D.shape.getD 2 0
  let Nx := Mx + 2
  let Ny := My + 2
  let s ← pyFor (List.range My) (fun iy => pyFor (List.range Mz) fun iz =>
    findCoefs1d dinv0 (some D) ⟨[], [iy, iz]⟩) (.zeros [Mx + 2, 4], C)
  let s ← pyFor (List.range Nx) (fun ix => pyFor (List.range Mz) fun iz =>
    findCoefs1d dinv1 none ⟨[ix], [iz]⟩) (.zeros [My + 2, 4], s.2)
  let s ← pyFor (List.range Nx) (fun ix => pyFor (List.range Ny) fun iy =>
    findCoefs1d dinv2 none ⟨[ix, iy], []⟩) (.zeros [Mz + 2, 4], s.2)
  pure s.2

/-- `d == 4`, `prefilter_cubic.py` L178-231. -/
def filter4 (g0 g1 g2 g3 : GridDim K) (D C : NdArray K) : Py (NdArray K) := do
  let dinv0 ← dinv g0
  let dinv1 ← dinv g1
  let dinv2 ← dinv g2
  let dinv3 ← dinv g3
  let Mx := D.shape.getD 0 0
  let My := D.shape.getD 1 0
  let Mz := D.shape.getD 2 0
  let Mz4 := D.shape.getD 3 0
  let Nx := Mx + 2
  let Ny := My + 2
  let Nz := Mz + 2
  let s ← pyFor (List.range My) (fun iy => pyFor (List.range Mz) fun iz =>
    pyFor (List.range Mz4) fun iz4 =>
      findCoefs1d dinv0 (some D) ⟨[], [iy, iz, iz4]⟩) (.zeros [Mx + 2, 4], C)
  let s ← pyFor (List.range Nx) (fun ix => pyFor (List.range Mz) fun iz =>
    pyFor (List.range Mz4) fun iz4 =>
      findCoefs1d dinv1 none ⟨[ix], [iz, iz4]⟩) (.zeros [My + 2, 4], s.2)
  let s ← pyFor (List.range Nx) (fun ix => pyFor (List.range Ny) fun iy =>
    pyFor (List.range Mz4) fun iz4 =>
      findCoefs1d dinv2 none ⟨[ix, iy], [iz4]⟩) (.zeros [Mz + 2, 4], s.2)
  let s ← pyFor (List.range Nx) (fun ix => pyFor (List.range Ny) fun iy =>
    pyFor (List.range Nz) fun iz =>
      findCoefs1d dinv3 none ⟨[ix, iy, iz], []⟩) (.zeros [Mz4 + 2, 4], s.2)
  pure s.2

/-- `_filter_cubic(grid, D, C)` for scalar data (`D.ndim == d`): dispatch on `d`,
`prefilter_cubic.py` L106-231. No branch for `d > 4`: numba finds no implementation. -/
def filterScalar (grid : List (GridDim K)) (D C : NdArray K) : Py (NdArray K) :=
  match grid with
  | [g0] => filter1 g0 D C
  | [g0, g1] => filter2 g0 g1 D C
  | [g0, g1, g2] => filter3 g0 g1 g2 D C
  | [g0, g1, g2, g3] => filter4 g0 g1 g2 g3 D C
  | _ => throw .typing

/-- `_filter_cubic(grid, D, C)`, `prefilter_cubic.py` L93-231, where `extra` is `D.ndim - d`: each
extra trailing dimension is a loop over `C[..., i_x]` (L97-104). -/
def filterNd (grid : List (GridDim K)) : ℕ → NdArray K → NdArray K → Py (NdArray K)
  | 0, D, C => filterScalar grid D C
  | extra + 1, D, C =>
    pyFor (List.range (C.shape.getLastD 0)) (fun ix C => do
      if D.shape.getLastD 0 ≤ ix then throw .outOfBounds
      let S ← filterNd grid extra (D.sliceLast ix) (C.sliceLast ix)
      pure (C.setLast ix S)) C

/-- In-place `filter_cubic(grid, D, C)`: the new contents of `C`. Arrays of other numbers of
dimensions than the loops expect do not type-check, nor do grids without a branch (`d = 0`, `d > 4`). -/
def filterInto (grid : List (GridDim K)) (D C : NdArray K) : Py (NdArray K) :=
  if 4 < grid.length ∨ grid.length = 0 ∨ D.shape.length < grid.length ∨ C.shape.length ≠ D.shape.length then
    throw .typing
  else filterNd grid (D.shape.length - grid.length) D C

/-- Allocating `filter_cubic(grid, D)`, `prefilter_cubic.py` L235-312. -/
def filterCubic (grid : List (GridDim K)) (D : NdArray K) : Py (NdArray K) :=
  let d := grid.length
  if 4 < d ∨ d = 0 then throw .typing
  else if D.shape.length = d then
    filterInto grid D (.zeros (D.shape.map (· + 2)))
  else if D.shape.length = d + 1 then
    filterInto grid D (.zeros ((D.shape.take d).map (· + 2) ++ D.shape.drop d))
  else throw .typing

/-- What a call to `prefilter` leaves observable: the returned array (`None` for in-place
filtering) and the contents of `out` if one was passed. -/
structure PrefilterOutcome (K : Type) where
  ret : Option (NdArray K)
  out : Option (NdArray K)

/-- `prefilter(grid, V, out, k)`, `prefilter_cubic.py` L329-364. -/
def prefilter (grid : List (GridDim K)) (V : NdArray K) (out : Option (NdArray K)) (k : ℕ) :
    Py (PrefilterOutcome K) :=
  if k = 1 then pure ⟨some V, out⟩
  else if k = 3 then
    match out with
    | none => do
      let C ← filterCubic grid V
      pure ⟨some C, none⟩
    | some C => do
      let C' ← filterInto grid V C
      pure ⟨none, some C'⟩
  else throw .typing

/-! ### The older module `filter_cubic.py` -/

/-- `find_coefs_1d(delta_inv, M, data, coefs)`, `filter_cubic.py` L56-86: allocates `bands`. -/
def oldFindCoefs1d (δ : K) (M : ℕ) (src : Option (NdArray K)) (l : Line) (C : NdArray K) :
    Py (NdArray K) := do
  let b ← fillBands δ M (fun i => (src.getD C).read (l.pos i)) (.zeros [M + 2, 4])
  let s ← solveDerivInterp1d b C l
  pure s.2

/-- `filter_coeffs_1d`, `filter_cubic.py` L89-97. -/
def filterCoeffs1d (d0 : K) (data : NdArray K) : Py (NdArray K) := do
  let M := data.shape.getD 0 0
  oldFindCoefs1d d0 M (some data) ⟨[], []⟩ (.zeros [M + 2])

/-- `filter_coeffs_2d`, `filter_cubic.py` L100-121. -/
def filterCoeffs2d (d0 d1 : K) (data : NdArray K) : Py (NdArray K) := do
  let Mx := data.shape.getD 0 0
  let My := data.shape.getD 1 0
  let C ← pyFor (List.range My) (fun iy => oldFindCoefs1d d0 Mx (some data) ⟨[], [iy]⟩)
    (.zeros [Mx + 2, My + 2])
  pyFor (List.range (Mx + 2)) (fun ix => oldFindCoefs1d d1 My none ⟨[ix], []⟩) C

/-- `filter_coeffs_3d`, `filter_cubic.py` L124-150. -/
def filterCoeffs3d (d0 d1 d2 : K) (data : NdArray K) : Py (NdArray K) := do
  let Mx := data.shape.getD 0 0
  let My := data.shape.getD 1 0
  let Mz := data.shape.getD 2 0
  let C ← pyFor (List.range My) (fun iy => pyFor (List.range Mz) fun iz =>
    oldFindCoefs1d d0 Mx (some data) ⟨[], [iy, iz]⟩) (.zeros [Mx + 2, My + 2, Mz + 2])
  let C ← pyFor (List.range (Mx + 2)) (fun ix => pyFor (List.range Mz) fun iz =>
    oldFindCoefs1d d1 My none ⟨[ix], [iz]⟩) C
  pyFor (List.range (Mx + 2)) (fun ix => pyFor (List.range (My + 2)) fun iy =>
    oldFindCoefs1d d2 Mz none ⟨[ix, iy], []⟩) C

/-- `filter_coeffs_4d`, `filter_cubic.py` L153-189. -/
def filterCoeffs4d (d0 d1 d2 d3 : K) (data : NdArray K) : Py (NdArray K) := do
  let Mx := data.shape.getD 0 0
  let My := data.shape.getD 1 0
  let Mz := data.shape.getD 2 0
  let Mz4 := data.shape.getD 3 0
  let C ← pyFor (List.range My) (fun iy => pyFor (List.range Mz) fun iz =>
    pyFor (List.range Mz4) fun iz4 =>
      oldFindCoefs1d d0 Mx (some data) ⟨[], [iy, iz, iz4]⟩)
    (.zeros [Mx + 2, My + 2, Mz + 2, Mz4 + 2])
  let C ← pyFor (List.range (Mx + 2)) (fun ix => pyFor (List.range Mz) fun iz =>
    pyFor (List.range Mz4) fun iz4 =>
      oldFindCoefs1d d1 My none ⟨[ix], [iz, iz4]⟩) C
  let C ← pyFor (List.range (Mx + 2)) (fun ix => pyFor (List.range (My + 2)) fun iy =>
    pyFor (List.range Mz4) fun iz4 =>
      oldFindCoefs1d d2 Mz none ⟨[ix, iy], [iz4]⟩) C
  pyFor (List.range (Mx + 2)) (fun ix => pyFor (List.range (My + 2)) fun iy =>
    pyFor (List.range (Mz + 2)) fun iz =>
      oldFindCoefs1d d3 Mz4 none ⟨[ix, iy, iz], []⟩) C

/-- `filter_data(dinv, data)`, `filter_cubic.py` L209-217: `None` in more than four dimensions. -/
def filterData (dinv : List K) (data : NdArray K) : Py (Option (NdArray K)) :=
  match dinv with
  | [d0] => do let C ← filterCoeffs1d d0 data; pure (some C)
  | [d0, d1] => do let C ← filterCoeffs2d d0 d1 data; pure (some C)
  | [d0, d1, d2] => do let C ← filterCoeffs3d d0 d1 d2 data; pure (some C)
  | [d0, d1, d2, d3] => do let C ← filterCoeffs4d d0 d1 d2 d3 data; pure (some C)
  | _ => pure none

/-- `filter_coeffs(smin, smax, orders, data)`, `filter_cubic.py` L192-197. `smin`, `smax` and
`orders` have the same length; the division is numpy's and never raises. -/
def filterCoeffs (smin smax : List K) (orders : List ℕ) (data : NdArray K) :
    Py (Option (NdArray K)) := do
  let dinv := List.zipWith (fun w n => w / ((n : ℕ) : K)) (List.zipWith (· - ·) smax smin) orders
  let data ← data.reshape orders
  filterData dinv data

/-- `filter_mcoeffs(smin, smax, orders, data)`, `filter_cubic.py` L200-206. -/
def filterMcoeffs (smin smax : List K) (orders : List ℕ) (data : NdArray K) : Py (NdArray K) := do
  let nSplines := data.shape.getLastD 0
  pyFor (List.range nSplines) (fun i C => do
    let S ← filterCoeffs smin smax orders (data.sliceLast i)
    match S with
    | some S => pure (C.setLast i S)
    | none => throw .typeErr) (.zeros (orders.map (· + 2) ++ [nSplines]))

end Interp.Filter
