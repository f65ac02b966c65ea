import Verif.Model.PyExpr
import Verif.Model.Mlinterp

/-!
# The texts written by `fungen.py` and `mlinterp.py`

Model of the string building in `interpolation/multilinear/fungen.py` (the source of `fmap`, `funzip`, `get_coeffs`,
`tensor_reduction`, `extract_row`, `project`) and in `make_mlinterp` of `interpolation/multilinear/mlinterp.py`. What the
functions mean is in `Model/Mlinterp.lean`; that the texts say the same is property C98.
-/

namespace Interp.FungenText

open Tempita PyExpr

/-- `str.join(sep, l)`. -/
def join (sep : Str) (l : List Str) : Str := List.intercalate sep l

/-- `_map(*args)`, `fungen.py` L103-126. The argument types: `some k` for a tuple with `k` entries, `none` for other types (the
first one is the type of the function). -/
def fmapText : List (Option ℕ) → Option Str
  | [_, some k] =>
    some (c!"def __map(f, t): return (" ++ join c!", " ((List.range k).map fun i => c!"f(t[" ++ dec i ++ c!"])") ++ c!", )")
  | [_, some k, some k'] =>
    if k' ≠ k then none
    else some (c!"def __map(f, t1, t2): return ("
      ++ join c!", " ((List.range k).map fun i => c!"f(t1[" ++ dec i ++ c!"], t2[" ++ dec i ++ c!"])") ++ c!", )")
  | [_, some k, none] =>
    some (c!"def __map(f, t1, x): return ("
      ++ join c!", " ((List.range k).map fun i => c!"f(t1[" ++ dec i ++ c!"], x)") ++ c!", )")
  | _ => none

/-- `print_tuple`, `fungen.py` L166-167. -/
def printTuple (t : List Str) : Str := c!"(" ++ join c!", " t ++ c!",)"

/-- `ol_funzip`, `fungen.py` L161-173: `counts` are the numbers of entries of the entries of `t`. -/
def funzipText (counts : List ℕ) : Py Str :=
  match counts with
  | [] => throw .assertion
  | l :: ls =>
    if ¬ ls.all (· = l) then throw .assertion
    else
      let k := counts.length
      let tab := (List.range l).map fun j => (List.range k).map fun i => c!"t[" ++ dec i ++ c!"][" ++ dec j ++ c!"]"
      pure (c!"def funzip(t): return " ++ printTuple (tab.map printTuple))

/-- `itertools.product(*ls)`. -/
def product {α : Type} : List (List α) → List (List α)
  | [] => [[]]
  | l :: ls => l.flatMap fun a => (product ls).map (a :: ·)

/-- `mattotup(mat)` for `mat = np.array(l).reshape((2,) * d)` with `d` at least one, `fungen.py` L196-207. -/
def nest : ℕ → List Str → Str
  | 0, l => l.headD []
  | d + 1, l => c!"(" ++ join c!"," [nest d (l.take (2 ^ d)), nest d (l.drop (2 ^ d))] ++ c!")"

/-- `ol_get_coeffs`, `fungen.py` L189-211, for an array with `ndim` dimensions and a tuple with `d` entries. -/
def getCoeffsText (ndim d : ℕ) : Option Str :=
  if d < ndim then none
  else
    let ranges := (List.range d).map fun j => [c!"I[" ++ dec j ++ c!"]", c!"I[" ++ dec j ++ c!"]+1"]
    let mat := (product ranges).map fun e => c!"X[" ++ join c!"," e ++ c!"]"
    some (c!"def get_coeffs(X,I): return " ++ nest d mat)

/-- `gen_tensor_reduction(X, symbs, inds)`, `fungen.py` L221-234. -/
def genReduction (X : Str) : List Str → List ℕ → Str
  | [], inds => X ++ c!"[" ++ join c!"][" (inds.map dec) ++ c!"]"
  | h :: q, inds =>
    join c!" + " ((List.range 2).map fun i =>
      (if i = 1 then h else c!"(1-" ++ h ++ c!")") ++ c!"*(" ++ genReduction X q (inds ++ [i]) ++ c!")")

/-- `ol_tensor_reduction`, `fungen.py` L242-248, for `d` weights. -/
def reductionText (d : ℕ) : Str :=
  c!"def tensor_reduction(C,l): return " ++ genReduction c!"C" ((List.range d).map fun i => c!"l[" ++ dec i ++ c!"]") []

/-- `ol_extract_row`, `fungen.py` L256-263. -/
def extractRowText (d : ℕ) : Str :=
  c!"def extract_row(a, n, tup): return (" ++ join c!", " ((List.range d).map fun i => c!"a[n," ++ dec i ++ c!"]") ++ c!",)"

/-- A line of `ol_project`, `fungen.py` L276-279: `arr` says whether the axis is an array. -/
def projectLine (i : ℕ) (arr : Bool) : Str :=
  if arr then
    c!"    x_" ++ dec i ++ c!" = min(max(point[" ++ dec i ++ c!"], grid[" ++ dec i ++ c!"][0]), grid[" ++ dec i ++ c!"][grid["
      ++ dec i ++ c!"].shape[0]-1])\n"
  else
    c!"    x_" ++ dec i ++ c!" = min(max(point[" ++ dec i ++ c!"], grid[" ++ dec i ++ c!"][0]), grid[" ++ dec i ++ c!"][1])\n"

/-- `ol_project`, `fungen.py` L272-283. -/
def projectText (axes : List Bool) : Str :=
  c!"def __project(grid, point):\n" ++ (axes.mapIdx projectLine).flatten
    ++ (c!"    return (" ++ join c!", " ((List.range axes.length).map fun i => c!"x_" ++ dec i) ++ c!",)")

open Mlinterp in
/-- `make_mlinterp(it, funname)`, `mlinterp.py` L137-222. -/
def makeMlinterp (it : InterpType) (funname : Str) : Option Str :=
  let d := it.d
  if it.values = .vector then none
  else
    let grid := c!"(" ++ join c!"," ((List.range d).map fun i => c!"args[" ++ dec i ++ c!"]") ++ c!",)"
    let single (point : Str) : Str :=
      c!"def " ++ funname ++ c!"(*args):\n"
      ++ c!"    grid = " ++ grid ++ c!"\n"
      ++ c!"    C = args[" ++ dec d ++ c!"]\n"
      ++ c!"    point = " ++ point ++ c!"\n"
      ++ c!"    ppoint = project(grid, point)\n"
      ++ c!"    res = mlinterp(grid, C, ppoint)\n"
      ++ c!"    return res\n"
      ++ c!"    "
    match it.eval with
    | .scalar => some (single (c!"(" ++ join c!"," ((List.range d).map fun i => c!"args[" ++ dec (d + i + 1) ++ c!"]") ++ c!",)"))
    | .tuple => some (single (c!"args[" ++ dec (d + 1) ++ c!"]"))
    | .point =>
      some (single (c!"(" ++ join c!"," ((List.range d).map fun i => c!"args[" ++ dec (d + 1) ++ c!"][" ++ dec i ++ c!"]") ++ c!",)"))
    | .vectorized =>
      let p := c!"(" ++ join c!"," ((List.range d).map fun i => c!"points[n," ++ dec i ++ c!"]") ++ c!",)"
      some (c!"from numpy import zeros\n"
      ++ c!"def " ++ funname ++ c!"(*args):\n"
      ++ c!"    grid = " ++ grid ++ c!"\n"
      ++ c!"    C = args[" ++ dec d ++ c!"]\n"
      ++ c!"    points = args[" ++ dec (d + 1) ++ c!"]\n"
      ++ c!"    N = points.shape[0]\n"
      ++ c!"    res = zeros(N)\n"
      ++ c!"    # return res\n"
      ++ c!"    for n in range(N):\n"
      ++ c!"        ppoint = project(grid, " ++ p ++ c!")\n"
      ++ c!"        res[n] = mlinterp(grid, C, ppoint)\n"
      ++ c!"    return res\n")
    | .cartesian =>
      if d = 1 then
        some (c!"\n"
        ++ c!"from numpy import zeros\n"
        ++ c!"def " ++ funname ++ c!"(*args):\n"
        ++ c!"    grid = " ++ grid ++ c!"\n"
        ++ c!"    C = args[" ++ dec d ++ c!"]\n"
        ++ c!"    points_x = args[2]\n"
        ++ c!"    N = points_x.shape[0]\n"
        ++ c!"    res = zeros(N)\n"
        ++ c!"    for n in range(N):\n"
        ++ c!"        ppoint = project(grid,(points_x[n],))\n"
        ++ c!"        res[n] = mlinterp(grid, C, ppoint)\n"
        ++ c!"    return res\n")
      else if d = 2 then
        some (c!"\n"
        ++ c!"from numpy import zeros\n"
        ++ c!"def " ++ funname ++ c!"(*args):\n"
        ++ c!"    grid = " ++ grid ++ c!"\n"
        ++ c!"    C = args[" ++ dec d ++ c!"]\n"
        ++ c!"    points_x = args[3]\n"
        ++ c!"    points_y = args[4]\n"
        ++ c!"    N = points_x.shape[0]\n"
        ++ c!"    M = points_y.shape[0]\n"
        ++ c!"    res = zeros((N,M))\n"
        ++ c!"    for n in range(N):\n"
        ++ c!"        for m in range(M):\n"
        ++ c!"            ppoint = project(grid,(points_x[n], points_y[m]))\n"
        ++ c!"            res[n,m] = mlinterp(grid, C, ppoint)\n"
        ++ c!"    return res\n")
      else none

end Interp.FungenText
