import Verif.Model.Permute
import Verif.Model.Trig
import Verif.Model.CompletePoly

/-!
# Smolyak grids and interpolation

Model of `interpolation/smolyak/grid.py` and `interpolation/smolyak/interp.py`.

`chebyvalto` is in `Model/Chebyvalto.lean`.  Not modelled: printing, plotting.  `scipy.linalg.lu` and
`numpy.linalg.solve` are parameters.  `numpy.cos`, `numpy.pi` and the literal `1e-14` belong to the
arithmetic.  Integers are unbounded.
-/

namespace Interp.Smolyak
open Interp.CompletePoly (transpose dot rangeN)

/-- `mu`: an `int` or an array of integers. -/
inductive Mu where
  | iso (m : ℤ)
  | aniso (ms : List ℤ)

/-! ### Index sets -/

/-- `max(l)`: `ValueError` on an empty sequence. -/
def pyMaxList : List ℤ → Py ℤ
  | [] => throw .value
  | x :: l => pure (l.foldl pyMax x)

/-- `itertools.combinations_with_replacement(l, k)`. -/
def combsRep {α : Type} : List α → ℕ → List (List α)
  | _, 0 => [[]]
  | [], _ + 1 => []
  | x :: l, k + 1 => (combsRep (x :: l) k).map (x :: ·) ++ combsRep l (k + 1)
termination_by l k => (k, l.length)

/-- `itertools.product(*ls)`. -/
def iterProduct {α : Type} : List (List α) → List (List α)
  | [] => [[]]
  | l :: ls => l.flatMap fun x => (iterProduct ls).map (x :: ·)

/-- `all(el <= mu + 1)`. -/
def allLe (el mu : List ℤ) : Bool := (List.zipWith (fun e m => decide (e ≤ m + 1)) el mu).all id

/-- `max_mu` in `smol_inds`, grid.py L346-351. -/
def maxMu (d : ℕ) : Mu → Py ℤ
  | .iso m => pure m
  | .aniso ms => if ms.length ≠ d then throw .value else pyMaxList ms

/-- The filter on the permutations, grid.py L364-370. -/
def permFilter : Mu → List ℤ → Bool
  | .iso _ => fun _ => true
  | .aniso ms => fun el => allLe el ms

/-- `smol_inds(d, mu)`, grid.py L321-377. -/
def smolInds (d : ℕ) (mu : Mu) : Py (List (List ℤ)) := do
  let max_mu ← maxMu d mu
  let possible := rangeZ 1 (max_mu + 2)
  let poss_inds := (combsRep possible d).filter fun el => decide ((d : ℤ) < el.sum ∧ el.sum ≤ d + max_mu)
  let true_inds ← poss_inds.mapM fun val => do
    let ps ← permute val
    pure (ps.filter (permFilter mu))
  let true_inds := true_inds ++ [[List.replicate d 1]]
  pure true_inds.flatten

/-- A dictionary with integer keys; the most recent assignment comes first. -/
abbrev Dict (α : Type) := List (ℤ × List α)

/-- `d[i]`. -/
def dictGet {α : Type} (d : Dict α) (i : ℤ) : Py (List α) :=
  match d.lookup i with
  | some v => pure v
  | none => throw (.exception "KeyError")

/-- `phi_chain(n)`, grid.py L279-313. The loop state is `(aphi_chain, curr_val)`. -/
def phiChain (n : ℤ) : Dict ℤ :=
  ((rangeZ 3 (n + 1)).foldl (fun (s : Dict ℤ × ℤ) i =>
    let end_val := 2 ^ (i - 1).toNat + 1
    let temp := rangeZ s.2 (end_val + 1)
    ((i, temp) :: s.1, end_val + 1)) ([(2, [2, 3]), (1, [1])], 4)).1

/-- `max_mu` in `poly_inds`, `build_grid` and `build_B`. -/
def muMax : Mu → Py ℤ
  | .iso m => pure m
  | .aniso ms => pyMaxList ms

/-- `inds` or `smol_inds(d, mu)`. -/
def indsOr (d : ℕ) (mu : Mu) : Option (List (List ℤ)) → Py (List (List ℤ))
  | some inds => pure inds
  | none => smolInds d mu

/-- `poly_inds(d, mu, inds)`, grid.py L380-429. -/
def polyInds (d : ℕ) (mu : Mu) (inds : Option (List (List ℤ))) : Py (List (List ℤ)) := do
  let inds ← indsOr d mu inds
  let max_mu ← muMax mu
  let aphi := phiChain (max_mu + 1)
  let base ← inds.mapM fun el => do
    let temp ← el.mapM (dictGet aphi)
    pure (iterProduct temp)
  pure base.flatten

/-- `m_i(i)`, grid.py L82-113. -/
def mI (i : ℤ) : Py ℤ :=
  if i < 0 then throw .value
  else if i = 0 then pure 0
  else if i = 1 then pure 1
  else pure (2 ^ (i - 1).toNat + 1)

/-! ### Arrays -/

section
variable {K : Type}

/-- `A[i, ...]`. -/
def getHead (A : NdArray K) (i : ℤ) : Py (NdArray K) :=
  match A.shape with
  | [] => throw .index
  | n :: sh => match wrapIndex n i with
    | none => throw .index
    | some k => pure ⟨sh, fun idx => A.get (k :: idx)⟩

/-- `A[i, ...] = B`, for `B` of the right shape. -/
def setHead (A : NdArray K) (i : ℤ) (B : NdArray K) : Py (NdArray K) :=
  match A.shape with
  | [] => throw .index
  | n :: sh => match wrapIndex n i with
    | none => throw .index
    | some k =>
      if B.shape = sh then
        pure ⟨n :: sh, fun idx => if idx.head? = some k then B.get idx.tail else A.get idx⟩
      else throw .value

/-- `np.array(rows)` for a list of tuples of the same length `d`. -/
def ofRows [Zero K] (d : ℕ) (rows : List (List K)) : NdArray K :=
  ⟨[rows.length, d], fun idx => (rows.getD (idx.getD 0 0) []).getD (idx.getD 1 0) 0⟩

variable [Add K] [Sub K] [Mul K] [Div K] [Neg K] [Zero K] [One K] [NatCast K] [IntCast K]
  [LT K] [DecidableLT K] [Trig K]

/-- `num_grid_points(d, mu)`, grid.py L53-79. -/
def numGridPoints (d mu : ℤ) : Option K :=
  if mu = 1 then some ((2 * d + 1 : ℤ) : K)
  else if mu = 2 then
    some (((1 + 4 * d : ℤ) : K) + ((4 * d * (d - 1) : ℤ) : K) / ((2 : ℕ) : K))
  else if mu = 3 then
    some (((1 + 8 * d : ℤ) : K) + ((12 * d * (d - 1) : ℤ) : K) / ((2 : ℕ) : K)
      + ((8 * d * (d - 1) * (d - 2) : ℤ) : K) / ((6 : ℕ) : K))
  else none

/-- `cheby2n(x, n, kind)`, grid.py L164-200. -/
def cheby2n (x : NdArray K) (n : ℕ) (kind : K) : Py (NdArray K) := do
  let dim := x.shape
  let results := NdArray.zeros ((n + 1) :: dim)
  let results ← setHead results 0 ⟨dim, fun _ => 1⟩
  let results ← setHead results 1 ⟨dim, fun idx => x.get idx * kind⟩
  pyFor (rangeN 2 (n + 1)) (fun i results => do
    let r1 ← getHead results ((i : ℤ) - 1)
    let r2 ← getHead results ((i : ℤ) - 2)
    setHead results (i : ℤ) ⟨dim, fun idx => ((2 : ℕ) : K) * x.get idx * r1.get idx - r2.get idx⟩)
    results

/-- `np.abs`. -/
def absK (x : K) : K := if x < 0 then -x else x

/-- `vals[np.where(np.abs(vals) < 1e-14)] = 0.0`. -/
def flush (x : K) : K := if absK x < Trig.tol then 0 else x

/-- `s_n(n)`, grid.py L203-235, for `n >= 1`. -/
def sN (n : ℕ) : List K :=
  if n = 1 then [0]
  else
    let m := 2 ^ (n - 1) + 1
    let comp_vals := (List.range m).map fun j : ℕ => ((j + 1 : ℕ) : K)
    let vals := comp_vals.map fun c =>
      -1 * Trig.cos (Trig.pi * (c - 1) / (((m : ℕ) : K) - 1))
    vals.map flush

/-- `Sn[range(0, num, 2)]`. -/
def evens {α : Type} : List α → List α
  | [] => []
  | [x] => [x]
  | x :: _ :: l => x :: evens l

/-- `Sn[range(1, num, 2)]`. -/
def odds {α : Type} : List α → List α
  | [] => []
  | [_] => []
  | _ :: y :: l => y :: odds l

/-- `a_chain(n)`, grid.py L238-276. The loop state is `(A_chain, Sn)`. -/
def aChain (n : ℕ) : Dict K :=
  ((rangeDownZ n 2).foldl (fun (s : Dict K × List K) seq =>
    ((seq, odds s.2) :: s.1, evens s.2)) ([(2, [-1, 1]), (1, [0])], sN n)).1

/-- `build_grid(d, mu, inds)`, grid.py L432-481. -/
def buildGrid (d : ℕ) (mu : Mu) (inds : Option (List (List ℤ))) : Py (NdArray K) := do
  let inds ← indsOr d mu inds
  let max_mu ← muMax mu
  let An : Dict K := aChain (max_mu + 1).toNat
  let points ← inds.mapM fun el => do
    let temp ← el.mapM (dictGet An)
    pure (iterProduct temp)
  pure (ofRows d points.flatten)

/-- The positions `comb[i] - 1` in the first axis of `Ts`, for the factors
`Ts[comb[i] - 1, i, :] for i in range(d)`. -/
def factorRows (Ts : NdArray K) (d : ℕ) (comb : List ℤ) : Py (List ℕ) :=
  (List.range d).mapM fun i : ℕ => do
    let c ← pyGet comb (i : ℤ)
    match wrapIndex (Ts.shape.getD 0 0) (c - 1) with
    | none => throw .index
    | some k => if i < Ts.shape.getD 1 0 then pure k else throw .index

/-- `reduce(mul, l)` for a nonempty list. -/
def reduceMul : List K → K
  | [] => 1
  | x :: l => l.foldl (· * ·) x

/-- `reduce` of an empty list raises. -/
def checkReduce (d : ℕ) (b_inds : List (List ℤ)) : Py Unit :=
  if d = 0 ∧ b_inds ≠ [] then throw .typeErr else pure ()

/-- Number of rows and columns of a matrix. -/
def dims2 (pts : NdArray K) : Py (ℕ × ℕ) :=
  match pts.shape with
  | [n, m] => pure (n, m)
  | _ => throw .index

/-- `b_inds` or `poly_inds(d, mu, smol_inds(d, mu))`, grid.py L522-524. -/
def pindsOr (d : ℕ) (mu : Mu) : Option (List (List ℤ)) → Py (List (List ℤ))
  | some b => pure b
  | none => do
    let inds ← smolInds d mu
    polyInds d mu (some inds)

/-- The matrix `B`: entry `(r, ind)` is the product of the `Ts[rows[ind][i], i, r]`, grid.py
L532-536. -/
def matB (Ts : NdArray K) (npts : ℕ) (rows : List (List ℕ)) : NdArray K :=
  ⟨[npts, rows.length], fun idx => reduceMul ((rows.getD (idx.getD 1 0) []).mapIdx fun i k =>
    Ts.get [k, i, idx.getD 0 0])⟩

/-- `build_B(d, mu, pts, b_inds)`, grid.py L484-536, L559. -/
def buildB (d : ℕ) (mu : Mu) (pts : NdArray K) (b_inds : Option (List (List ℤ))) :
    Py (NdArray K) := do
  let b_inds ← pindsOr d mu b_inds
  let max_mu ← muMax mu
  let n ← mI (max_mu + 1)
  let (npts, _) ← dims2 pts
  let Ts ← cheby2n (transpose pts) n.toNat 1
  checkReduce d b_inds
  let rows ← b_inds.mapM (factorRows Ts d)
  pure (matB Ts npts rows)

/-- `Us` after the concatenation and the multiplication by `i`, grid.py L540-543. -/
def scaledUs (Us : NdArray K) (n d npts : ℕ) : NdArray K :=
  ⟨[n + 2, d, npts], fun idx =>
    (if idx.headD 0 = 0 then 0 else Us.get ((idx.headD 0 - 1) :: idx.tail)) * ((idx.headD 0 : ℕ) : K)⟩

/-- The array `der_B`, grid.py L545-555. -/
def matDerB (Ts Us : NdArray K) (d npts : ℕ) (rows urows : List (List ℕ)) : NdArray K :=
  ⟨[rows.length, d, npts], fun idx =>
    let ind := idx.getD 0 0
    let i := idx.getD 1 0
    let r := idx.getD 2 0
    reduceMul ((rows.getD ind []).mapIdx fun k c =>
      if i ≠ k then Ts.get [c, k, r] else Us.get [(urows.getD ind []).getD k 0, k, r])⟩

/-- `build_B(d, mu, pts, b_inds, True)`, grid.py L484-557. -/
def buildBDeriv (d : ℕ) (mu : Mu) (pts : NdArray K) (b_inds : Option (List (List ℤ))) :
    Py (NdArray K × NdArray K) := do
  let b_inds ← pindsOr d mu b_inds
  let max_mu ← muMax mu
  let n ← mI (max_mu + 1)
  let (npts, cols) ← dims2 pts
  let Ts ← cheby2n (transpose pts) n.toNat 1
  checkReduce d b_inds
  let rows ← b_inds.mapM (factorRows Ts d)
  let B := matB Ts npts rows
  let Us ← cheby2n (transpose pts) n.toNat ((2 : ℕ) : K)
  -- `np.concatenate` of arrays of shapes `(1, d, npts)` and `(n + 1, cols, npts)`
  if d ≠ cols then throw .value
  let Us := scaledUs Us n.toNat d npts
  let urows ← b_inds.mapM (factorRows Us d)
  pure (B, matDerB Ts Us d npts rows urows)

/-! ### The class `SmolyakGrid` -/

/-- A bound given to `SmolyakGrid`; `other`: anything else, e.g. a tuple. -/
inductive Bound (K : Type) where
  | default
  | scalar (x : K)
  | array (l : List K)
  | other

/-- `self.lb` (or `self.ub`), grid.py L725-749; `none` if the attribute is not set. -/
def boundOf (d : ℤ) (deflt : K) : Bound K → Py (Option (List K))
  | .default => if d < 0 then throw .value else pure (some (List.replicate d.toNat deflt))
  | .scalar x => if d < 0 then throw .value else pure (some (List.replicate d.toNat x))
  | .array l => if (l.length : ℤ) = d then pure (some l) else throw .value
  | .other => pure none

/-- `scipy.linalg.lu(B, True)` and `numpy.linalg.solve`; not part of the repository. -/
structure LinAlg (K : Type) where
  lu : NdArray K → Py (NdArray K × NdArray K)
  solve : NdArray K → NdArray K → Py (NdArray K)

/-- Attributes of a `SmolyakGrid`. -/
structure Grid (K : Type) where
  d : ℕ
  mu : Mu
  lb : List K
  ub : List K
  inds : List (List ℤ)
  pinds : List (List ℤ)
  cubeGrid : NdArray K
  grid : NdArray K
  B : NdArray K
  BL : NdArray K
  BU : NdArray K

/-- `centers` and `radii`, grid.py L815-816, L833-834. -/
def center (lb ub : K) : K := lb + (ub - lb) / ((2 : ℕ) : K)
def radius (lb ub : K) : K := (ub - lb) / ((2 : ℕ) : K)

/-- A scalar operation between an array and the vector of bounds, with numpy's broadcasting rule: the
last axis of the array is matched with the bounds, and if one of the two has a single element it is
repeated (an array without axes is repeated too); other lengths raise `ValueError`. Both vectors of
bounds have the same number of elements, as the constructor ensures (grid.py L722-748). -/
def alongLast (op : K → K → K → K) (lb ub : List K) (pts : NdArray K) : Py (NdArray K) := do
  if lb.length ≠ ub.length then throw .value
  match pts.shape.getLast? with
  | none => pure ⟨[lb.length], fun idx => op (pts.get []) (lb.getD (idx.getLastD 0) 0) (ub.getD (idx.getLastD 0) 0)⟩
  | some m =>
    if m = lb.length then
      pure ⟨pts.shape, fun idx => op (pts.get idx) (lb.getD (idx.getLastD 0) 0) (ub.getD (idx.getLastD 0) 0)⟩
    else if m = 1 then
      pure ⟨pts.shape.dropLast ++ [lb.length], fun idx =>
        op (pts.get (idx.dropLast ++ [0])) (lb.getD (idx.getLastD 0) 0) (ub.getD (idx.getLastD 0) 0)⟩
    else if lb.length = 1 then
      pure ⟨pts.shape, fun idx => op (pts.get idx) (lb.getD 0 0) (ub.getD 0 0)⟩
    else throw .value

/-- `cube2dom(pts)`, grid.py L822-838. -/
def cube2dom (lb ub : List K) (pts : NdArray K) : Py (NdArray K) :=
  alongLast (fun t l u => t * radius l u + center l u) lb ub pts

/-- `dom2cube(pts)`, grid.py L805-820. -/
def dom2cube (lb ub : List K) (pts : NdArray K) : Py (NdArray K) :=
  alongLast (fun t l u => (t - center l u) / radius l u) lb ub pts

/-- Attribute access. -/
def attr {α : Type} : Option α → Py α
  | some x => pure x
  | none => throw .attribute

/-- The checks on `mu`, grid.py L755-756, L768-772. -/
def checkMu (d : ℕ) : Mu → Py Unit
  | .iso m => if m < 1 then throw .value else pure ()
  | .aniso ms =>
    if ms.any (fun m => decide (m < 1)) then throw .value
    else if ms.length ≠ d then throw .value
    else pure ()

/-- `SmolyakGrid(d, mu, lb, ub)`, grid.py L722-784. -/
def Grid.new (la : LinAlg K) (d : ℤ) (mu : Mu) (lb ub : Bound K) : Py (Grid K) := do
  let lb ← boundOf d (-1) lb
  let ub ← boundOf d 1 ub
  if d ≤ 1 then throw .value
  let d := d.toNat
  checkMu d mu
  let inds ← smolInds d mu
  let pinds ← polyInds d mu (some inds)
  let cube ← buildGrid d mu (some inds)
  let lb ← attr lb
  let ub ← attr ub
  let grid ← cube2dom lb ub cube
  let B ← buildB d mu cube (some pinds)
  let (l, u) ← la.lu B
  pure ⟨d, mu, lb, ub, inds, pinds, cube, grid, B, l, u⟩

/-! ### Interpolation -/

/-- `find_theta(sg, f_on_grid)`, interp.py L15-20. -/
def findTheta (la : LinAlg K) (sg : Grid K) (f : NdArray K) : Py (NdArray K) := do
  let t ← la.solve sg.BL f
  la.solve sg.BU t

/-- Attributes of a `SmolyakInterp`. -/
structure SInterp (K : Type) where
  sg : Grid K
  f : NdArray K
  theta : NdArray K

/-- `SmolyakInterp(sg, f_on_grid)`, interp.py L30-33. -/
def SInterp.new (la : LinAlg K) (sg : Grid K) (f : NdArray K) : Py (SInterp K) := do
  let theta ← findTheta la sg f
  pure ⟨sg, f, theta⟩

/-- `update_theta(f_on_grid)`, interp.py L35-37: the new object and the exception if any. -/
def SInterp.update (la : LinAlg K) (s : SInterp K) (f : NdArray K) : SInterp K × Option Err :=
  match findTheta la s.sg f with
  | .ok theta => (⟨s.sg, f, theta⟩, none)
  | .error e => (⟨s.sg, f, s.theta⟩, some e)

/-- What `interpolate` returns: one array or a list. -/
inductive Rets (K : Type) where
  | one (A : NdArray K)
  | many (l : List (NdArray K))

/-- `rets[0] if len(rets) == 1 else rets`, interp.py L130-131. -/
def unwrap : List (NdArray K) → Rets K
  | [A] => .one A
  | l => .many l

/-- `np.tensordot(theta, der_B, (0, 0)).T`, interp.py L105. -/
def gradDot (theta derB : NdArray K) : Py (NdArray K) :=
  match theta.shape, derB.shape with
  | p :: t, [q, d, npts] =>
    if p = q then
      pure ⟨npts :: d :: t.reverse, fun idx => ((List.range p).map fun j =>
        theta.get (j :: (idx.drop 2).reverse) * derB.get [j, idx.getD 1 0, idx.getD 0 0]).foldl
          (· + ·) 0⟩
    else throw .value
  | _, _ => throw .value

/-- `D * r[None, :]`: the last axis of `D` is aligned with `r`. -/
def scaleLast (D : NdArray K) (r : List K) : Py (NdArray K) :=
  let k := D.shape.getLast?.getD 0
  if k = r.length then pure ⟨D.shape, fun idx => D.get idx * r.getD (idx.getLast?.getD 0) 0⟩
  else if k = 1 then
    pure ⟨D.shape.dropLast ++ [r.length], fun idx =>
      D.get (idx.dropLast ++ [0]) * r.getD (idx.getLast?.getD 0) 0⟩
  else if r.length = 1 then pure ⟨D.shape, fun idx => D.get idx * r.getD 0 0⟩
  else throw .value

/-- `la.solve(sg.B_L.T, la.solve(sg.B_U.T, new_B.T)).T`, interp.py L126. -/
def derivX (la : LinAlg K) (sg : Grid K) (B : NdArray K) : Py (NdArray K) := do
  let t ← la.solve (transpose sg.BU) (transpose B)
  let t ← la.solve (transpose sg.BL) t
  pure (transpose t)

/-- `interpolate(pts, interp, deriv, deriv_th, deriv_X)`, interp.py L39-133. -/
def SInterp.interpolate (la : LinAlg K) (s : SInterp K) (pts : NdArray K)
    (interp deriv deriv_th deriv_X : Bool) : Py (Rets K) := do
  let (_, d) ← dims2 pts
  let sg := s.sg
  let x ← dom2cube sg.lb sg.ub pts
  -- `(new_B, rets)` after the first part, L100-116
  let st : Option (NdArray K) × List (NdArray K) ←
    if deriv then do
      let (B, derB) ← buildBDeriv d sg.mu x (some sg.pinds)
      let vals ← dot B s.theta
      let dVals ← gradDot s.theta derB
      let g ← scaleLast dVals (List.zipWith (fun u l => ((2 : ℕ) : K) / (u - l)) sg.ub sg.lb)
      pure (some B, (if interp then [vals] else []) ++ [g])
    else if interp then do
      let B ← buildB d sg.mu x (some sg.pinds)
      let vals ← dot B s.theta
      pure (some B, [vals])
    else pure (none, [])
  let st ←
    if deriv_th then do
      let B ← if ¬ interp ∧ ¬ deriv then buildB d sg.mu x (some sg.pinds) else attr st.1
      pure (some B, st.2 ++ [B])
    else pure st
  let st ←
    if deriv_X then do
      let B ← if ¬ interp ∧ ¬ deriv ∧ ¬ deriv_th then buildB d sg.mu x (some sg.pinds) else attr st.1
      let dX ← derivX la sg B
      pure (some B, st.2 ++ [dX])
    else pure st
  pure (unwrap st.2)

end

end Interp.Smolyak
