import Verif.Model.Basic
import Mathlib.Data.List.Sort
import Mathlib.Data.List.MinMax

/-!
# The spline evaluation code generator

Model of `interpolation/splines/codegen.py` and of the entry points in
`interpolation/splines/eval_splines.py`.

`codegen.py` produces Python source from two templates; here the generator produces a list of
`Stmt` (one constructor per template line or block) and `run` interprets it.  Reading a variable that
has not been assigned yields `Err.name`; a program without `return` falls through.
-/

namespace Interp.Codegen

/-- Kind of an axis, `eval_splines.py` L112-114. -/
inductive GType where
  | uniform
  | nonuniform
  deriving DecidableEq, Repr

/-- An axis as passed by the user: `(a, b, n)` or a 1d array (`splines/__init__.py` L12-36). -/
inductive GridDim (K : Type) where
  | uniform (a b : K) (n : ℤ)
  | array (gc : List K)

def GridDim.gtype {K : Type} : GridDim K → GType
  | .uniform .. => .uniform
  | .array _ => .nonuniform

/-- Expression text built by `gen_trex` (`codegen.py` L10-28). `phi l i j` is the variable
`Φ_i_j` (`l = 0`), `d_Φ_i_j` (`l = 1`), `d_l_Φ_i_j` (`l ≥ 2`); `coef offs vec` is
`C[i_0 + o_0, ..., i_x]` with the trailing component index iff `vec`; `empty` is the empty string. -/
inductive TExpr where
  | phi (l i j : ℕ)
  | coef (offs : List ℕ) (vec : Bool)
  | mul (a b : TExpr)
  | add (a b : TExpr)
  | empty
  deriving DecidableEq, Repr

/-- `str.join(" + ", exprs)`, `codegen.py` L28. -/
def joinPlus : List TExpr → TExpr
  | [] => .empty
  | e :: es => es.foldl .add e

/-- `gen_trex`, `codegen.py` L10-28. -/
def genTrex : List (List TExpr) → (List ℕ → TExpr) → List ℕ → TExpr
  | [], c, inds => c inds
  | h :: q, c, inds => joinPlus (h.mapIdx fun i hi => .mul hi (genTrex q c (inds ++ [i])))

/-- `get_values`, `codegen.py` L31-57. `k` is the number of basis functions. -/
def getValues (d : ℕ) (multispline : Bool) (k : ℕ) (diffs : Option (List ℕ)) : TExpr :=
  let ds := diffs.getD (List.replicate d 0)
  let l := ds.mapIdx fun i diff => (List.range k).map fun ik => TExpr.phi diff i ik
  genTrex l (fun arg => .coef arg multispline) []

/-- Arguments of `get_code_spline`, `codegen.py` L419-428. -/
structure Cfg where
  d : ℕ
  k : ℕ
  vectorValued : Bool
  vectorized : Bool
  allocate : Bool
  gridTypes : List GType
  extrap : String
  /-- derivative orders are modelled as naturals -/
  orders : Option (List (List ℕ))

/-- `bases_orders`, `codegen.py` L429-432. -/
def basesOrders (d : ℕ) : Option (List (List ℕ)) → List (List ℕ)
  | none => List.replicate d [0]
  | some os =>
    (List.range (((os.map List.length).min?).getD 0)).map fun i =>
      (os.map fun o => o.getD i 0).dedup.insertionSort (· ≤ ·)

/-- What a constant-mode guard does when the point is outside: `codegen.py` L202-213 and L331-340. -/
inductive GuardBody where
  /-- `out[:] = 0.0; return out` -/
  | zeroReturn
  /-- `out[:] = 0.0` (no return: the code continues) -/
  | zeroFall
  /-- `val = 0.0; return val` -/
  | returnZero
  /-- `out[nn] = 0.0; continue` (or `out[nn,:]`) -/
  | zeroContinue
  deriving DecidableEq, Repr

/-- The name `val_...` of a temporary: digits of the orders, `codegen.py` L255 etc. -/
abbrev ValName := List Char

/-- `str(oo).strip("(").strip(")").replace(",", "").replace(" ", "")`. -/
def valName (oo : List ℕ) : ValName := oo.flatMap (Nat.toDigits 10)

/-- Allocation in the single-point template, `codegen.py` L153-167. -/
inductive AllocKind where
  | vals
  | valsOrders (m : ℕ)
  | orders (m : ℕ)

/-- Lines (or blocks of lines) of the two templates. -/
inductive Stmt where
  /-- `n_vals = C.shape[d]` -/
  | readNVals (d : ℕ)
  /-- `out = zeros(...)` -/
  | alloc (kind : AllocKind)
  /-- `out = allocate_output(grid, C, points, orders)` -/
  | allocateOutput (vec : Bool) (nOrders : Option ℕ)
  /-- `a_i, b_i, n_i, δ_i` -/
  | recoverUniform (i : ℕ)
  /-- `gc_i, N_i` and, in the vectorised template only, `a_i, b_i` -/
  | recoverNonuniform (i : ℕ) (bounds : Bool)
  /-- `x_i = points[i]` or `x_i = points[nn, i]` -/
  | loadX (i : ℕ)
  /-- `x_i = max(a_i, min(x_i, b_i))` -/
  | clampNearest (i : ℕ)
  /-- `if (x_i < a_i) or (x_i > b_i): ...` -/
  | constGuard (i : ℕ) (body : GuardBody)
  /-- `u_i, i_i, λ_i` -/
  | locateUniform (i : ℕ)
  /-- `i_i, δ_i, λ_i` -/
  | locateNonuniform (i : ℕ)
  /-- `blending_formula(1, l, i)` -/
  | blend1 (l i : ℕ)
  /-- `blending_formula(3, l, i)` -/
  | blend3 (l i : ℕ)
  /-- `for i_x in range(n_vals): out[.., i_x] = e` -/
  | storeComp (e : TExpr)
  /-- `for i_x in range(n_vals):` assignments `val_.. = e`, then `out[.., i_x, j] = val_..` -/
  | storeCompOrders (assigns : List (ValName × TExpr)) (stores : List ValName)
  /-- `val_.. = e` -/
  | assignVal (v : ValName) (e : TExpr)
  /-- `out[.., j] = val_..` -/
  | storeVal (j : ℕ) (v : ValName)
  /-- `out[nn] = e` -/
  | storeScalar (e : TExpr)
  /-- `val = e; return val` -/
  | retVal (e : TExpr)
  /-- `val = (val_.., ...); return val` -/
  | retTuple (vs : List ValName)
  /-- `return out` -/
  | retOut

/-- `blending_formula` dispatch, `codegen.py` L82-141. -/
def blendingFormula (k l i : ℕ) : Py Stmt :=
  if k = 1 then pure (.blend1 l i)
  else if k = 3 then
    if l ≤ 1 then pure (.blend3 l i) else throw (.exception "Not implemented")
  else throw (.exception "Spline order not implemented.")

/-- Template loop `for i in range(d): for l in bases_orders[i]`, `codegen.py` L236-241, L362-367. -/
def genBasis (cfg : Cfg) : Py (List Stmt) := do
  let bo := basesOrders cfg.d cfg.orders
  let blocks ← (List.range cfg.d).mapM fun i =>
    match bo[i]? with
    | none => throw Err.index
    | some ls => ls.mapM fun l => blendingFormula cfg.k l i
  pure blocks.flatten

/-- Grid parameters, `codegen.py` L170-184 (`bounds = false`) and L307-323 (`bounds = true`). -/
def genRecover (cfg : Cfg) (bounds : Bool) : List Stmt :=
  (List.range cfg.d).flatMap fun i =>
    match cfg.gridTypes[i]? with
    | some GType.uniform => [.recoverUniform i]
    | some GType.nonuniform => [.recoverNonuniform i bounds]
    | none => []

/-- Body of the constant-mode guard in the single-point template, `codegen.py` L202-213. -/
def pointGuard (cfg : Cfg) : GuardBody :=
  if cfg.vectorValued then (if cfg.allocate then .zeroReturn else .zeroFall) else .returnZero

/-- Coordinates, `codegen.py` L186-214 and L327-341. -/
def genCoords (cfg : Cfg) (guard : GuardBody) : List Stmt :=
  (List.range cfg.d).flatMap fun i =>
    [Stmt.loadX i]
      ++ (if cfg.extrap = "nearest" then [Stmt.clampNearest i] else [])
      ++ (if cfg.extrap = "constant" then [Stmt.constGuard i guard] else [])

/-- Indices and barycentric coordinates, `codegen.py` L216-234 and L343-360. -/
def genLocate (cfg : Cfg) : List Stmt :=
  (List.range cfg.d).flatMap fun i =>
    match cfg.gridTypes[i]? with
    | some GType.uniform => [.locateUniform i]
    | some GType.nonuniform => [.locateNonuniform i]
    | none => []

/-- Tensor reductions of the single-point template, `codegen.py` L244-290. -/
def genReducePoint (cfg : Cfg) : List Stmt :=
  if cfg.vectorValued then
    (match cfg.orders with
      | none => [Stmt.storeComp (getValues cfg.d true (cfg.k + 1) none)]
      | some os => [Stmt.storeCompOrders
          (os.map fun oo => (valName oo, getValues cfg.d true (cfg.k + 1) (some oo)))
          (os.map valName)])
      ++ (if cfg.allocate then [Stmt.retOut] else [])
  else
    match cfg.orders with
    | some os =>
      (os.map fun oo => Stmt.assignVal (valName oo) (getValues cfg.d false (cfg.k + 1) (some oo)))
        ++ (if cfg.allocate then [Stmt.retTuple (os.map valName)]
            else os.mapIdx fun j oo => Stmt.storeVal j (valName oo))
    | none => [Stmt.retVal (getValues cfg.d false (cfg.k + 1) none)]

/-- Tensor reductions of the vectorised template, `codegen.py` L370-411. -/
def genReduceVec (cfg : Cfg) : List Stmt :=
  if cfg.vectorValued then
    match cfg.orders with
    | none => [Stmt.storeComp (getValues cfg.d true (cfg.k + 1) none)]
    | some os => [Stmt.storeCompOrders
        (os.map fun oo => (valName oo, getValues cfg.d true (cfg.k + 1) (some oo)))
        (os.map valName)]
  else
    match cfg.orders with
    | some os =>
      (os.map fun oo => Stmt.assignVal (valName oo) (getValues cfg.d false (cfg.k + 1) (some oo)))
        ++ (os.mapIdx fun j oo => Stmt.storeVal j (valName oo))
    | none => [Stmt.storeScalar (getValues cfg.d false (cfg.k + 1) none)]

/-- A generated function: statements run once, statements run for each point (empty for the
single-point template), and whether it ends with `return out`. -/
structure Program where
  prelude : List Stmt
  body : List Stmt
  retOut : Bool

/-- Head of the single-point template, `codegen.py` L153-167. -/
def genAllocPoint (cfg : Cfg) : List Stmt :=
  if cfg.vectorValued then
    [Stmt.readNVals cfg.d] ++
      (if cfg.allocate then
        [match cfg.orders with
          | none => Stmt.alloc .vals
          | some os => Stmt.alloc (.valsOrders os.length)]
      else [])
  else if cfg.allocate then
    match cfg.orders with
    | none => []
    | some os => [Stmt.alloc (.orders os.length)]
  else []

/-- Head of the vectorised template, `codegen.py` L297-305. -/
def genAllocVec (cfg : Cfg) : List Stmt :=
  (if cfg.vectorValued then [Stmt.readNVals cfg.d] else [])
    ++ (if cfg.allocate then
      [Stmt.allocateOutput cfg.vectorValued (cfg.orders.map List.length)] else [])

/-- `get_code_spline`, `codegen.py` L419-461, with the two templates L149-416. -/
def getCodeSpline (cfg : Cfg) : Py Program := do
  -- `set(grid_types) != set(["uniform"]) and k > 1`
  if ¬ (cfg.gridTypes ≠ [] ∧ ∀ t ∈ cfg.gridTypes, t = .uniform) ∧ 1 < cfg.k then
    throw (.exception "Nonuniform grids are only supported for linear splines.")
  let basis ← genBasis cfg
  if cfg.vectorized then
    pure
      { prelude := genAllocVec cfg ++ genRecover cfg true
        body := genCoords cfg .zeroContinue ++ genLocate cfg ++ basis ++ genReduceVec cfg
        retOut := cfg.allocate }
  else
    pure
      { prelude := genAllocPoint cfg ++ genRecover cfg false ++ genCoords cfg (pointGuard cfg)
          ++ genLocate cfg ++ basis ++ genReducePoint cfg
        body := []
        retOut := false }

/-! ### Static checks made when the generated function is compiled -/

/-- Local variables of the generated code. -/
inductive Var where
  | a (i : ℕ) | b (i : ℕ) | n (i : ℕ) | delta (i : ℕ) | gc (i : ℕ) | N (i : ℕ)
  | x (i : ℕ) | idx (i : ℕ) | lam (i : ℕ) | phi (l i j : ℕ) | val (v : ValName) | nVals
  deriving DecidableEq

def TExpr.uses : TExpr → List Var
  | .phi l i j => [.phi l i j]
  | .coef offs _ => (List.range offs.length).map .idx
  | .mul a b => a.uses ++ b.uses
  | .add a b => a.uses ++ b.uses
  | .empty => []

def Stmt.uses : Stmt → List Var
  | .recoverUniform _ | .recoverNonuniform .. | .loadX _ | .readNVals _ | .retOut => []
  | .alloc .vals | .alloc (.valsOrders _) => [.nVals]
  | .alloc (.orders _) | .allocateOutput .. => []
  | .clampNearest i => [.a i, .b i, .x i]
  | .constGuard i _ => [.a i, .b i, .x i]
  | .locateUniform i => [.x i, .a i, .delta i, .n i]
  | .locateNonuniform i => [.x i, .gc i, .N i]
  | .blend1 l i => if l = 0 then [.lam i] else if l = 1 then [.delta i] else []
  | .blend3 l i => if l = 0 then [.lam i] else [.lam i, .delta i]
  | .storeComp e => .nVals :: e.uses
  | .storeCompOrders as vs => .nVals :: (as.flatMap fun p => p.2.uses) ++ vs.map .val
  | .assignVal _ e => e.uses
  | .storeVal _ v => [.val v]
  | .storeScalar e | .retVal e => e.uses
  | .retTuple vs => vs.map .val

def Stmt.defs : Stmt → List Var
  | .recoverUniform i => [.a i, .b i, .n i, .delta i]
  | .recoverNonuniform i bounds => [.gc i, .N i] ++ if bounds then [.a i, .b i] else []
  | .loadX i => [.x i]
  | .readNVals _ => [.nVals]
  | .locateUniform i => [.idx i, .lam i]
  | .locateNonuniform i => [.idx i, .delta i, .lam i]
  | .blend1 l i => [.phi l i 0, .phi l i 1]
  | .blend3 l i => [.phi l i 0, .phi l i 1, .phi l i 2, .phi l i 3]
  | .storeCompOrders as _ => as.map fun p => .val p.1
  | .assignVal v _ => [.val v]
  | _ => []

/-- A name that is read but assigned nowhere in the function is an undefined global: compilation
fails. -/
def allNamesAssigned (p : Program) : Prop :=
  ∀ s ∈ p.prelude ++ p.body, ∀ v ∈ s.uses, ∃ t ∈ p.prelude ++ p.body, v ∈ t.defs

instance (p : Program) : Decidable (allNamesAssigned p) := by
  unfold allNamesAssigned; infer_instance

def Stmt.isZeroReturn : Stmt → Bool
  | .constGuard _ .returnZero => true
  | _ => false

def Stmt.isRetTuple : Stmt → Bool
  | .retTuple _ => true
  | _ => false

/-- Return-type unification: a function returning both `0.0` (constant-mode guard) and a tuple
(`retTuple`) does not type. -/
def returnsUnify (p : Program) : Bool :=
  !(p.prelude.any Stmt.isZeroReturn && p.prelude.any Stmt.isRetTuple)

/-! ### Running the generated code -/

variable {K : Type} [Add K] [Sub K] [Mul K] [Div K] [Neg K] [Zero K] [One K] [NatCast K]
  [IntCast K] [LT K] [DecidableLT K] [BEq K] [IntFloor K]

/-- `Ad`, `eval_splines.py` L28-36. -/
def Ad : ℕ → ℕ → K
  | 0, 0 => -1 / 6 | 0, 1 => 3 / 6 | 0, 2 => -3 / 6 | 0, 3 => 1 / 6
  | 1, 0 => 3 / 6 | 1, 1 => -6 / 6 | 1, 2 => 0 / 6 | 1, 3 => 4 / 6
  | 2, 0 => -3 / 6 | 2, 1 => 3 / 6 | 2, 2 => 3 / 6 | 2, 3 => 1 / 6
  | 3, 0 => 1 / 6 | 3, 1 => 0 / 6 | 3, 2 => 0 / 6 | 3, 3 => 0 / 6
  | _, _ => 0

/-- `dAd`, `eval_splines.py` L37-39: `dAd[:, i] = Ad[:, i - 1] * (4 - i)`. -/
def dAd (j i : ℕ) : K := if i = 0 then 0 else Ad j (i - 1) * (((4 - i : ℕ) : ℕ) : K)

/-- Local variables attached to dimension `i`; `none` means not assigned yet. -/
structure DimVars (K : Type) where
  a : Option K := none
  b : Option K := none
  n : Option ℤ := none
  delta : Option K := none
  gc : Option (List K) := none
  N : Option ℤ := none
  x : Option K := none
  idx : Option ℤ := none
  lam : Option K := none
  phi : ℕ → ℕ → Option K := fun _ _ => none

structure State (K : Type) where
  dims : ℕ → DimVars K := fun _ => {}
  nVals : Option ℕ := none
  vals : List (ValName × K) := []
  out : Option (NdArray K) := none

/-- Values a call can return. -/
inductive RetVal (K : Type) where
  | none
  | scalar (v : K)
  | tuple (vs : List K)
  | array (A : NdArray K)

inductive Flow (K : Type) where
  | next
  | cont
  | ret (v : RetVal K)

/-- Read a variable. -/
def var {α : Type} (name : String) : Option α → Py α
  | some v => pure v
  | none => throw (.name name)

/-- The four values of `blending_formula(3, l, i)`, `codegen.py` L102-136. -/
def blend3Vals (l : ℕ) (lam delta : K) (j : ℕ) : K :=
  let m0 : K := if l = 0 then lam * lam * lam else 3 * lam * lam * delta
  let m1 : K := if l = 0 then lam * lam else 2 * lam * delta
  let m2 : K := if l = 0 then lam else delta
  let m3 : K := if l = 0 then 1 else 0
  if lam < 0 then
    dAd j 3 * m2 + Ad j 3 * m3
  else if 1 < lam then
    (3 * Ad j 0 + 2 * Ad j 1 + Ad j 2) * (m2 - m3)
      + (Ad j 0 + Ad j 1 + Ad j 2 + Ad j 3) * m3
  else
    Ad j 0 * m0 + Ad j 1 * m1 + Ad j 2 * m2 + Ad j 3 * m3

/-- The two values of `blending_formula(1, l, i)`, `codegen.py` L88-101. -/
def blend1Vals (l : ℕ) (lam delta : Py K) : Py (K × K) :=
  if l = 0 then do
    let t ← lam
    pure (1 - t, t)
  else if l = 1 then do
    let t ← delta
    let v0 ← pyDiv (-1) t
    let v1 ← pyDiv 1 t
    pure (v0, v1)
  else pure (0, 0)

/-- Value of an expression; `ix` is the current component index `i_x`. -/
def TExpr.eval (C : NdArray K) (dims : ℕ → DimVars K) (ix : ℕ) : TExpr → Py K
  | .phi l i j => var "Φ" ((dims i).phi l j)
  | .coef offs vec => do
    if offs = [] then throw .syntaxErr
    let idx ← (offs.mapIdx fun i o => (i, o)).mapM fun p => do
      let z ← var "i" (dims p.1).idx
      pure (z + (p.2 : ℤ))
    C.read (if vec then idx ++ [(ix : ℤ)] else idx)
  | .mul a b => do
    let u ← a.eval C dims ix
    let v ← b.eval C dims ix
    pure (u * v)
  | .add a b => do
    let u ← a.eval C dims ix
    let v ← b.eval C dims ix
    pure (u + v)
  | .empty => throw .syntaxErr

/-- `out[pre] = 0.0` (broadcast over the remaining dimensions). -/
def fillZero (A : NdArray K) (pre : List ℕ) : Py (NdArray K) :=
  if InShape (A.shape.take pre.length) pre then
    pure { A with get := fun idx => if idx.take pre.length = pre then 0 else A.get idx }
  else throw .outOfBounds

/-- What a statement sees of the call: the grid, the coefficients, the coordinates of the current
point, the index prefix of the current point in the output (`[]` or `[nn]`), the number of points. -/
structure Ctx (K : Type) where
  grid : List (GridDim K)
  C : NdArray K
  x : List K
  pre : List ℕ
  npts : ℕ

def State.setDim (s : State K) (i : ℕ) (v : DimVars K) : State K :=
  { s with dims := fun j => if j = i then v else s.dims j }

/-- `out` as an array; writing to `None` does not type. -/
def State.getOut (s : State K) : Py (NdArray K) :=
  match s.out with
  | some A => pure A
  | none => throw .typing

def lookupVal (v : ValName) (vals : List (ValName × K)) : Py K :=
  match vals.find? (fun p => p.1 = v) with
  | some p => pure p.2
  | none => throw (.name "val")

/-- `a_i, b_i, n_i, δ_i`, `codegen.py` L174-178. -/
def stepRecoverUniform (g : Option (GridDim K)) (v : DimVars K) : Py (DimVars K) :=
  match g with
  | some (.uniform a b n) => do
    let d ← pyDiv ((n : K) - 1) (b - a)
    pure { v with a := some a, b := some b, n := some n, delta := some d }
  | _ => throw .typing

/-- `gc_i, N_i` (`codegen.py` L181-182) and, if `bounds`, `a_i, b_i` (L320-321). -/
def stepRecoverNonuniform (g : Option (GridDim K)) (bounds : Bool) (v : DimVars K) :
    Py (DimVars K) :=
  match g with
  | some (.array gc) =>
    let v' := { v with gc := some gc, N := some (gc.length : ℤ) }
    if bounds then do
      let a ← listRead gc 0
      let b ← listRead gc ((gc.length : ℤ) - 1)
      pure { v' with a := some a, b := some b }
    else pure v'
  | _ => throw .typing

/-- `x_i = max(a_i, min(x_i, b_i))`, `codegen.py` L190. -/
def stepClamp (v : DimVars K) : Py (DimVars K) := do
  let a ← var "a" v.a
  let x ← var "x" v.x
  let b ← var "b" v.b
  pure { v with x := some (pyMax a (pyMin x b)) }

/-- Condition of the constant-mode guard, `codegen.py` L193. -/
def outside (v : DimVars K) : Py Bool := do
  let x ← var "x" v.x
  let a ← var "a" v.a
  let b ← var "b" v.b
  pure (decide (x < a) || decide (b < x))

/-- `codegen.py` L220-223. -/
def stepLocateUniform (v : DimVars K) : Py (DimVars K) := do
  let x ← var "x" v.x
  let a ← var "a" v.a
  let d ← var "δ" v.delta
  let n ← var "n" v.n
  let u := (x - a) * d
  let i := pyMax (pyMin (IntFloor.ifloor u) (n - 2)) 0
  pure { v with idx := some i, lam := some (u - (i : K)) }

/-- `codegen.py` L226-229. -/
def stepLocateNonuniform (v : DimVars K) : Py (DimVars K) := do
  let gc ← var "gc" v.gc
  let x ← var "x" v.x
  let N ← var "N" v.N
  let i := pyMin (pyMax ((searchsorted gc x : ℤ) - 1) 0) (N - 2)
  let g1 ← listRead gc (i + 1)
  let g0 ← listRead gc i
  let d := g1 - g0
  let lam ← pyDiv (x - g0) d
  pure { v with idx := some i, delta := some d, lam := some lam }

/-- Assign the variables `Φ_i_0, ..., Φ_i_(m-1)` of derivative order `l`. -/
def DimVars.setPhi (v : DimVars K) (l m : ℕ) (f : ℕ → K) : DimVars K :=
  { v with phi := fun l' j => if l' = l ∧ j < m then some (f j) else v.phi l' j }

def stepBlend1 (l : ℕ) (v : DimVars K) : Py (DimVars K) := do
  let p ← blend1Vals l (var "λ" v.lam) (var "δ" v.delta)
  pure (v.setPhi l 2 fun j => if j = 0 then p.1 else p.2)

def stepBlend3 (l : ℕ) (v : DimVars K) : Py (DimVars K) := do
  let lam ← var "λ" v.lam
  let delta ← if l = 0 then pure 0 else var "δ" v.delta
  pure (v.setPhi l 4 (blend3Vals l lam delta))

/-- Statements that only touch the variables of one dimension. -/
def stepDim (c : Ctx K) : Stmt → Option (ℕ × (DimVars K → Py (DimVars K)))
  | .recoverUniform i => some (i, stepRecoverUniform c.grid[i]?)
  | .recoverNonuniform i bounds => some (i, stepRecoverNonuniform c.grid[i]? bounds)
  | .loadX i => some (i, fun v => do
      let x ← listRead c.x (i : ℤ)
      pure { v with x := some x })
  | .clampNearest i => some (i, stepClamp)
  | .locateUniform i => some (i, stepLocateUniform)
  | .locateNonuniform i => some (i, stepLocateNonuniform)
  | .blend1 l i => some (i, stepBlend1 l)
  | .blend3 l i => some (i, stepBlend3 l)
  | _ => none

/-- `for i_x in range(n_vals): out[pre, i_x] = e`. -/
def storeCompLoop (c : Ctx K) (dims : ℕ → DimVars K) (e : TExpr) :
    List ℕ → NdArray K → Py (NdArray K)
  | [], A => pure A
  | ix :: rest, A => do
    let v ← e.eval c.C dims ix
    let A' ← A.write (c.pre.map Int.ofNat ++ [(ix : ℤ)]) v
    storeCompLoop c dims e rest A'

/-- Assignments `val_.. = e`, the most recent first. -/
def assignLoop (C : NdArray K) (dims : ℕ → DimVars K) (ix : ℕ) :
    List (ValName × TExpr) → List (ValName × K) → Py (List (ValName × K))
  | [], vals => pure vals
  | (name, e) :: rest, vals => do
    let v ← e.eval C dims ix
    assignLoop C dims ix rest ((name, v) :: vals)

/-- Stores `out[pre, j] = val_..` for consecutive `j`. -/
def storeValsLoop (vals : List (ValName × K)) (pre : List ℤ) :
    ℕ → List ValName → NdArray K → Py (NdArray K)
  | _, [], A => pure A
  | j, name :: rest, A => do
    let v ← lookupVal name vals
    let A' ← A.write (pre ++ [(j : ℤ)]) v
    storeValsLoop vals pre (j + 1) rest A'

def storeCompOrdersLoop (c : Ctx K) (dims : ℕ → DimVars K) (as : List (ValName × TExpr))
    (vs : List ValName) : List ℕ → List (ValName × K) → NdArray K →
    Py (List (ValName × K) × NdArray K)
  | [], vals, A => pure (vals, A)
  | ix :: rest, vals, A => do
    let vals' ← assignLoop c.C dims ix as vals
    let A' ← storeValsLoop vals' (c.pre.map Int.ofNat ++ [(ix : ℤ)]) 0 vs A
    storeCompOrdersLoop c dims as vs rest vals' A'

/-- One statement. -/
def exec (c : Ctx K) (st : Stmt) (s : State K) : Py (State K × Flow K) :=
  match stepDim c st with
  | some (i, f) => do
    let v ← f (s.dims i)
    pure (s.setDim i v, .next)
  | none =>
    match st with
    | .readNVals d =>
      match c.C.shape[d]? with
      | some m => pure ({ s with nVals := some m }, .next)
      | none => throw .typing
    | .alloc .vals => do
      let m ← var "n_vals" s.nVals
      pure ({ s with out := some (NdArray.zeros [m]) }, .next)
    | .alloc (.valsOrders o) => do
      let m ← var "n_vals" s.nVals
      pure ({ s with out := some (NdArray.zeros [m, o]) }, .next)
    | .alloc (.orders o) => pure ({ s with out := some (NdArray.zeros [o]) }, .next)
    | .allocateOutput vec nOrders =>
      -- `allocate_output`, `eval_splines.py` L55-91, two dimensional `points`
      let tail := nOrders.toList
      if vec then
        match c.C.shape.getLast? with
        | some m => pure ({ s with out := some (NdArray.zeros ([c.npts, m] ++ tail)) }, .next)
        | none => throw .typing
      else pure ({ s with out := some (NdArray.zeros ([c.npts] ++ tail)) }, .next)
    | .constGuard i body => do
      let o ← outside (s.dims i)
      if o then
        match body with
        | .zeroReturn => do
          let A ← s.getOut
          let A' ← fillZero A []
          pure ({ s with out := some A' }, .ret (.array A'))
        | .zeroFall => do
          let A ← s.getOut
          let A' ← fillZero A []
          pure ({ s with out := some A' }, .next)
        | .returnZero => pure (s, .ret (.scalar 0))
        | .zeroContinue => do
          let A ← s.getOut
          let A' ← fillZero A c.pre
          pure ({ s with out := some A' }, .cont)
      else pure (s, .next)
    | .storeComp e => do
      let m ← var "n_vals" s.nVals
      let A ← s.getOut
      let A' ← storeCompLoop c s.dims e (List.range m) A
      pure ({ s with out := some A' }, .next)
    | .storeCompOrders as vs => do
      let m ← var "n_vals" s.nVals
      let A ← s.getOut
      let r ← storeCompOrdersLoop c s.dims as vs (List.range m) s.vals A
      pure ({ s with out := some r.2, vals := r.1 }, .next)
    | .assignVal name e => do
      let v ← e.eval c.C s.dims 0
      pure ({ s with vals := (name, v) :: s.vals }, .next)
    | .storeVal j name => do
      let v ← lookupVal name s.vals
      let A ← s.getOut
      let A' ← A.write (c.pre.map Int.ofNat ++ [(j : ℤ)]) v
      pure ({ s with out := some A' }, .next)
    | .storeScalar e => do
      let v ← e.eval c.C s.dims 0
      let A ← s.getOut
      let A' ← A.write (c.pre.map Int.ofNat) v
      pure ({ s with out := some A' }, .next)
    | .retVal e => do
      let v ← e.eval c.C s.dims 0
      pure (s, .ret (.scalar v))
    | .retTuple names => do
      let vs ← names.mapM fun name => lookupVal name s.vals
      pure (s, .ret (.tuple vs))
    | .retOut => do
      let A ← s.getOut
      pure (s, .ret (.array A))
    | _ => pure (s, .next)

/-- A block of statements; stops at `return` or `continue`. -/
def run (c : Ctx K) : List Stmt → State K → Py (State K × Flow K)
  | [], s => pure (s, .next)
  | st :: rest, s => do
    let r ← exec c st s
    match r.2 with
    | .next => run c rest r.1
    | f => pure (r.1, f)

/-- `for nn in range(N): ...`, `codegen.py` L325. -/
def runRows (grid : List (GridDim K)) (C : NdArray K) (npts : ℕ) (body : List Stmt) :
    ℕ → List (List K) → State K → Py (State K)
  | _, [], s => pure s
  | nn, x :: rest, s => do
    let r ← run { grid := grid, C := C, x := x, pre := [nn], npts := npts } body s
    runRows grid C npts body (nn + 1) rest r.1

/-- What is observable after a call: the returned value and, if the user passed an output array,
its contents. -/
structure Outcome (K : Type) where
  ret : RetVal K
  out : Option (NdArray K)

/-- The `points` argument: a tuple or 1d array, or a 2d array given by its rows. -/
inductive Points (K : Type) where
  | point (x : List K)
  | rows (xs : List (List K))

def Points.isRows : Points K → Bool
  | .point _ => false
  | .rows _ => true

/-- `eval_spline(grid, C, points, out, k, diff, extrap_mode)`: specialisation (`__eval_spline`,
`eval_splines.py` L98-138), compilation, execution. -/
def evalSpline (grid : List (GridDim K)) (C : NdArray K) (points : Points K)
    (out : Option (NdArray K)) (k : ℕ) (orders : Option (List (List ℕ))) (extrap : String) :
    Py (Outcome K) := do
  let cfg : Cfg :=
    { d := grid.length
      k := k
      vectorValued := decide (C.shape.length = grid.length + 1)
      vectorized := points.isRows
      allocate := out.isNone
      gridTypes := grid.map GridDim.gtype
      extrap := extrap
      orders := orders }
  let prog ← getCodeSpline cfg
  if ¬ allNamesAssigned prog then throw (.name "undefined global")
  if !returnsUnify prog then throw .typing
  match points with
  | .point x => do
    let r ← run { grid := grid, C := C, x := x, pre := [], npts := 0 } prog.prelude { out := out }
    pure { ret := match r.2 with
                  | .ret v => v
                  | _ => .none
           out := if out.isSome then r.1.out else none }
  | .rows xs => do
    let r ← run { grid := grid, C := C, x := [], pre := [], npts := xs.length } prog.prelude
      { out := out }
    let s ← runRows grid C xs.length prog.body 0 xs r.1
    if prog.retOut then do
      let A ← s.getOut
      pure { ret := .array A, out := none }
    else pure { ret := .none, out := s.out }

/-- Extrapolation option types, `option_types.py`. -/
inductive ExtrapOpt where
  | nearest
  | constant
  | linear

def ExtrapOpt.mode : ExtrapOpt → String
  | .nearest => "nearest"
  | .constant => "constant"
  | .linear => "linear"

/-- The optional trailing arguments of `eval_linear(grid, C, points, ...)`: an output array, `None`, an
extrapolation option, or a value without item assignment (such as a number). -/
inductive OptArg (K : Type) where
  | extrap (e : ExtrapOpt)
  | out (A : NdArray K)
  | none
  | other

/-- `eval_spline(grid, C, points, out=o, k=k, diff="None", extrap_mode=mode)`. The code generated for one point and scalar
data does not use `out`; otherwise a value without item assignment does not compile. -/
def evalOutArg (k : ℕ) (grid : List (GridDim K)) (C : NdArray K) (points : Points K) (mode : String) :
    OptArg K → Py (Outcome K)
  | .out A => evalSpline grid C points (some A) k none mode
  | .none => evalSpline grid C points none k none mode
  | _ =>
    if points.isRows ∨ C.shape.length = grid.length + 1 then throw .typing
    else do
      let r ← evalSpline grid C points (some ⟨[], fun _ => 0⟩) k none mode
      pure { r with out := none }

/-- `eval_linear` (`k = 1`, L164-223) and `eval_cubic` (`k = 3`, L226-298): overload resolution on
the number and types of the trailing arguments. -/
def evalCompat (k : ℕ) (grid : List (GridDim K)) (C : NdArray K) (points : Points K) :
    List (OptArg K) → Py (Outcome K)
  | [] => evalSpline grid C points none k none "linear"
  | [.extrap e] => evalSpline grid C points none k none e.mode
  | [o] => evalOutArg k grid C points "linear" o
  | [o, .extrap e] => evalOutArg k grid C points e.mode o
  | _ => throw .typing

def evalLinear (grid : List (GridDim K)) (C : NdArray K) (points : Points K)
    (opt : List (OptArg K)) : Py (Outcome K) := evalCompat 1 grid C points opt

def evalCubic (grid : List (GridDim K)) (C : NdArray K) (points : Points K)
    (opt : List (OptArg K)) : Py (Outcome K) := evalCompat 3 grid C points opt

end Interp.Codegen
