import Verif.Spec.PyLang
import Verif.Model.Mlinterp

/-!
# A small part of the Python language: evaluation

What numba-compiled code computes: integers and floats, tuples, arrays passed by reference (only one name refers to each
array that is written to, so environments hold the arrays themselves), division by zero raises, indices wrap around.
Functions that the code takes from its context are values of `Fn`.
-/

namespace Interp.Spec.PyLang

/-- Functions. -/
inductive Fn where
  | max | min | int | floor | range | zeros | searchsorted
  /-- `allocate_output`, `eval_splines.py` L50-91 -/
  | allocateOutput
  /-- `get_index` and `project` of `fungen.py` and `mlinterp` of `mlinterp.py` -/
  | getIndex | project | mlinterp
  deriving DecidableEq

inductive Val (K : Type) where
  | none
  | bool (b : Bool)
  | int (z : ℤ)
  | flt (x : K)
  | str (s : Str)
  | slice
  | tup (vs : List (Val K))
  | arr (A : NdArray K)
  | range (m : ℤ)
  | fn (f : Fn)
  /-- the module `numpy` -/
  | numpy

abbrev Env (K : Type) := Str → Option (Val K)

def Env.set {K : Type} (env : Env K) (x : Str) (v : Val K) : Env K := fun y => if y = x then some v else env y

section
variable {K : Type} [Add K] [Sub K] [Mul K] [Div K] [Neg K] [Zero K] [One K] [NatCast K]
  [IntCast K] [LT K] [DecidableLT K] [BEq K] [IntFloor K]

/-- Numerals: `0.0`, `1.0` are zero and one, and conversion of an integer to a float gives the float of that name. -/
structure LawfulLit (K : Type) [Zero K] [One K] [NatCast K] [IntCast K] : Prop where
  zero : ((0 : ℕ) : K) = 0
  one : ((1 : ℕ) : K) = 1
  int : ∀ n : ℕ, ((n : ℤ) : K) = (n : K)

/-- The value of a name: local, or from the context. -/
def lookup (ctx env : Env K) (x : Str) : Py (Val K) :=
  match env x with
  | some v => pure v
  | none => match ctx x with
    | some v => pure v
    | none => throw (.name (String.ofList x))

/-- Conversion to a float. -/
def toFloat : Val K → Py K
  | .int z => pure (z : K)
  | .flt x => pure x
  | _ => throw .typing

/-- Arithmetic of two numbers. -/
def arith (fi : ℤ → ℤ → ℤ) (fk : K → K → K) : Val K → Val K → Py (Val K)
  | .int a, .int b => pure (.int (fi a b))
  | a, b => do
    let x ← toFloat a
    let y ← toFloat b
    pure (.flt (fk x y))

/-- `a < b`. -/
def less : Val K → Val K → Py (Val K)
  | .int a, .int b => pure (.bool (decide (a < b)))
  | a, b => do
    let x ← toFloat a
    let y ← toFloat b
    pure (.bool (decide (x < y)))

def divide (a b : Val K) : Py (Val K) := do
  let x ← toFloat a
  let y ← toFloat b
  let q ← pyDiv x y
  pure (.flt q)

/-- Binary operators other than `or`. -/
def binary : Op → Val K → Val K → Py (Val K)
  | .plus, a, b => arith (· + ·) (· + ·) a b
  | .minus, a, b => arith (· - ·) (· - ·) a b
  | .star, a, b => arith (· * ·) (· * ·) a b
  | .slash, a, b => divide a b
  | .lt, a, b => less a b
  | .gt, a, b => less b a
  | _, _, _ => throw .syntaxErr

def negate : Val K → Py (Val K)
  | .int a => pure (.int (-a))
  | .flt x => pure (.flt (-x))
  | _ => throw .typing

def truth : Val K → Py Bool
  | .bool b => pure b
  | _ => throw .typing

def toInts : List (Val K) → Py (List ℤ)
  | [] => pure []
  | .int z :: vs => do
    let zs ← toInts vs
    pure (z :: zs)
  | _ => throw .typing

/-- `v[is]`: an element of an array or of a tuple. -/
def getItem (v : Val K) (is : List (Val K)) : Py (Val K) := do
  let zs ← toInts is
  match v, zs with
  | .arr A, _ => do
    let x ← A.read zs
    pure (.flt x)
  | .tup vs, [z] =>
    match wrapIndex vs.length z with
    | some i => match vs[i]? with
      | some w => pure w
      | none => throw .index
    | none => throw .index
  | _, _ => throw .typing

/-- `A[pre, :, ...] = x`: every element whose index begins with `pre`. -/
def fill (A : NdArray K) (pre : List ℤ) (x : K) : Py (NdArray K) :=
  match wrapIndices (A.shape.take pre.length) pre with
  | some js => pure { A with get := fun k => if k.take js.length = js then x else A.get k }
  | none => throw .outOfBounds

def isSlice : Val K → Bool
  | .slice => true
  | _ => false

/-- `A[is] = x` for a number `x`: integers, then only `:`; missing subscripts count as `:`. -/
def setItem (A : NdArray K) (is : List (Val K)) (x : K) : Py (NdArray K) := do
  let pre := is.takeWhile fun v => !isSlice v
  if A.shape.length < is.length ∨ ¬ (is.dropWhile fun v => !isSlice v).all isSlice then throw .typing
  let zs ← toInts pre
  if zs.length = A.shape.length then A.write zs x else fill A zs x

/-- Attributes. -/
def getAttr (v : Val K) (s : Str) : Py (Val K) :=
  match v with
  | .arr A => if s = ['s', 'h', 'a', 'p', 'e'] then pure (.tup (A.shape.map fun n : ℕ => Val.int (n : ℤ))) else throw .attribute
  | .numpy =>
    if s = ['s', 'e', 'a', 'r', 'c', 'h', 's', 'o', 'r', 't', 'e', 'd'] then pure (.fn .searchsorted) else throw .attribute
  | _ => throw .attribute

def numMax : Val K → Val K → Py (Val K)
  | .int a, .int b => pure (.int (pyMax a b))
  | a, b => do
    let x ← toFloat a
    let y ← toFloat b
    pure (.flt (pyMax x y))

def numMin : Val K → Val K → Py (Val K)
  | .int a, .int b => pure (.int (pyMin a b))
  | a, b => do
    let x ← toFloat a
    let y ← toFloat b
    pure (.flt (pyMin x y))

/-- The elements of a vector. -/
def vector (A : NdArray K) : Py (List K) :=
  match A.shape with
  | [n] => pure ((List.range n).map fun i => A.get [i])
  | _ => throw .typing

def npZeros : Val K → Py (Val K)
  | .int m => pure (.arr (.zeros [m.toNat]))
  | .tup vs => do
    let zs ← toInts vs
    pure (.arr (.zeros (zs.map Int.toNat)))
  | _ => throw .typing

/-- `len(O)` if `O` is not `None`. -/
def lenOrders : Val K → Py (List ℕ)
  | .none => pure []
  | .tup vs => pure [vs.length]
  | _ => throw .typing

/-- `allocate_output(G, C, P, O)`, `eval_splines.py` L55-91, for a matrix `P`. -/
def allocOutput (g c p o : Val K) : Py (Val K) :=
  match g, c, p with
  | .tup gs, .arr C, .arr P =>
    match P.shape with
    | [N, _] => do
      let no ← lenOrders o
      if C.shape.length = gs.length + 1 then pure (.arr (.zeros ([N, C.shape.getLastD 0] ++ no)))
      else pure (.arr (.zeros ([N] ++ no)))
    | _ => throw .typing
  | _, _, _ => throw .typing

/-- An axis of a grid: `(a, b, n)` or a vector of nodes. -/
def toAxis : Val K → Py (Codegen.GridDim K)
  | .tup [.flt a, .flt b, .int n] => pure (.uniform a b n)
  | .arr A => do
    let l ← vector A
    pure (.array l)
  | _ => throw .typing

def ofRes : Mlinterp.Res K → Val K
  | .num x => .flt x
  | .arr A => .arr A

def apply : Fn → List (Val K) → Py (Val K)
  | .max, [a, b] => numMax a b
  | .min, [a, b] => numMin a b
  | .int, [.int z] => pure (.int z)
  | .floor, [.flt x] => pure (.int (IntFloor.ifloor x))
  | .range, [.int m] => pure (.range m)
  | .zeros, [v] => npZeros v
  | .searchsorted, [.arr A, x] => do
    let l ← vector A
    let y ← toFloat x
    pure (.int (searchsorted l y))
  | .allocateOutput, [g, c, p, o] => allocOutput g c p o
  | .getIndex, [g, x] => do
    let gc ← toAxis g
    let y ← toFloat x
    let p ← Mlinterp.getIndex gc y
    pure (.tup [.int p.1, .flt p.2])
  | .project, [.tup gs, .tup xs] => do
    let G ← gs.mapM toAxis
    let x ← xs.mapM toFloat
    let y ← Mlinterp.project G x
    pure (.tup (y.map .flt))
  | .mlinterp, [.tup gs, .arr C, .tup xs] => do
    let G ← gs.mapM toAxis
    let x ← xs.mapM toFloat
    let r ← Mlinterp.mlinterp G C (.tup x)
    pure (ofRes r)
  | _, _ => throw .typing

def callVal : Val K → Val K → Py (Val K)
  | .fn f, .tup vs => apply f vs
  | _, _ => throw .typing

def indexVal (v : Val K) : Val K → Py (Val K)
  | .tup is => getItem v is
  | _ => throw .typing

def consVal (v : Val K) : Val K → Py (Val K)
  | .tup vs => pure (.tup (v :: vs))
  | _ => throw .typing

/-- Value of an expression; lists of arguments, subscripts or elements are tuples. -/
def eval (ctx env : Env K) : PExpr → Py (Val K)
  | .name s => lookup ctx env s
  | .int n => pure (.int n)
  | .float n => pure (.flt (n : K))
  | .str s => pure (.str s)
  | .paren e => eval ctx env e
  | .tuple es _ => eval ctx env es
  | .call f es => do
    let g ← eval ctx env f
    let vs ← eval ctx env es
    callVal g vs
  | .index e es => do
    let v ← eval ctx env e
    let is ← eval ctx env es
    indexVal v is
  | .attr e s => do
    let v ← eval ctx env e
    getAttr v s
  | .full => pure .slice
  | .neg e => do
    let v ← eval ctx env e
    negate v
  | .bin o a b => do
    let v ← eval ctx env a
    if o = .kOr then do
      let t ← truth v
      if t then pure (.bool true) else do
        let w ← eval ctx env b
        let u ← truth w
        pure (.bool u)
    else do
      let w ← eval ctx env b
      binary o v w
  | .nil => pure (.tup [])
  | .cons e es => do
    let v ← eval ctx env e
    let vs ← eval ctx env es
    consVal v vs

/-- How a statement ends. -/
inductive Exit (K : Type) where
  | next
  | cont
  | ret (v : Val K)

def subscripts : Val K → Py (List (Val K))
  | .tup is => pure is
  | _ => throw .typing

/-- Assignment to a name or to elements of an array. -/
def assignTo (ctx env : Env K) (v : Val K) : PExpr → Py (Env K)
  | .name s => pure (env.set s v)
  | .index (.name s) es => do
    let b ← lookup ctx env s
    let iv ← eval ctx env es
    let is ← subscripts iv
    match b with
    | .arr A => do
      let x ← toFloat v
      let A' ← setItem A is x
      pure (env.set s (.arr A'))
    | _ => throw .typing
  | _ => throw .syntaxErr

def execSimple (ctx : Env K) (s : Simple) (env : Env K) : Py (Env K × Exit K) :=
  match s with
  | .assign t e => do
    let v ← eval ctx env e
    let env' ← assignTo ctx env v t
    pure (env', .next)
  | .expr e => do
    let _ ← eval ctx env e
    pure (env, .next)
  | .ret e => do
    let v ← eval ctx env e
    pure (env, .ret v)
  | .cont => pure (env, .cont)

def execSimples (ctx : Env K) : List Simple → Env K → Py (Env K × Exit K)
  | [], env => pure (env, .next)
  | s :: ss, env => do
    let r ← execSimple ctx s env
    match r.2 with
    | .next => execSimples ctx ss r.1
    | e => pure (r.1, e)

/-- `for x in ...: body`. -/
def forLoop (body : Env K → Py (Env K × Exit K)) (x : Str) : List ℤ → Env K → Py (Env K × Exit K)
  | [], env => pure (env, .next)
  | z :: zs, env => do
    let r ← body (env.set x (.int z))
    match r.2 with
    | .ret v => pure (r.1, .ret v)
    | _ => forLoop body x zs r.1

/-- Elements of an iterable. -/
def iterate : Val K → Py (List ℤ)
  | .range m => pure ((List.range m.toNat).map Int.ofNat)
  | _ => throw .typing

/-- A block. `chain` is `none` unless the statement before was `if` or `elif`; then it says whether one of the conditions
held. -/
def exec (ctx : Env K) : Block → Option Bool → Env K → Py (Env K × Exit K)
  | .nil, _, env => pure (env, .next)
  | .simple ss rest, _, env => do
    let r ← execSimples ctx ss env
    match r.2 with
    | .next => exec ctx rest none r.1
    | e => pure (r.1, e)
  | .block h body rest, chain, env =>
    let branch (c : PExpr) : Py (Env K × Exit K) := do
      let v ← eval ctx env c
      let t ← truth v
      if t then do
        let r ← exec ctx body none env
        match r.2 with
        | .next => exec ctx rest (some true) r.1
        | e => pure (r.1, e)
      else exec ctx rest (some false) env
    match h, chain with
    | .ifH c, _ => branch c
    | .elifH c, some false => branch c
    | .elifH _, some true => exec ctx rest (some true) env
    | .elseH, some true => exec ctx rest none env
    | .elseH, some false => do
      let r ← exec ctx body none env
      match r.2 with
      | .next => exec ctx rest none r.1
      | e => pure (r.1, e)
    | .forH x e, _ => do
      let v ← eval ctx env e
      let zs ← iterate v
      let r ← forLoop (exec ctx body none) x zs env
      match r.2 with
      | .next => exec ctx rest none r.1
      | e => pure (r.1, e)
    | _, _ => throw .syntaxErr

/-- Bind parameters: the given arguments in order, then default values. -/
def bindParams (ctx : Env K) : List (Str × Option PExpr) → List (Val K) → Env K → Py (Env K)
  | [], [], env => pure env
  | [], _ :: _, _ => throw .typeErr
  | (x, _) :: ps, v :: vs, env => bindParams ctx ps vs (env.set x v)
  | (x, some e) :: ps, [], env => do
    let v ← eval ctx (fun _ => none) e
    bindParams ctx ps [] (env.set x v)
  | (_, none) :: _, [], _ => throw .typeErr

/-- Call of the function that a text consists of: the value returned, and the local variables at the end (in which the
arrays that were passed have their new contents). -/
def callFunction (ctx : Env K) : Block → List (Val K) → Py (Val K × Env K)
  | .block (.defH _ ps) body .nil, vs => do
    let env ← bindParams ctx ps vs fun _ => none
    let r ← exec ctx body none env
    match r.2 with
    | .ret v => pure (v, r.1)
    | .next => pure (.none, r.1)
    | .cont => throw .syntaxErr
  | _, _ => throw .typing

end

end Interp.Spec.PyLang
