import Verif.Spec.PySrc
import Verif.Model.Arrays
import Verif.Model.Trig

/-!
# Source texts of Python functions: execution

What the syntax trees of `PySrc` do, as far as the numerical functions of `/repo` need it. Nothing here knows
about the functions themselves. Arrays are references into a heap, so that a function that is given two views of one array
sees its own changes; a view is an array and, for each of its axes, a fixed index or none. As everywhere in the model, an index
outside an array is an error of its own (compiled code does not check), and it is the access to an element
that fails, not the formation of a view. Numbers are integers of any size and the given arithmetic. Lists and dictionaries are values:
a method that changes a list changes the variable it is called on (no function here changes a list that has another name). What is
not described here is an error (`typeErr`, `typing`), never a result.
-/

namespace Interp.Spec.PySrc
open Interp Interp.Smolyak

/-- Functions of Python and numpy. -/
inductive Builtin where
  | len | range | zeros | npMin | npMax | searchsorted | max | min
  | asarray | ndim | array | prod | cumprod | linspace | ones | list | tuple | int | floor | sum | enumerate | float
  | isinstance | all | combinations | chain | fromIterable | product | reduce | mul
  | arange | cos | abs | where | empty | concatenate
  deriving DecidableEq

inductive Val (K : Type) where
  | none
  | bool (b : Bool)
  | int (z : ℤ)
  | flt (x : K)
  | str (s : String)
  | tup (vs : List (Val K))
  | list (vs : List (Val K))
  | dict (kvs : List (ℤ × Val K))
  /-- a vector of integers -/
  | ints (zs : List ℤ)
  /-- a vector of truth values -/
  | bools (bs : List Bool)
  /-- an array that is a constant of the file (compiled code has its own copy) -/
  | frozen (A : NdArray K)
  /-- a view of the array number `r`: for each axis a fixed index or none -/
  | arr (r : ℕ) (pat : List (Option ℤ))
  | range (zs : List ℤ)
  | fn (F : FunDef)
  /-- a function with implementations that depend on the types of the arguments -/
  | over (name : String)
  | builtin (f : Builtin)
  /-- the method `m` of a value -/
  | bound (m : String) (v : Val K)
  /-- the module `numpy` -/
  | np

abbrev Heap (K : Type) := List (NdArray K)

/-- Computations that use the heap and may raise. -/
abbrev M (K α : Type) := StateT (Heap K) (Except Err) α

abbrev Env (K : Type) := String → Option (Val K)

def Env.set {K : Type} (env : Env K) (x : String) (v : Val K) : Env K := fun y => if y = x then some v else env y

/-- What names mean outside of a function, and what a call does. -/
structure World (K : Type) where
  glob : String → M K (Val K)
  call : Val K → List (Val K) → M K (Val K)
  /-- bound for the number of passes of a `while` loop -/
  fuel : ℕ

section
variable {K : Type}

def raise {α : Type} (e : Err) : M K α := fun _ => .error e

/-- A computation that does not touch the heap. -/
def lift {α : Type} (x : Py α) : M K α := fun h => x.map fun a => (a, h)

def getArr (r : ℕ) : M K (NdArray K) := fun h =>
  match h[r]? with
  | some A => .ok (A, h)
  | none => .error .runtime

def setArr (r : ℕ) (A : NdArray K) : M K Unit := fun h => .ok ((), h.set r A)

def newArr (A : NdArray K) : M K ℕ := fun h => .ok (h.length, h ++ [A])

/-! ### Views -/

/-- Subscripts. -/
inductive Ix where
  | at (z : ℤ)
  | full
  | dots
  | slice (a b : Option ℤ)
  /-- a list of indices -/
  | pick (zs : List ℤ)

/-- The number of free axes. -/
def free (pat : List (Option ℤ)) : ℕ := (pat.filter Option.isNone).length

/-- `...` stands for as many `:` as are missing. -/
def expand (n : ℕ) : List Ix → List Ix
  | [] => []
  | .dots :: ss => List.replicate (n - ss.length) .full ++ ss
  | s :: ss => s :: expand (n - 1) ss

/-- A view of a view. -/
def refine : List (Option ℤ) → List Ix → Option (List (Option ℤ))
  | pat, [] => some pat
  | some z :: pat, ss => (refine pat ss).map (some z :: ·)
  | none :: pat, .at z :: ss => (refine pat ss).map (some z :: ·)
  | none :: pat, .full :: ss => (refine pat ss).map (none :: ·)
  | _, _ => none

/-- The indices of a view all of whose axes are fixed. -/
def complete : List (Option ℤ) → Option (List ℤ)
  | [] => some []
  | some z :: pat => (complete pat).map (z :: ·)
  | none :: _ => none

/-- The lengths of the free axes. -/
def viewShape : List (Option ℤ) → List ℕ → List ℕ
  | none :: pat, n :: sh => n :: viewShape pat sh
  | some _ :: pat, _ :: sh => viewShape pat sh
  | _, _ => []

/-- All axes free. -/
def whole (d : ℕ) : List (Option ℤ) := List.replicate d none

/-- The elements of a view with one free axis. -/
def elements (r : ℕ) (pat : List (Option ℤ)) : M K (List K) := do
  let A ← getArr r
  match viewShape pat A.shape with
  | [n] => lift ((List.range n).mapM fun (i : ℕ) =>
      match (refine pat [.at (i : ℤ)]).bind complete with
      | some idx => A.read idx
      | none => throw .typing)
  | _ => raise .typing

/-- The positions of a list of indices in a sequence of length `n`. -/
def positions (n : ℕ) (zs : List ℤ) : Py (List ℕ) :=
  zs.mapM fun z => match wrapIndex n z with
    | some j => pure j
    | none => throw .index

/-- `v[zs]` for a vector: a new array. -/
def pickFrom (r : ℕ) (zs : List ℤ) : M K (Val K) := do
  let A ← getArr r
  match A.shape with
  | [n] => do
    let js ← lift (positions n zs)
    let r ← newArr ⟨[js.length], fun idx => A.get [js.getD (idx.headD 0) 0]⟩
    pure (.arr r (whole 1))
  | _ => raise .typing

/-- `v[zs] = x` for a vector. -/
def pickStore (r : ℕ) (zs : List ℤ) (x : K) : M K Unit := do
  let A ← getArr r
  match A.shape with
  | [n] => do
    let js ← lift (positions n zs)
    setArr r ⟨A.shape, fun idx => if idx.headD 0 ∈ js then x else A.get idx⟩
  | _ => raise .typing

/-- `v[subs]` for an array. -/
def subscript (r : ℕ) (pat : List (Option ℤ)) (subs : List Ix) : M K (Val K) :=
  match refine pat (expand (free pat) subs) with
  | none => match pat, subs with
    | [none], [.pick zs] => pickFrom r zs
    | _, _ => raise .typing
  | some pat' =>
    match complete pat' with
    | none => pure (.arr r pat')
    | some idx => do
      let A ← getArr r
      let x ← lift (A.read idx)
      pure (.flt x)

/-- `v[subs] = x` for one element of an array. -/
def store (r : ℕ) (pat : List (Option ℤ)) (subs : List Ix) (x : K) : M K Unit :=
  match (refine pat (expand (free pat) subs)).bind complete with
  | none => match pat, subs with
    | [none], [.pick zs] => pickStore r zs x
    | _, _ => raise .typing
  | some idx => do
    let A ← getArr r
    let A ← lift (A.write idx x)
    setArr r A

/-- The indices of the element of a view with the free indices `idx`. -/
def place : List (Option ℤ) → List ℕ → List ℕ → Option (List ℕ)
  | [], [], _ => some []
  | some z :: pat, n :: sh, idx =>
    match wrapIndex n z, place pat sh idx with
    | some j, some js => some (j :: js)
    | _, _ => none
  | none :: pat, _ :: sh, i :: idx => (place pat sh idx).map (i :: ·)
  | none :: pat, _ :: sh, [] => (place pat sh []).map (0 :: ·)
  | _, _, _ => none

/-- The array that a view shows. -/
def contents (A : NdArray K) (pat : List (Option ℤ)) : Py (NdArray K) :=
  match place pat A.shape [] with
  | none => throw .outOfBounds
  | some _ => pure ⟨viewShape pat A.shape, fun idx => A.get ((place pat A.shape idx).getD [])⟩

/-- The free indices of a view that contains the element with the indices `idx`. -/
def within : List (Option ℤ) → List ℕ → List ℕ → Option (List ℕ)
  | [], [], [] => some []
  | some z :: pat, n :: sh, i :: idx => if wrapIndex n z = some i then within pat sh idx else none
  | none :: pat, _ :: sh, i :: idx => (within pat sh idx).map (i :: ·)
  | _, _, _ => none

/-- `v[subs] = B` for a view of the shape of `B`. -/
def storeArr (r : ℕ) (pat : List (Option ℤ)) (subs : List Ix) (B : NdArray K) : M K Unit :=
  match refine pat (expand (free pat) subs) with
  | none => raise .typing
  | some pat' => do
    let A ← getArr r
    let C ← lift (contents A pat')
    if C.shape = B.shape then
      setArr r ⟨A.shape, fun idx => match within pat' A.shape idx with
        | some k => B.get k
        | none => A.get idx⟩
    else raise .value

/-! ### Operators -/

variable [Add K] [Sub K] [Mul K] [Div K] [Neg K] [Zero K] [One K] [NatCast K] [IntCast K]
  [LT K] [DecidableLT K] [LE K] [DecidableLE K] [BEq K] [IntFloor K] [Trig K]

/-- Powers of numbers, as products. -/
def fpow (x : K) : ℕ → K
  | 0 => 1
  | 1 => x
  | n + 1 => fpow x n * x

def intOp (o : Op) (x y : ℤ) : Py (Val K) :=
  match o with
  | .plus => pure (.int (x + y))
  | .minus => pure (.int (x - y))
  | .star => pure (.int (x * y))
  | .slash => (pyDiv (x : K) (y : K)).map .flt
  | .dslash => if y = 0 then throw .zeroDivision else pure (.int (Int.fdiv x y))
  | .percent => if y = 0 then throw .zeroDivision else pure (.int (Int.fmod x y))
  | .dstar => if 0 ≤ y then pure (.int (x ^ y.toNat)) else throw .typing
  | _ => throw .typeErr

def fltOp (o : Op) (x y : K) : Py (Val K) :=
  match o with
  | .plus => pure (.flt (x + y))
  | .minus => pure (.flt (x - y))
  | .star => pure (.flt (x * y))
  | .slash => (pyDiv x y).map .flt
  | _ => throw .typeErr

/-- A number to an integer power. -/
def powOp (x : K) (y : ℤ) : Py (Val K) :=
  if 0 ≤ y then pure (.flt (fpow x y.toNat)) else throw .typing

/-- `a o b`. -/
def arith (o : Op) (a b : Val K) : Py (Val K) :=
  match a, b with
  | .int x, .int y => intOp o x y
  | .int x, .flt y => fltOp o (x : K) y
  | .flt x, .int y => if o = .dstar then powOp x y else fltOp o x (y : K)
  | .flt x, .flt y => fltOp o x y
  | .list x, .list y => if o = .plus then pure (.list (x ++ y)) else throw .typeErr
  | .tup x, .tup y => if o = .plus then pure (.tup (x ++ y)) else throw .typeErr
  | .list x, .int n => if o = .star then pure (.list (List.replicate n.toNat x).flatten) else throw .typeErr
  | _, _ => throw .typeErr

/-- Elementwise operations; a zero divisor does not raise. -/
def elemOp (o : Op) : Option (K → K → K) :=
  match o with
  | .plus => some (· + ·)
  | .minus => some (· - ·)
  | .star => some (· * ·)
  | .slash => some (· / ·)
  | _ => none

/-- A number or an array, as an operand. -/
inductive Operand (K : Type) where
  | num (x : K)
  | arr (A : NdArray K)

def operand (v : Val K) : M K (Operand K) :=
  match v with
  | .int z => pure (.num (z : K))
  | .flt x => pure (.num x)
  | .arr r pat => do
    let A ← getArr r
    let A ← lift (contents A pat)
    pure (.arr A)
  | .ints zs => pure (.arr ⟨[zs.length], fun idx => ((zs.getD (idx.headD 0) 0 : ℤ) : K)⟩)
  | _ => raise .typeErr

/-- Elementwise operation on a number and an array or on two arrays of one shape. -/
def broadcast (f : K → K → K) : Operand K → Operand K → Py (NdArray K)
  | .num x, .arr B => pure ⟨B.shape, fun idx => f x (B.get idx)⟩
  | .arr A, .num y => pure ⟨A.shape, fun idx => f (A.get idx) y⟩
  | .arr A, .arr B => if A.shape = B.shape then pure ⟨A.shape, fun idx => f (A.get idx) (B.get idx)⟩ else throw .value
  | .num _, .num _ => throw .typeErr

/-- `a o b` with an array among the operands. -/
def arrayOp (o : Op) (a b : Val K) : M K (Val K) :=
  match elemOp (K := K) o with
  | none => raise .typeErr
  | some f => do
    let x ← operand a
    let y ← operand b
    let A ← lift (broadcast f x y)
    let r ← newArr A
    pure (.arr r (whole A.shape.length))

/-- `a o b`. -/
def binOp (o : Op) (a b : Val K) : M K (Val K) :=
  match a, b with
  | .arr r p, y => arrayOp o (.arr r p) y
  | .ints zs, .int z => if o = .plus then pure (.ints (zs.map (· + z))) else arrayOp o (.ints zs) (.int z)
  | .ints zs, y => arrayOp o (.ints zs) y
  | x, .arr r p => arrayOp o x (.arr r p)
  | x, .ints zs => arrayOp o x (.ints zs)
  | x, y => lift (arith o x y)

def intCmp (o : Op) (x y : ℤ) : Py Bool :=
  match o with
  | .lt => pure (decide (x < y))
  | .gt => pure (decide (y < x))
  | .le => pure (decide (x ≤ y))
  | .ge => pure (decide (y ≤ x))
  | .eqeq => pure (decide (x = y))
  | .ne => pure (decide (x ≠ y))
  | _ => throw .typeErr

def fltCmp (o : Op) (x y : K) : Py Bool :=
  match o with
  | .lt => pure (decide (x < y))
  | .gt => pure (decide (y < x))
  | .le => pure (decide (x ≤ y))
  | .ge => pure (decide (y ≤ x))
  | .eqeq => pure (x == y)
  | .ne => pure (!(x == y))
  | _ => throw .typeErr

/-- Comparison of two values. -/
def compare (o : Op) (a b : Val K) : Py Bool :=
  match a, b with
  | .int x, .int y => intCmp o x y
  | .int x, .flt y => fltCmp o (x : K) y
  | .flt x, .int y => fltCmp o x (y : K)
  | .flt x, .flt y => fltCmp o x y
  | .str x, .str y => if o = .eqeq then pure (decide (x = y)) else if o = .ne then pure (decide (x ≠ y)) else throw .typeErr
  | .none, .none => if o = .kIs then pure true else throw .typeErr
  | _, .none => if o = .kIs then pure false else throw .typeErr
  | _, _ => throw .typeErr

/-- Comparison of two vectors, element by element: `none` for other values. -/
def compareEach (o : Op) (a b : Val K) : Option (M K (Val K)) :=
  match a, b with
  | .list vs, .ints zs => some do
    let bs ← lift ((vs.zip zs).mapM fun p => compare o p.1 (.int p.2))
    if vs.length = zs.length then pure (.bools bs) else raise .value
  | .arr r pat, .flt x => some do
    let ys ← elements r pat
    let bs ← lift (ys.mapM fun y => fltCmp o y x)
    pure (.bools bs)
  | _, _ => none

/-- `a o b` for a comparison: a truth value, or a vector of truth values. -/
def compareVal (o : Op) (a b : Val K) : M K (Val K) :=
  match compareEach o a b with
  | some x => x
  | none => do
    let c ← lift (compare o a b)
    pure (.bool c)

def negate (v : Val K) : Py (Val K) :=
  match v with
  | .int x => pure (.int (-x))
  | .flt x => pure (.flt (-x))
  | _ => throw .typeErr

/-- Truth of a value. -/
def truth (v : Val K) : Py Bool :=
  match v with
  | .bool b => pure b
  | .int x => pure (decide (x ≠ 0))
  | .none => pure false
  | _ => throw .typeErr

/-- `m / 10 ^ k`. -/
def decimal (m k : ℕ) : K := if k = 0 then (m : K) else (m : K) / ((10 ^ k : ℕ) : K)

/-- `range(lo, hi, step)`. -/
def rangeStep (lo hi step : ℤ) : List ℤ :=
  if 0 < step then (List.range ((hi - lo + step - 1) / step).toNat).map fun (i : ℕ) => lo + (i : ℤ) * step
  else (List.range ((lo - hi - step - 1) / (-step)).toNat).map fun (i : ℕ) => lo + (i : ℤ) * step

/-- The lengths that are given to `np.zeros`. -/
def sizes : List (Val K) → Py (List ℕ)
  | [] => pure []
  | .int z :: vs => if 0 ≤ z then (sizes vs).map (z.toNat :: ·) else throw .value
  | _ => throw .typeErr

/-- A number. -/
def number (v : Val K) : Py K :=
  match v with
  | .int z => pure (z : K)
  | .flt x => pure x
  | _ => throw .typeErr

/-- The smallest number of a list, found from left to right. -/
def least : List K → Py K
  | [] => throw .value
  | x :: xs => pure (xs.foldl (fun a b => if b < a then b else a) x)

/-- The largest number of a list, found from left to right. -/
def greatest : List K → Py K
  | [] => throw .value
  | x :: xs => pure (xs.foldl (fun a b => if a < b then b else a) x)

/-- A vector with these elements. -/
def vecOf (xs : List K) : NdArray K := ⟨[xs.length], fun idx => xs.getD (idx.headD 0) 0⟩

/-- A matrix with these rows. -/
def matOf (rows : List (List K)) : NdArray K :=
  ⟨[rows.length, (rows.headD []).length], fun idx => (rows.getD (idx.headD 0) []).getD (idx.tail.headD 0) 0⟩

/-- The integers of a list of integers. -/
def intsOf : List (Val K) → Option (List ℤ)
  | [] => some []
  | .int z :: vs => (intsOf vs).map (z :: ·)
  | _ => none

/-- The elements of a row of numbers. -/
def rowOf (v : Val K) : Py (List K) :=
  match v with
  | .list vs => vs.mapM number
  | .tup vs => vs.mapM number
  | _ => throw .typeErr

/-- Is it a list? -/
def isRow : Val K → Bool
  | .list _ | .tup _ => true
  | _ => false

/-- The array of a list of numbers or of rows of the same length. -/
def arrOf (vs : List (Val K)) : Py (NdArray K) :=
  if vs.all isRow && !vs.isEmpty then do
    let rows ← vs.mapM rowOf
    if rows.all fun r => r.length == (rows.headD []).length then pure (matOf rows) else throw .value
  else do
    let xs ← vs.mapM number
    pure (vecOf xs)

/-- `np.array`. -/
def npArray (v : Val K) (dtype : Option String) : M K (Val K) :=
  match v with
  | .arr r pat =>
    if dtype = some "int64" then raise .typing
    else do
      let A ← getArr r
      let A ← lift (contents A pat)
      let r ← newArr A
      pure (.arr r (whole A.shape.length))
  | .ints zs =>
    if dtype = some "float64" then do
      let r ← newArr (vecOf (zs.map fun z => (z : K)))
      pure (.arr r (whole 1))
    else pure (.ints zs)
  | .list vs | .tup vs =>
    match intsOf vs, dtype with
    | some zs, some "int64" => pure (.ints zs)
    | none, some "int64" => raise .typing
    | some (z :: zs), none => pure (.ints (z :: zs))
    | _, _ => do
      let A ← lift (arrOf vs)
      let r ← newArr A
      pure (.arr r (whole A.shape.length))
  | _ => raise .typeErr

/-- Partial products. -/
def partialProducts (p : ℤ) : List ℤ → List ℤ
  | [] => []
  | z :: zs => (p * z) :: partialProducts (p * z) zs

/-- `np.linspace(a, b, num)`: `arange(num) * step + a`, the last entry replaced by `b`; another formula when the step
underflows to zero. -/
def spaced (a b : K) (num : ℤ) : Py (List K) :=
  if num < 0 then throw .value
  else
    let y := (List.range num.toNat).map fun i : ℕ => (i : K)
    if 1 < num then
      let step := (b - a) / ((num - 1 : ℤ) : K)
      let y := if step == 0 then y.map fun t => t / ((num - 1 : ℤ) : K) * (b - a) + a
        else y.map fun t => t * step + a
      pure (y.set (num.toNat - 1) b)
    else pure (y.map fun t => t * (b - a) + a)

/-- The elements that `for` and the functions on sequences go through. -/
def iterate (v : Val K) : M K (List (Val K)) :=
  match v with
  | .range zs => pure (zs.map .int)
  | .tup vs => pure vs
  | .list vs => pure vs
  | .ints zs => pure (zs.map .int)
  | .arr r pat => do
    let xs ← elements r pat
    pure (xs.map .flt)
  | _ => raise .typeErr

/-- The name of a type that is given to `np.array`. -/
def dtypeOf (v : Val K) : Py String :=
  match v with
  | .str s => if s = "float64" ∨ s = "int64" then pure s else throw .typeErr
  | .builtin .float => pure "float64"
  | .builtin .int => pure "int64"
  | _ => throw .typeErr

/-- The sum of numbers. -/
def total (vs : List (Val K)) : Py (Val K) := vs.foldlM (fun a v => arith .plus a v) (.int 0)

/-- Choices of `k` elements in order, each as often as wanted. -/
def multisets {α : Type} : List α → ℕ → List (List α)
  | _, 0 => [[]]
  | [], _ + 1 => []
  | x :: l, k + 1 => (multisets (x :: l) k).map (x :: ·) ++ multisets l (k + 1)
termination_by l k => (k, l.length)

/-- All choices of one element of each list; the last one changes first. -/
def tuples {α : Type} : List (List α) → List (List α)
  | [] => [[]]
  | l :: ls => l.flatMap fun x => (tuples ls).map (x :: ·)

/-- The largest integer. -/
def greatestInt : List ℤ → Py ℤ
  | [] => throw .value
  | z :: zs => pure (zs.foldl (fun a b => if a < b then b else a) z)

/-- A function of numbers applied to every element of an array. -/
def mapArr (f : K → K) (r : ℕ) (pat : List (Option ℤ)) : M K (Val K) := do
  let A ← getArr r
  let A ← lift (contents A pat)
  let r ← newArr ⟨A.shape, fun idx => f (A.get idx)⟩
  pure (.arr r (whole A.shape.length))

/-- `reduce(mul, vs)`. -/
def productOf : List (Val K) → M K (Val K)
  | [] => raise .typeErr
  | v :: vs => vs.foldlM (fun a b => binOp .star a b) v

/-- Functions of `itertools`, `functools`, `operator` and further functions of numpy. An iterator is the list of its elements.
`np.empty` does not say what is in the array; here it is zero. `np.where` is for a condition on a vector, `np.concatenate` along the first
axis and for two arrays. -/
def builtin2 (b : Builtin) (args : List (Val K)) : M K (Val K) :=
  match b, args with
  | .isinstance, [v, .builtin .int] => pure (.bool (match v with
    | .int _ => true
    | .bool _ => true
    | _ => false))
  | .all, [.bools bs] => pure (.bool (bs.all id))
  | .combinations, [v, .int k] => do
    let vs ← iterate v
    if k < 0 then raise .value else pure (.list ((multisets vs k.toNat).map .tup))
  | .fromIterable, [v] => do
    let vs ← iterate v
    let us ← vs.mapM iterate
    pure (.list us.flatten)
  | .product, vs => do
    let us ← vs.mapM iterate
    pure (.list ((tuples us).map .tup))
  | .reduce, [.builtin .mul, .list vs] => productOf vs
  | .npMax, [.ints zs] => do
    let z ← lift (greatestInt zs)
    pure (.int z)
  | .max, [.ints zs] => do
    let z ← lift (greatestInt zs)
    pure (.int z)
  | .arange, [.flt a, .flt b] => do
    let r ← newArr (vecOf ((List.range (-IntFloor.ifloor (-(b - a))).toNat).map fun i : ℕ =>
      if i = 0 then a else if i = 1 then a + 1 else a + (i : K) * (a + 1 - a)))
    pure (.arr r (whole 1))
  | .cos, [.arr r pat] => mapArr Trig.cos r pat
  | .abs, [.arr r pat] => mapArr (fun x => if x < 0 then -x else x) r pat
  | .where, [.bools bs] => pure (.tup [.ints (((List.range bs.length).filter fun i => bs.getD i false).map fun i : ℕ => (i : ℤ))])
  | .empty, [.tup vs, .str _] => do
    let sh ← lift (sizes vs)
    let r ← newArr (.zeros sh)
    pure (.arr r (whole sh.length))
  | .concatenate, [.list [.arr r pat, .arr r' pat'], .int 0] => do
    let A ← getArr r
    let A ← lift (contents A pat)
    let B ← getArr r'
    let B ← lift (contents B pat')
    match A.shape, B.shape with
    | m :: sh, n :: sh' =>
      if sh = sh' then do
        let r ← newArr ⟨(m + n) :: sh, fun idx => if idx.headD 0 < m then A.get idx else B.get ((idx.headD 0 - m) :: idx.tail)⟩
        pure (.arr r (whole (sh.length + 1)))
      else raise .value
    | _, _ => raise .value
  | _, _ => raise .typeErr

def builtin (b : Builtin) (args : List (Val K)) : M K (Val K) :=
  match b, args with
  | .len, [.tup vs] => pure (.int vs.length)
  | .len, [.list vs] => pure (.int vs.length)
  | .len, [.ints zs] => pure (.int zs.length)
  | .asarray, [.arr r pat] => pure (.arr r pat)
  | .ndim, [.arr _ pat] => pure (.int (free pat))
  | .array, [v] => npArray v none
  | .array, [v, t] => do
    let s ← lift (dtypeOf t)
    npArray v (some s)
  | .prod, [.list vs] =>
    match intsOf vs with
    | some (z :: zs) => pure (.int ((z :: zs).foldl (· * ·) 1))
    | some [] => pure (.flt 1)
    | none => raise .typeErr
  | .cumprod, [.list vs] =>
    match intsOf vs with
    | some zs => pure (.ints (partialProducts 1 zs))
    | none => raise .typeErr
  | .linspace, [x, y, .int n] => do
    let a ← lift (number x)
    let b ← lift (number y)
    let xs ← lift (spaced a b n)
    let r ← newArr (vecOf xs)
    pure (.arr r (whole 1))
  | .list, [v] => do
    let vs ← iterate v
    pure (.list vs)
  | .tuple, [v] => do
    let vs ← iterate v
    pure (.tup vs)
  | .sum, [v] => do
    let vs ← iterate v
    lift (total vs)
  | .enumerate, [v] => do
    let vs ← iterate v
    pure (.list ((List.range vs.length).zipWith (fun i v => .tup [.int (i : ℤ), v]) vs))
  | .floor, [.flt x] => pure (.int (IntFloor.ifloor x))
  | .floor, [.int x] => pure (.int x)
  | .int, [.int x] => pure (.int x)
  | .float, [v] => do
    let x ← lift (number v)
    pure (.flt x)
  | .ones, [.tup vs] => do
    let sh ← lift (sizes vs)
    let r ← newArr ⟨sh, fun _ => 1⟩
    pure (.arr r (whole sh.length))
  | .len, [.arr r pat] => do
    let A ← getArr r
    match viewShape pat A.shape with
    | n :: _ => pure (.int n)
    | [] => raise .typeErr
  | .range, [.int hi] => pure (.range (rangeStep 0 hi 1))
  | .range, [.int lo, .int hi] => pure (.range (rangeStep lo hi 1))
  | .range, [.int lo, .int hi, .int st] => if st = 0 then raise .value else pure (.range (rangeStep lo hi st))
  | .zeros, [.tup vs] => do
    let sh ← lift (sizes vs)
    let r ← newArr (.zeros sh)
    pure (.arr r (whole sh.length))
  | .zeros, [.int z] => do
    let sh ← lift (sizes [Val.int (K := K) z])
    let r ← newArr (.zeros sh)
    pure (.arr r (whole sh.length))
  | .npMin, [.arr r pat] => do
    let xs ← elements r pat
    let x ← lift (least xs)
    pure (.flt x)
  | .npMax, [.arr r pat] => do
    let xs ← elements r pat
    let x ← lift (greatest xs)
    pure (.flt x)
  | .searchsorted, [.arr r pat, v] => do
    let xs ← elements r pat
    let x ← lift (number v)
    pure (.int (searchsorted xs x))
  | .max, [.int x, .int y] => pure (.int (pyMax x y))
  | .min, [.int x, .int y] => pure (.int (pyMin x y))
  | .max, [.flt x, .flt y] => pure (.flt (pyMax x y))
  | .min, [.flt x, .flt y] => pure (.flt (pyMin x y))
  | b, args => builtin2 b args

/-- Names that Python defines, the module `numpy`, and the functions of `numpy`, `math`, `itertools`, `functools` and `operator` that are
imported by their names. -/
def pyName (s : String) : Option (Val K) :=
  if s = "len" then some (.builtin .len)
  else if s = "range" then some (.builtin .range)
  else if s = "max" then some (.builtin .max)
  else if s = "min" then some (.builtin .min)
  else if s = "np" then some .np
  else if s = "numpy" then some .np
  else if s = "list" then some (.builtin .list)
  else if s = "tuple" then some (.builtin .tuple)
  else if s = "int" then some (.builtin .int)
  else if s = "float" then some (.builtin .float)
  else if s = "sum" then some (.builtin .sum)
  else if s = "enumerate" then some (.builtin .enumerate)
  else if s = "floor" then some (.builtin .floor)
  else if s = "zeros" then some (.builtin .zeros)
  else if s = "array" then some (.builtin .array)
  else if s = "None" then some .none
  else if s = "True" then some (.bool true)
  else if s = "False" then some (.bool false)
  else if s = "isinstance" then some (.builtin .isinstance)
  else if s = "all" then some (.builtin .all)
  else if s = "combinations_with_replacement" then some (.builtin .combinations)
  else if s = "chain" then some (.builtin .chain)
  else if s = "product" then some (.builtin .product)
  else if s = "reduce" then some (.builtin .reduce)
  else if s = "mul" then some (.builtin .mul)
  else none

/-- `v.s`. The transpose of an array is a new array (no function here changes one). `types` is the attribute of the type of a tuple (one type for each element). -/
def getAttr (v : Val K) (s : String) : M K (Val K) :=
  match v with
  | .np =>
    if s = "zeros" then pure (.builtin .zeros)
    else if s = "min" then pure (.builtin .npMin)
    else if s = "max" then pure (.builtin .npMax)
    else if s = "searchsorted" then pure (.builtin .searchsorted)
    else if s = "asarray" then pure (.builtin .asarray)
    else if s = "ndim" then pure (.builtin .ndim)
    else if s = "array" then pure (.builtin .array)
    else if s = "prod" then pure (.builtin .prod)
    else if s = "cumprod" then pure (.builtin .cumprod)
    else if s = "linspace" then pure (.builtin .linspace)
    else if s = "ones" then pure (.builtin .ones)
    else if s = "pi" then pure (.flt Trig.pi)
    else if s = "cos" then pure (.builtin .cos)
    else if s = "abs" then pure (.builtin .abs)
    else if s = "where" then pure (.builtin .where)
    else if s = "arange" then pure (.builtin .arange)
    else if s = "empty" then pure (.builtin .empty)
    else if s = "concatenate" then pure (.builtin .concatenate)
    else raise .attribute
  | .arr r pat =>
    if s = "shape" then do
      let A ← getArr r
      pure (.tup ((viewShape pat A.shape).map fun (n : ℕ) => .int n))
    else if s = "ndim" then pure (.int (free pat))
    else if s = "size" then do
      let A ← getArr r
      pure (.int ((viewShape pat A.shape).prod : ℕ))
    else if s = "reshape" then pure (.bound s (.arr r pat))
    else if s = "T" then do
      let A ← getArr r
      let A ← lift (contents A pat)
      let r ← newArr ⟨A.shape.reverse, fun idx => A.get idx.reverse⟩
      pure (.arr r (whole A.shape.length))
    else raise .attribute
  | .ints zs =>
    if s = "tolist" then pure (.bound s (.ints zs))
    else if s = "size" then pure (.int zs.length)
    else raise .attribute
  | .builtin .chain => if s = "from_iterable" then pure (.builtin .fromIterable) else raise .attribute
  | .tup vs => if s = "types" then pure (.tup vs) else raise .attribute
  | _ => raise .attribute

/-- A bound of a slice of a sequence of length `n`. -/
def clip (n : ℕ) (z : ℤ) : ℕ := if z < 0 then (z + n).toNat else min z.toNat n

/-- `l[a:b]`. -/
def sliceList {α : Type} (l : List α) (a b : Option ℤ) : List α :=
  (l.take ((b.map (clip l.length)).getD l.length)).drop ((a.map (clip l.length)).getD 0)

/-- `l[a:b] = m`. -/
def spliceList {α : Type} (l : List α) (a b : Option ℤ) (m : List α) : List α :=
  let i := (a.map (clip l.length)).getD 0
  let j := max i ((b.map (clip l.length)).getD l.length)
  l.take i ++ m ++ l.drop j

/-- Element `z` of a sequence. -/
def nth {α : Type} (vs : List α) (z : ℤ) : Py α :=
  match wrapIndex vs.length z with
  | none => throw .index
  | some j => match vs[j]? with
    | some v => pure v
    | none => throw .index

/-- Element `z` of a dictionary. -/
def lookup (kvs : List (ℤ × Val K)) (z : ℤ) : Py (Val K) :=
  match kvs with
  | [] => throw (.exception "KeyError")
  | (k, v) :: kvs => if k = z then pure v else lookup kvs z

/-- `v[subs]`. -/
def item (v : Val K) (subs : List Ix) : M K (Val K) :=
  match v, subs with
  | .arr r pat, ss => subscript r pat ss
  | .tup vs, [.at z] =>
    match wrapIndex vs.length z with
    | none => raise .index
    | some j => match vs[j]? with
      | some v => pure v
      | none => raise .index
  | .list vs, [.at z] => lift (nth vs z)
  | .list vs, [.slice a b] => pure (.list (sliceList vs a b))
  | .ints zs, [.at z] => lift ((nth zs z).map .int)
  | .dict kvs, [.at z] => lift (lookup kvs z)
  | .frozen A, ss =>
    match (refine (whole A.shape.length) (expand A.shape.length ss)).bind complete with
    | some idx => lift ((A.read idx).map .flt)
    | none => raise .typing
  | _, _ => raise .typeErr

/-- `v[subs] = x` for arrays. -/
def putItem (v : Val K) (subs : List Ix) (x : Val K) : M K Unit :=
  match v, x with
  | .arr r pat, .arr r' pat' => do
    let B ← getArr r'
    let B ← lift (contents B pat')
    storeArr r pat subs B
  | .arr r pat, x => do
    let x ← lift (number x)
    store r pat subs x
  | _, _ => raise .typeErr

/-- The value of a list or dictionary after `v[subs] = x`. -/
def putValue (v : Val K) (subs : List Ix) (x : Val K) : Py (Val K) :=
  match v, subs with
  | .list vs, [.at z] =>
    match wrapIndex vs.length z with
    | none => throw .index
    | some j => pure (.list (vs.set j x))
  | .list vs, [.slice a b] =>
    match x with
    | .list us => pure (.list (spliceList vs a b us))
    | _ => throw .typeErr
  | .dict kvs, [.at z] => pure (.dict ((z, x) :: kvs.filter fun p => p.1 ≠ z))
  | _, _ => throw .typeErr

/-- `e[subs] = x`, where `v` is the value of `e`: the change of an array, or of the variable that has a list. -/
def assignItem (env : Env K) (e : Ex) (v : Val K) (subs : List Ix) (x : Val K) : M K (Env K) :=
  match v with
  | .arr r pat => do
    putItem (.arr r pat) subs x
    pure env
  | v =>
    match e with
    | .name s => do
      let w ← lift (putValue v subs x)
      pure (env.set s w)
    | _ => raise .typeErr

/-- A comparison of numbers that decides the order of a list. -/
def inOrder (a b : Val K) : Bool :=
  match a, b with
  | .int x, .int y => decide ¬ y < x
  | .flt x, .flt y => decide ¬ y < x
  | _, _ => false

/-- The value of a list after `x.m(args)`. -/
def mutated (m : String) (v : Val K) (args : List (Val K)) : Py (Val K) :=
  match v, args with
  | .list vs, [] =>
    if m = "reverse" then pure (.list vs.reverse)
    else if m = "sort" then
      if vs.all (fun v => match v with | .int _ => true | _ => false) ∨ vs.all (fun v => match v with | .flt _ => true | _ => false)
      then pure (.list (vs.mergeSort inOrder)) else throw .typeErr
    else throw .typeErr
  | .list vs, [w] =>
    if m = "append" then pure (.list (vs ++ [w]))
    else if m = "extend" then
      match w with
      | .list ws => pure (.list (vs ++ ws))
      | _ => throw .typeErr
    else throw .typeErr
  | _, _ => throw .typeErr

/-- A call of a method. -/
def method (m : String) (v : Val K) (args : List (Val K)) : M K (Val K) :=
  match v, args with
  | .ints zs, [] => if m = "tolist" then pure (.list (zs.map .int)) else raise .attribute
  | .arr r pat, [.ints zs] =>
    if m = "reshape" then do
      let A ← getArr r
      let A ← lift (contents A pat)
      let sh ← lift (sizes (zs.map (Val.int (K := K))))
      let A ← lift (A.reshape sh)
      let r ← newArr A
      pure (.arr r (whole A.shape.length))
    else raise .attribute
  | _, _ => raise .attribute

/-- The names of the parameters of a function that has keyword arguments. -/
def paramNames (f : Val K) : Py (List String) :=
  match f with
  | .fn F => pure (F.params.map (·.1))
  | .builtin .array => pure ["object", "dtype"]
  | .builtin .product => pure []
  | .builtin .empty => pure ["shape", "order"]
  | .builtin .concatenate => pure ["arrays", "axis"]
  | _ => throw .typeErr

/-- Arguments of a call: an ordinary one, a keyword argument, the elements of a starred argument. -/
inductive Arg (K : Type) where
  | pos (v : Val K)
  | kw (s : String) (v : Val K)

def positional : List (Arg K) → List (Val K)
  | .pos v :: as => v :: positional as
  | _ => []

def keyword (s : String) : List (Arg K) → Option (Val K)
  | [] => none
  | .pos _ :: as => keyword s as
  | .kw t v :: as => if t = s then some v else keyword s as

/-- The arguments in the order of the parameters; a parameter without argument that is followed by one with an argument is not
described. -/
def arrange (names : List String) (as : List (Arg K)) : Py (List (Val K)) :=
  let ps := positional as
  let rest := (names.drop ps.length).map fun s => keyword s as
  let given := rest.takeWhile Option.isSome
  if given.length + ps.length = as.length then pure (ps ++ given.filterMap id) else throw .typeErr

/-! ### Expressions -/

/-- The value of a name: local or global. -/
def look (W : World K) (env : Env K) (s : String) : M K (Val K) :=
  match env s with
  | some v => pure v
  | none => W.glob s

/-- An integer subscript. -/
def asInt (v : Val K) : M K ℤ :=
  match v with
  | .int z => pure z
  | _ => raise .typeErr

/-- A subscript: an integer, or indices that are given as a range or as what `np.where` returns. -/
def asIx (v : Val K) : M K Ix :=
  match v with
  | .int z => pure (.at z)
  | .range zs => pure (.pick zs)
  | .tup [.ints zs] => pure (.pick zs)
  | _ => raise .typeErr

/-- Is it the absent expression? -/
def isNil : Ex → Bool
  | .nil => true
  | _ => false

mutual

def eval (W : World K) (env : Env K) : Ex → M K (Val K)
  | .name s => look W env s
  | .int n => pure (.int n)
  | .float m k => pure (.flt (decimal m k))
  | .str s => pure (.str s)
  | .tuple es => do
    let vs ← evals W env es
    pure (.tup vs)
  | .call f es => do
    let g ← eval W env f
    let vs ← evals W env es
    W.call g vs
  | .index e es => do
    let v ← eval W env e
    let ss ← evalSubs W env es
    item v ss
  | .attr e s => do
    let v ← eval W env e
    getAttr v s
  | .neg e => do
    let v ← eval W env e
    lift (negate v)
  | .bin o a b => do
    let x ← eval W env a
    let y ← eval W env b
    binOp o x y
  | .chain a l => do
    let x ← eval W env a
    evalLinks W env l x
  | .not e => do
    let v ← eval W env e
    let b ← lift (truth v)
    pure (.bool !b)
  | .and a b => do
    let v ← eval W env a
    let c ← lift (truth v)
    if c then eval W env b else pure v
  | .or a b => do
    let v ← eval W env a
    let c ← lift (truth v)
    if c then pure v else eval W env b
  | .ite t c e => do
    let v ← eval W env c
    let c ← lift (truth v)
    if c then eval W env t else eval W env e
  | .list es => do
    let vs ← evals W env es
    pure (.list vs)
  | .dict => pure (.dict [])
  | .comp e x it .nil => do
    let v ← eval W env it
    let vs ← iterate v
    let us ← vs.mapM fun v => eval W (env.set x v) e
    pure (.list us)
  | .comp e x it c => do
    let v ← eval W env it
    let vs ← iterate v
    let us ← vs.mapM fun v => do
      let t ← eval W (env.set x v) c
      let t ← lift (truth t)
      if t then do
        let u ← eval W (env.set x v) e
        pure [u]
      else pure []
    pure (.list us.flatten)
  | .callX f es => do
    let g ← eval W env f
    let as ← evalArgs W env es
    let names ← lift (paramNames g)
    let vs ← lift (arrange names as)
    W.call g vs
  | .full => raise .syntaxErr
  | .dots => raise .syntaxErr
  | .slice _ _ => raise .syntaxErr
  | .kw _ _ => raise .syntaxErr
  | .star _ => raise .syntaxErr
  | .link _ _ _ => raise .syntaxErr
  | .nil => raise .syntaxErr
  | .cons _ _ => raise .syntaxErr

/-- The values of a list. -/
def evals (W : World K) (env : Env K) : Ex → M K (List (Val K))
  | .nil => pure []
  | .cons e es => do
    let v ← eval W env e
    let vs ← evals W env es
    pure (v :: vs)
  | _ => raise .syntaxErr

/-- Subscripts. -/
def evalSubs (W : World K) (env : Env K) : Ex → M K (List Ix)
  | .nil => pure []
  | .cons .full es => do
    let ss ← evalSubs W env es
    pure (.full :: ss)
  | .cons .dots es => do
    let ss ← evalSubs W env es
    pure (.dots :: ss)
  | .cons (.slice a b) es => do
    let x ← if isNil a then pure none else do
      let v ← eval W env a
      let z ← asInt v
      pure (some z)
    let y ← if isNil b then pure none else do
      let v ← eval W env b
      let z ← asInt v
      pure (some z)
    let ss ← evalSubs W env es
    pure (.slice x y :: ss)
  | .cons e es => do
    let v ← eval W env e
    let s ← asIx v
    let ss ← evalSubs W env es
    pure (s :: ss)
  | _ => raise .syntaxErr

/-- The arguments of a call. -/
def evalArgs (W : World K) (env : Env K) : Ex → M K (List (Arg K))
  | .nil => pure []
  | .cons (.kw s e) es => do
    let v ← eval W env e
    let as ← evalArgs W env es
    pure (.kw s v :: as)
  | .cons (.star e) es => do
    let v ← eval W env e
    let vs ← iterate v
    let as ← evalArgs W env es
    pure (vs.map .pos ++ as)
  | .cons e es => do
    let v ← eval W env e
    let as ← evalArgs W env es
    pure (.pos v :: as)
  | _ => raise .syntaxErr

/-- `x o1 b1 o2 b2 ...`: the comparisons from the left, until one is false. -/
def evalLinks (W : World K) (env : Env K) : Ex → Val K → M K (Val K)
  | .link o b .nil, x => do
    let y ← eval W env b
    compareVal o x y
  | .link o b l, x => do
    let y ← eval W env b
    let c ← lift (compare o x y)
    if c then evalLinks W env l y else pure (.bool false)
  | _, _ => raise .syntaxErr

end

/-! ### Statements -/

/-- How a block ends. -/
inductive Out (K : Type) where
  | next (env : Env K)
  | ret (v : Val K)
  | brk (env : Env K)
  | cont (env : Env K)

mutual

def assign (W : World K) (env : Env K) : Ex → Val K → M K (Env K)
  | .name s, v => pure (env.set s v)
  | .index e es, v => do
    let o ← eval W env e
    let ss ← evalSubs W env es
    assignItem env e o ss v
  | .tuple es, .tup vs => assigns W env es vs
  | _, _ => raise .typeErr

def assigns (W : World K) (env : Env K) : Ex → List (Val K) → M K (Env K)
  | .nil, [] => pure env
  | .cons t ts, v :: vs => do
    let env ← assign W env t v
    assigns W env ts vs
  | _, _ => raise .value

end

def execSimple (W : World K) (env : Env K) : Simple → M K (Out K)
  | .assign t e => do
    let v ← eval W env e
    let env ← assign W env t v
    pure (.next env)
  | .aug o (.name s) e => do
    let x ← look W env s
    let y ← eval W env e
    let z ← binOp o x y
    pure (.next (env.set s z))
  | .aug o (.index a es) e => do
    let v ← eval W env a
    let ss ← evalSubs W env es
    let x ← item v ss
    let y ← eval W env e
    let z ← lift (arith o x y)
    putItem v ss z
    pure (.next env)
  | .aug _ _ _ => raise .syntaxErr
  | .expr e => do
    let _ ← eval W env e
    pure (.next env)
  | .ret none => pure (.ret .none)
  | .ret (some e) => do
    let v ← eval W env e
    pure (.ret v)
  | .pass => pure (.next env)
  | .cont => pure (.cont env)
  | .brk => pure (.brk env)
  | .assert (.cons e _) => do
    let v ← eval W env e
    let c ← lift (truth v)
    if c then pure (.next env) else raise .assertion
  | .assert _ => raise .syntaxErr
  | .raise (.call (.name s) (.cons (.str m) .nil)) =>
    raise (if s = "Exception" then .exception m else if s = "ValueError" then .value else .runtime)
  | .raise (.call (.name s) _) => raise (if s = "ValueError" then .value else .runtime)
  | .raise _ => raise .runtime
  | .mutate s m es => do
    let v ← look W env s
    let vs ← evals W env es
    let w ← lift (mutated m v vs)
    pure (.next (env.set s w))
  | .yield _ => raise .syntaxErr

/-- The passes of a `for` statement. -/
def forLoop (pass : Val K → Env K → M K (Out K)) : List (Val K) → Env K → M K (Out K)
  | [], env => pure (.next env)
  | v :: vs, env => do
    match ← pass v env with
    | .next env => forLoop pass vs env
    | .cont env => forLoop pass vs env
    | .brk env => pure (.next env)
    | .ret v => pure (.ret v)

/-- The passes of a `while` statement. -/
def whileLoop (cond : Env K → M K Bool) (pass : Env K → M K (Out K)) : ℕ → Env K → M K (Out K)
  | 0, _ => raise .runtime
  | n + 1, env => do
    if ← cond env then
      match ← pass env with
      | .next env => whileLoop cond pass n env
      | .cont env => whileLoop cond pass n env
      | .brk env => pure (.next env)
      | .ret v => pure (.ret v)
    else pure (.next env)

/-- The statements after one that has ended in this way. -/
def andThen (o : Out K) (k : Env K → M K (Out K)) : M K (Out K) :=
  match o with
  | .next env => k env
  | o => pure o

/-- The names that a block assigns to. -/
def targets : Block → List String
  | .nil => []
  | .simple (.assign (.name s) _) b => s :: targets b
  | .simple _ b => targets b
  | .ifte _ a b c => targets a ++ targets b ++ targets c
  | .for (.name s) _ a b => s :: (targets a ++ targets b)
  | .for _ _ a b => targets a ++ targets b
  | .while _ a b => targets a ++ targets b
  | .tryE a b c => targets a ++ targets b ++ targets c
  | .funDef s _ _ b => s :: targets b

/-- Variables that may or may not have been assigned to are not defined afterwards. -/
def forget (env : Env K) (xs : List String) : Env K := fun y => if y ∈ xs then none else env y

/-- `try` with an `except` for everything; used for code that does not change arrays. -/
def attempt (env : Env K) (names : List String) (x : M K (Out K)) (handler : Env K → M K (Out K)) : M K (Out K) :=
  fun h => match x h with
    | .ok r => .ok r
    | .error _ => handler (forget env names) h

def exec (W : World K) : Block → Env K → M K (Out K)
  | .nil, env => pure (.next env)
  | .simple s rest, env => do
    let o ← execSimple W env s
    andThen o (exec W rest)
  | .ifte c a b rest, env => do
    let v ← eval W env c
    let t ← lift (truth v)
    (if t then exec W a env else exec W b env) >>= fun o => andThen o (exec W rest)
  | .for t e body rest, env => do
    let v ← eval W env e
    let vs ← iterate v
    let o ← forLoop (fun v env => do
      let env ← assign W env t v
      exec W body env) vs env
    andThen o (exec W rest)
  | .while c body rest, env => do
    let o ← whileLoop (fun env => do
      let v ← eval W env c
      lift (truth v)) (exec W body) W.fuel env
    andThen o (exec W rest)
  | .tryE body handler rest, env => do
    let o ← attempt env (targets body) (exec W body env) (exec W handler)
    andThen o (exec W rest)
  | .funDef f ps body rest, env => exec W rest (env.set f (.fn ⟨f, ps, body⟩))

/-! ### Functions -/

/-- Positional arguments; default values for missing ones. -/
def params (W : World K) : List (String × Option Ex) → List (Val K) → M K (Env K)
  | [], [] => pure fun _ => none
  | [], _ :: _ => raise .typeErr
  | (x, _) :: ps, v :: vs => do
    let env ← params W ps vs
    pure (env.set x v)
  | (x, some e) :: ps, [] => do
    let v ← eval W (fun _ => none) e
    let env ← params W ps []
    pure (env.set x v)
  | (_, none) :: _, [] => raise .typeErr

/-- A call of a function. -/
def runFun (W : World K) (F : FunDef) (args : List (Val K)) : M K (Val K) := do
  let env ← params W F.params args
  match ← exec W F.body env with
  | .ret v => pure v
  | .next _ => pure .none
  | .brk _ => raise .syntaxErr
  | .cont _ => raise .syntaxErr

/-- A program: functions, functions with several implementations (the functions that choose one from the arguments),
constants. -/
structure Prog where
  funs : List (String × FunDef)
  overs : List (String × List FunDef)
  consts : List (String × Ex)
  /-- the statements of the file outside functions -/
  init : Block

/-- The program with these texts. -/
def load (funs : List Str) (overs : List (String × List Str)) (consts : List (String × Str)) : Option Prog := do
  let fs ← funs.mapM parseFun
  let os ← overs.mapM fun o => (o.2.mapM parseFun).map fun Fs => (o.1, Fs)
  let cs ← consts.mapM fun c => (parseExpr c.2).map fun e => (c.1, e)
  some ⟨fs.map fun F => (F.name, F), os, cs, .nil⟩

/-- The program with these texts of functions and of statements outside functions, given by their lines. -/
def loadLines (funs : List (List Str)) (init : List Str) : Option Prog := do
  let fs ← funs.mapM parseLines
  let b ← parseStmts init
  some ⟨fs.map fun F => (F.name, F), [], [], b⟩

def find {α : Type} (s : String) : List (String × α) → Option α
  | [] => none
  | (t, a) :: l => if t = s then some a else find s l

/-- Names of Python. -/
def pyGlob (s : String) : M K (Val K) :=
  match pyName s with
  | some v => pure v
  | none => raise (.name s)

/-- Calls in the constants of a file: an array is a constant. -/
def constCall (f : Val K) (args : List (Val K)) : M K (Val K) :=
  match f, args with
  | .builtin .array, [.list vs] => do
    let A ← lift (arrOf vs)
    pure (.frozen A)
  | _, _ => raise .runtime

/-- A call in the statements outside functions. -/
def initCall (f : Val K) (args : List (Val K)) : M K (Val K) :=
  match f with
  | .builtin b => builtin b args
  | _ => raise .runtime

/-- The value of a variable after the statements outside functions, which are executed on their own. Compiled functions treat arrays
outside them as constants. -/
def assigned (init : Block) (s : String) : M K (Val K) :=
  match init with
  | .nil => pyGlob s
  | init =>
    match exec ⟨pyGlob, initCall, 0⟩ init (fun _ => none) [] with
    | .error e => raise e
    | .ok (.next env, h) =>
      match env s with
      | some (.arr r pat) => do
        let A ← lift (contents (h[r]?.getD ⟨[], fun _ => 0⟩) pat)
        pure (.frozen A)
      | some v => pure v
      | none => pyGlob s
    | .ok _ => raise .runtime

@[simp] theorem assigned_nil (s : String) : (assigned .nil s : M K (Val K)) = pyGlob s := rfl

/-- The value of a global name. -/
def globalOf (P : Prog) (s : String) : M K (Val K) :=
  match find s P.funs with
  | some F => pure (.fn F)
  | none => match find s P.overs with
    | some _ => pure (.over s)
    | none => match find s P.consts with
      | some e => eval ⟨pyGlob, constCall, 0⟩ (fun _ => none) e
      | none => assigned P.init s

/-- The implementation that the first of these functions returns; one that fails or returns something else does not count. The
functions are applied to the arguments in place of their types, and whatever they do to arrays is undone. -/
def choose (run : FunDef → List (Val K) → M K (Val K)) (args : List (Val K)) : List FunDef → M K FunDef
  | [] => raise .typing
  | G :: Gs => fun h =>
    match run G args h with
    | .ok (.fn F, _) => .ok (F, h)
    | _ => choose run args Gs h

/-- The laws of literals: small integers are the same number however they are written. -/
structure LitLaws (K : Type) [Zero K] [One K] [Neg K] [NatCast K] [IntCast K] : Prop where
  zero : ((0 : ℕ) : K) = 0
  one : ((1 : ℕ) : K) = 1
  int : ∀ n : ℕ, ((n : ℤ) : K) = (n : K)
  neg : ∀ n : ℕ, ((-(n : ℤ) : ℤ) : K) = -(n : K)

/-- A call, with at most `n` calls inside one another. -/
def callN (P : Prog) : ℕ → Val K → List (Val K) → M K (Val K)
  | 0, _, _ => raise .runtime
  | n + 1, f, args =>
    match f with
    | .fn F => runFun ⟨globalOf P, callN P n, n⟩ F args
    | .over s =>
      match find s P.overs with
      | some Gs => do
        let F ← choose (runFun ⟨globalOf P, callN P n, n⟩) args Gs
        runFun ⟨globalOf P, callN P n, n⟩ F args
      | none => raise .typing
    | .builtin b => builtin b args
    | .bound m v => method m v args
    | _ => raise .typeErr

/-- The call of a function of the program by its name. -/
def callName (P : Prog) (n : ℕ) (f : String) (args : List (Val K)) : M K (Val K) := do
  let g ← globalOf P f
  callN P n g args

/-! ### Arrays on the heap -/

/-- The one-dimensional array has these elements. -/
def IsVec (A : NdArray K) (l : List K) : Prop := A.shape = [l.length] ∧ ∀ i (hi : i < l.length), A.get [i] = l[i]

/-- A matrix with `c` columns and its rows. -/
def IsMat (A : NdArray K) (c : ℕ) (rows : List (List K)) : Prop :=
  A.shape = [rows.length, c] ∧ ∀ i (hi : i < rows.length), rows[i].length = c ∧
    ∀ j (hj : j < rows[i].length), A.get [i, j] = rows[i][j]

/-- Array number `r` is a vector with these elements. -/
def HasVec (h : Heap K) (r : ℕ) (l : List K) : Prop := ∃ A, h[r]? = some A ∧ IsVec A l

/-- Array number `r` is a matrix with these rows. -/
def HasMat (h : Heap K) (r : ℕ) (c : ℕ) (rows : List (List K)) : Prop := ∃ A, h[r]? = some A ∧ IsMat A c rows

end

end Interp.Spec.PySrc
