import Verif.Spec.PyCall

/-!
# Functions given by short texts

Functions on one line, `def f(a, b): return e`, and functions with any number of arguments, `def f(*args):`.
-/

namespace Interp.Spec.PyLang
open Interp.Codegen hiding exec

/-- Names up to the closing parenthesis. -/
def pNames : List Tok → Option (List Str × List Tok)
  | .name s :: .op .comma :: r => (pNames r).map fun p => (s :: p.1, p.2)
  | .name s :: .op .rpar :: r => some ([s], r)
  | _ => none

/-- A function whose body is an expression: its parameters and the expression. -/
structure Fun where
  params : List Str
  body : PExpr

/-- `def f(a, b): return e`. -/
def pFun (n : ℕ) (s : Str) : Option Fun :=
  (lex n s).bind fun ts =>
    match ts with
    | .op .kDef :: .name _ :: .op .lpar :: r => (pNames r).bind fun p =>
      match p.2 with
      | .op .colon :: .op .kReturn :: r' => (pBin n 0 r').bind fun q => if q.2 = [] then some ⟨p.1, q.1⟩ else none
      | _ => none
    | _ => none

/-- `from numpy import zeros`. -/
def importLine : Str :=
  ['f', 'r', 'o', 'm', ' ', 'n', 'u', 'm', 'p', 'y', ' ', 'i', 'm', 'p', 'o', 'r', 't', ' ', 'z', 'e', 'r', 'o', 's']

/-- A function of any number of arguments: the name of the tuple of arguments and the statements. -/
structure StarFun where
  arg : Str
  body : Block

/-- `def f(*args):` followed by an indented block; a line that imports `zeros` may come before. -/
def pStar (n : ℕ) (ls : List Str) : Option StarFun :=
  match ls with
  | [] => none
  | l :: ls =>
    let h := if l = importLine then ls.headD [] else l
    let r := if l = importLine then ls.tail else ls
    (lex n h).bind fun ts =>
      match ts with
      | [.op .kDef, .name _, .op .lpar, .op .star, .name a, .op .rpar, .op .colon] =>
        ((joinLines r).mapM (pText n)).bind fun ls =>
          match ls with
          | [] => none
          | (j, L) :: ls =>
            if j = 0 then none
            else (pBlock n j ((j, L) :: ls)).bind fun p => if p.2 = [] then some ⟨a, p.1⟩ else none
      | _ => none

variable {K : Type} [Add K] [Sub K] [Mul K] [Div K] [Neg K] [Zero K] [One K] [NatCast K]
  [IntCast K] [LT K] [DecidableLT K] [BEq K] [IntFloor K]

/-- Local variables when a function starts. -/
def bind : List Str → List (Val K) → Py (Env K)
  | [], [] => pure fun _ => none
  | x :: xs, v :: vs => do
    let env ← bind xs vs
    pure (env.set x v)
  | _, _ => throw .typeErr

/-- Call of a function on one line. -/
def callFun (ctx : Env K) (f : Fun) (vs : List (Val K)) : Py (Val K) := do
  let env ← bind f.params vs
  eval ctx env f.body

/-- Call of a function of any number of arguments. -/
def callStar (ctx : Env K) (f : StarFun) (vs : List (Val K)) : Py (Val K) := do
  let r ← exec ctx f.body none (Env.set (fun _ => none) f.arg (.tup vs))
  match r.2 with
  | .ret v => pure v
  | .next => pure .none
  | .cont => throw .syntaxErr

/-- Nested pairs as tuples. -/
def tupVal : Mlinterp.Tup K → Val K
  | .leaf x => .flt x
  | .node l r => .tup [tupVal l, tupVal r]

/-- An argument of `interp`. -/
def argVal : Mlinterp.Arg K → Val K
  | .arr A => .arr A
  | .coord a b n => .tup [.flt a, .flt b, .int n]
  | .flt x => .flt x
  | .int n => .int n
  | .tup xs => .tup (xs.map .flt)

/-- The result of `get_index`. -/
def indexVals (p : ℤ × K) : Val K := .tup [.int p.1, .flt p.2]

/-- Global names of the code that `mlinterp.py` executes: builtin functions, `zeros` (imported by the text) and the names of
the module. -/
def mlGlobals : List (Str × Val K) :=
  [(['m', 'a', 'x'], .fn .max), (['m', 'i', 'n'], .fn .min), (['r', 'a', 'n', 'g', 'e'], .fn .range),
   (['z', 'e', 'r', 'o', 's'], .fn .zeros), (['p', 'r', 'o', 'j', 'e', 'c', 't'], .fn .project),
   (['m', 'l', 'i', 'n', 't', 'e', 'r', 'p'], .fn .mlinterp)]

def mlContext : Env K := fun s => (mlGlobals.find? fun p => p.1 = s).map Prod.snd

/-- An axis of a grid: `(a, b, n)` or a vector. -/
def IsAxis : Mlinterp.Arg K → Prop
  | .coord .. => True
  | .arr A => A.shape.length = 1
  | _ => False

/-- Arguments of `interp` that are as `it` describes: axes, coefficients of as many dimensions, and points. -/
structure MlCall (it : Mlinterp.InterpType) (args : List (Mlinterp.Arg K)) : Prop where
  values : it.values = .scalar
  pos : 1 ≤ it.d
  axes : ∀ a ∈ args.take it.d, IsAxis a
  coeffs : ∃ C, args[it.d]? = some (.arr C) ∧ C.shape.length = it.d
  points : match it.eval with
    | .scalar => 2 * it.d + 1 ≤ args.length
    | .tuple => ∃ xs, args[it.d + 1]? = some (.tup xs) ∧ it.d ≤ xs.length
    | .point => ∃ P, args[it.d + 1]? = some (.arr P)
    | .vectorized => ∃ P, args[it.d + 1]? = some (.arr P) ∧ P.shape.length = 2
    | .cartesian => it.d = 1 ∧ (∃ P, args[2]? = some (.arr P) ∧ P.shape.length = 1) ∨
        it.d = 2 ∧ ∃ P Q, args[3]? = some (.arr P) ∧ P.shape.length = 1 ∧ args[4]? = some (.arr Q) ∧ Q.shape.length = 1

end Interp.Spec.PyLang
