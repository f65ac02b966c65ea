import Verif.Spec.PyEval
import Verif.Model.Codegen

/-!
# Calls of generated functions: arguments, global names and results as values of the language
-/

namespace Interp.Spec.PyLang
open Interp.Codegen hiding exec

variable {K : Type} [Add K] [Sub K] [Mul K] [Div K] [Neg K] [Zero K] [One K] [NatCast K]
  [IntCast K] [LT K] [DecidableLT K] [BEq K] [IntFloor K]

/-- A vector. -/
def vecVal (l : List K) : Val K := .arr ⟨[l.length], fun idx => match idx with
  | [i] => l.getD i 0
  | _ => 0⟩

/-- A table with four rows and four columns. -/
def tableVal (f : ℕ → ℕ → K) : Val K := .arr ⟨[4, 4], fun idx => match idx with
  | [j, m] => f j m
  | _ => 0⟩

/-- An axis of a grid: `(a, b, n)` or a vector of nodes. -/
def axisVal : GridDim K → Val K
  | .uniform a b n => .tup [.flt a, .flt b, .int n]
  | .array gc => vecVal gc

/-- The argument `out`. -/
def outVal : Option (NdArray K) → Val K
  | none => .none
  | some A => .arr A

/-- The argument `points` for axes of number `d`: a tuple of floats, a vector, or a matrix with a row for each point, with at
least `d` coordinates. -/
inductive IsPoints (d : ℕ) : Points K → Val K → Prop
  | tuple (x : List K) (h : d ≤ x.length) : IsPoints d (.point x) (.tup (x.map .flt))
  | vector (x : List K) (h : d ≤ x.length) : IsPoints d (.point x) (vecVal x)
  | matrix (xs : List (List K)) (w : ℕ) (P : NdArray K) (hd : d ≤ w) (hs : P.shape = [xs.length, w])
      (hw : ∀ x ∈ xs, x.length = w) (h : ∀ n x i y, xs[n]? = some x → x[i]? = some y → P.get [n, i] = y) :
      IsPoints d (.rows xs) (.arr P)

/-- Global names: `context` of `eval_splines.py` L126-133 and builtin functions. -/
def globals : List (Str × Val K) :=
  [(['N', 'o', 'n', 'e'], .none), (['m', 'a', 'x'], .fn .max), (['m', 'i', 'n'], .fn .min), (['i', 'n', 't'], .fn .int),
   (['r', 'a', 'n', 'g', 'e'], .fn .range), (['f', 'l', 'o', 'o', 'r'], .fn .floor), (['z', 'e', 'r', 'o', 's'], .fn .zeros),
   (['C', 'd'], tableVal Ad), (['d', 'C', 'd'], tableVal dAd),
   (['a', 'l', 'l', 'o', 'c', 'a', 't', 'e', '_', 'o', 'u', 't', 'p', 'u', 't'], .fn .allocateOutput), (['n', 'p'], .numpy)]

def context : Env K := fun s => (globals.find? fun p => p.1 = s).map Prod.snd

/-- The value returned. -/
def IsReturn : RetVal K → Val K → Prop
  | .none, w => w = .none
  | .scalar x, w => w = .flt x
  | .tuple xs, w => w = .tup (xs.map .flt)
  | .array A, w => ∃ A', w = .arr A' ∧ A.Same A'

end Interp.Spec.PyLang
