import Verif.Model.Basic
import Mathlib.Data.Nat.Factorial.Basic

/-!
# `permute`

Model of `interpolation/smolyak/util.py`.  The generator is modelled by the list of what it yields;
an exception raised while it is exhausted is the result.  `while True` loops carry a counter; when it
runs out the result is `RuntimeError` (the theorems show that this never happens).
-/

namespace Interp.Smolyak

/-- `l[i]` on a Python list. -/
def pyGet {α : Type} (l : List α) (i : ℤ) : Py α :=
  match wrapIndex l.length i with
  | none => throw .index
  | some j => match l[j]? with
    | some v => pure v
    | none => throw .index

/-- `l[i] = v` on a Python list. -/
def pySet {α : Type} (l : List α) (i : ℤ) (v : α) : Py (List α) :=
  match wrapIndex l.length i with
  | none => throw .index
  | some j => pure (l.set j v)

variable {α : Type} [LT α] [DecidableLT α]

/-- `l.sort()`. -/
def pySort (l : List α) : List α := l.mergeSort fun x y => decide ¬ y < x

/-- `while not (a[i] < a[j]): j -= 1`, util.py L33-34. -/
def scanJ (a : List α) (i : ℤ) : ℕ → ℤ → Py ℤ
  | 0, _ => throw .runtime
  | f + 1, j => do
    let x ← pyGet a i
    let y ← pyGet a j
    if x < y then pure j else scanJ a i f (j - 1)

/-- Swap and reversal, util.py L36-39. -/
def swapReverse (a : List α) (i j : ℤ) : Py (List α) := do
  let y ← pyGet a j
  let x ← pyGet a i
  let a ← pySet a i y
  let a ← pySet a j x
  pure (a.take (i + 1).toNat ++ (a.drop (i + 1).toNat).reverse)

/-- The inner `while True`, util.py L27-50: the next list yielded, or nothing when the generator
returns. -/
def scanI (a : List α) : ℕ → ℤ → Py (Option (List α))
  | 0, _ => throw .runtime
  | f + 1, i => do
    let i := i - 1
    let x ← pyGet a i
    let y ← pyGet a (i + 1)
    if x < y then
      let j ← scanJ a i (a.length + 1) ((a.length : ℤ) - 1)
      let b ← swapReverse a i j
      pure (some b)
    else if i = 0 then pure none
    else scanI a f i

/-- The outer `while True`, util.py L24-50. -/
def permLoop : ℕ → List α → Py (List (List α))
  | 0, _ => throw .runtime
  | f + 1, a => do
    let b ← scanI a (a.length + 1) ((a.length : ℤ) - 1)
    match b with
    | none => pure []
    | some b => do
      let r ← permLoop f b
      pure (b :: r)

/-- `permute(a)`, util.py L6-50. -/
def permute (a : List α) : Py (List (List α)) := do
  let a := pySort a
  let r ← permLoop a.length.factorial a
  pure (a :: r)

end Interp.Smolyak
