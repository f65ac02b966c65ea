import Verif.Model.Smolyak
import Verif.Spec.Monomials
import Mathlib.Analysis.SpecialFunctions.Trigonometric.Basic
import Mathlib.LinearAlgebra.Matrix.Determinant.Basic

/-!
# What the Smolyak code should compute
-/

namespace Interp.Spec
open Interp.Smolyak

/-- Parameters `mu` for which a grid of dimension `d` is defined. -/
def ValidMu (d : ℕ) : Mu → Prop
  | .iso m => 1 ≤ m
  | .aniso ms => ms.length = d ∧ ∀ m ∈ ms, 1 ≤ m

/-- All levels of accuracy are at most `b`. -/
def MuLe (b : ℤ) : Mu → Prop
  | .iso m => m ≤ b
  | .aniso ms => ∀ m ∈ ms, m ≤ b

/-- The parameter `mu'` is at least as large as `mu`. -/
def MuBelow : Mu → Mu → Prop
  | .iso m, .iso m' => m ≤ m'
  | .iso m, .aniso ms' => ∀ m' ∈ ms', m ≤ m'
  | .aniso ms, .iso m' => ∀ m ∈ ms, m ≤ m'
  | .aniso ms, .aniso ms' => List.Forall₂ (· ≤ ·) ms ms'

/-- The index vectors of the Smolyak construction. -/
def Admissible (d : ℕ) : Mu → List ℤ → Prop
  | .iso m, el => el.length = d ∧ (∀ e ∈ el, 1 ≤ e) ∧ el.sum ≤ d + m
  | .aniso ms, el => el.length = d ∧ (∀ e ∈ el, 1 ≤ e) ∧ (∃ m ∈ ms, el.sum ≤ d + m) ∧
      List.Forall₂ (fun e m => e ≤ m + 1) el ms

/-- The Chebyshev extrema of level `i`: the point zero at level 1, and `2 ^ (i - 1) + 1` points
afterwards. -/
def IsExtremum (i : ℕ) (x : ℝ) : Prop :=
  (i = 1 ∧ x = 0) ∨ (2 ≤ i ∧ ∃ j : ℕ, j ≤ 2 ^ (i - 1) ∧ x = -Real.cos (Real.pi * j / 2 ^ (i - 1)))

/-- The level at which the one dimensional polynomials of degree `k` become available: degree 0 at
level 1, degrees up to `2 ^ i` at level `i + 1`. -/
def degLevel (k : ℕ) : ℕ := if k = 0 then 1 else max 2 (Nat.clog 2 k + 1)

/-- The square matrix stored in an array. -/
def toMat (A : NdArray ℝ) (n : ℕ) : Matrix (Fin n) (Fin n) ℝ := fun i j => A.get [i, j]

/-- What is assumed about `scipy.linalg.lu(B, True)` and `numpy.linalg.solve`. -/
structure LinAlgOK (la : LinAlg ℝ) : Prop where
  lu : ∀ (A : NdArray ℝ) (n : ℕ), A.shape = [n, n] → ∃ l u, la.lu A = .ok (l, u) ∧
    l.shape = [n, n] ∧ u.shape = [n, n] ∧ toMat l n * toMat u n = toMat A n
  solve : ∀ (A b : NdArray ℝ) (n : ℕ) (t : List ℕ), A.shape = [n, n] → b.shape = n :: t → t.length ≤ 1 →
    (toMat A n).det ≠ 0 → ∃ x, la.solve A b = .ok x ∧ x.shape = n :: t ∧
      ∀ (i : Fin n) (idx : List ℕ), InShape t idx →
        ∑ j : Fin n, A.get [i, j] * x.get (j :: idx) = b.get (i :: idx)

/-- A polynomial, given by exponents and coefficients. -/
noncomputable def polyAt (P : List (List ℕ × ℝ)) (x : List ℝ) : ℝ :=
  (P.map fun t => t.2 * monomialAt t.1 x).sum

end Interp.Spec
