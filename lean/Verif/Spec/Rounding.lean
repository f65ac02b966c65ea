import Verif.Model.Codegen
import Verif.Spec.Grid
import Mathlib.Data.Real.Basic
import Mathlib.Algebra.Order.Archimedean.Real.Basic
import Mathlib.Algebra.Order.Round
import Mathlib.Data.Int.Log
import Mathlib.Algebra.Order.Field.Power
import Mathlib.Tactic.Linarith
import Mathlib.Tactic.FieldSimp
import Mathlib.Tactic.Positivity

/-!
# Arithmetic with rounding

The standard model of floating-point arithmetic: the result of `+`, `-`, `*`, `/` is the exact
result times `1 + e` with `|e| ≤ u`.  There is no overflow and no underflow; comparisons, negation
and conversion of integers are exact.  `Fl R` is the type of numbers computed with rounding rule `R`; since the model of the
code is generic in its arithmetic, it can be run on `Fl R`.
-/

namespace Interp

/-- A rounding rule with unit roundoff `u`. -/
structure Rounding where
  rnd : ℝ → ℝ
  u : ℝ
  err : ∀ x, |rnd x - x| ≤ u * |x|

/-- Numbers computed with rounding rule `R`. -/
@[ext] structure Fl (R : Rounding) where
  val : ℝ

namespace Fl

variable {R : Rounding}

noncomputable instance : Add (Fl R) := ⟨fun x y => ⟨R.rnd (x.val + y.val)⟩⟩
noncomputable instance : Sub (Fl R) := ⟨fun x y => ⟨R.rnd (x.val - y.val)⟩⟩
noncomputable instance : Mul (Fl R) := ⟨fun x y => ⟨R.rnd (x.val * y.val)⟩⟩
noncomputable instance : Div (Fl R) := ⟨fun x y => ⟨R.rnd (x.val / y.val)⟩⟩
noncomputable instance : Neg (Fl R) := ⟨fun x => ⟨-x.val⟩⟩
noncomputable instance : Zero (Fl R) := ⟨⟨0⟩⟩
noncomputable instance : One (Fl R) := ⟨⟨1⟩⟩
noncomputable instance : NatCast (Fl R) := ⟨fun n => ⟨n⟩⟩
noncomputable instance : IntCast (Fl R) := ⟨fun n => ⟨n⟩⟩
instance : LT (Fl R) := ⟨fun x y => x.val < y.val⟩
noncomputable instance : DecidableLT (Fl R) := fun x y => inferInstanceAs (Decidable (x.val < y.val))
noncomputable instance : BEq (Fl R) := ⟨fun x y => decide (x.val = y.val)⟩
noncomputable instance : IntFloor (Fl R) := ⟨fun x => ⌊x.val⌋, fun x y => ⌊x.val / y.val⌋⟩

theorem add_val (x y : Fl R) : (x + y).val = R.rnd (x.val + y.val) := rfl
theorem sub_val (x y : Fl R) : (x - y).val = R.rnd (x.val - y.val) := rfl
theorem mul_val (x y : Fl R) : (x * y).val = R.rnd (x.val * y.val) := rfl
theorem div_val (x y : Fl R) : (x / y).val = R.rnd (x.val / y.val) := rfl
theorem neg_val (x : Fl R) : (-x).val = -x.val := rfl
theorem zero_val : (0 : Fl R).val = 0 := rfl
theorem one_val : (1 : Fl R).val = 1 := rfl
theorem intCast_val (n : ℤ) : ((n : ℤ) : Fl R).val = n := rfl
theorem natCast_val (n : ℕ) : ((n : ℕ) : Fl R).val = n := rfl
theorem lt_iff (x y : Fl R) : x < y ↔ x.val < y.val := Iff.rfl
theorem ifloor_eq (x : Fl R) : IntFloor.ifloor x = ⌊x.val⌋ := rfl
theorem beq_false_iff (x y : Fl R) : (x == y) = false ↔ x.val ≠ y.val := by
  show decide (x.val = y.val) = false ↔ _
  simp

end Fl

/-! ### Reading computed data as exact numbers -/

namespace Spec
open Interp.Codegen

variable {R : Rounding}

/-- The same axis in exact arithmetic. -/
def exactAxis : GridDim (Fl R) → GridDim ℝ
  | .uniform a b n => .uniform a.val b.val n
  | .array gc => .array (gc.map Fl.val)

/-- The same array in exact arithmetic. -/
def exactArray (A : NdArray (Fl R)) : NdArray ℝ := ⟨A.shape, fun idx => (A.get idx).val⟩

/-- Bound of the relative error made along one axis: `13 n u` for a uniform axis with `n` nodes,
`13 u` for a nonuniform axis. -/
noncomputable def axisErr (R : Rounding) : GridDim ℝ → ℝ
  | .uniform _ _ n => 13 * n * R.u
  | .array _ => 13 * R.u

end Spec

/-! ### Rounding to `p` binary digits -/

namespace Rounding

/-- Round to nearest with `p + 1` significant binary digits and unbounded exponent. -/
noncomputable def binary (p : ℕ) : ℝ → ℝ := fun x =>
  round (x * (2 : ℝ) ^ ((p : ℤ) - Int.log 2 |x|)) * (2 : ℝ) ^ (-((p : ℤ) - Int.log 2 |x|))

theorem binary_err (p : ℕ) (x : ℝ) : |binary p x - x| ≤ (2 : ℝ) ^ (-((p : ℤ) + 1)) * |x| := by
  by_cases hx : x = 0
  · subst hx; simp [binary]
  have hpos : 0 < |x| := abs_pos.2 hx
  set k : ℤ := (p : ℤ) - Int.log 2 |x| with hk
  have h2 : (0 : ℝ) < (2 : ℝ) ^ (-k) := by positivity
  have e1 : binary p x - x = (round (x * (2 : ℝ) ^ k) - x * (2 : ℝ) ^ k) * (2 : ℝ) ^ (-k) := by
    have : (2 : ℝ) ^ k * (2 : ℝ) ^ (-k) = 1 := by
      rw [← zpow_add₀ (by norm_num)]; simp
    rw [binary, sub_mul, mul_assoc x, this, mul_one]
  have h3 : |(round (x * (2 : ℝ) ^ k) : ℝ) - x * (2 : ℝ) ^ k| ≤ 1 / 2 := by
    rw [abs_sub_comm]; exact abs_sub_round _
  have h4 : ((2 : ℕ) : ℝ) ^ Int.log 2 |x| ≤ |x| := Int.zpow_log_le_self (by norm_num) hpos
  rw [e1, abs_mul, abs_of_pos h2]
  calc _ ≤ 1 / 2 * (2 : ℝ) ^ (-k) := by gcongr
    _ = (2 : ℝ) ^ (-((p : ℤ) + 1)) * (2 : ℝ) ^ Int.log 2 |x| := by
      rw [hk, show -((p : ℤ) - Int.log 2 |x|) = -(p : ℤ) + Int.log 2 |x| by ring,
        show -((p : ℤ) + 1) = -(p : ℤ) + (-1) by ring, zpow_add₀ (by norm_num),
        zpow_add₀ (by norm_num)]
      norm_num
      ring
    _ ≤ _ := by
      have : (2 : ℝ) ^ Int.log 2 |x| ≤ |x| := by exact_mod_cast h4
      gcongr

/-- Binary floating-point numbers with `p + 1` digits; `p = 52` for doubles. -/
noncomputable def ofDigits (p : ℕ) : Rounding := ⟨binary p, (2 : ℝ) ^ (-((p : ℤ) + 1)), binary_err p⟩

end Rounding

end Interp
