import Verif.Proofs.Rounding
import Verif.Proofs.CubicError
import Mathlib.Tactic.Linarith

/-! Propagation of rounding errors through the filter of cubic splines.  The recursions of the
solver are contractions, so that errors do not accumulate with the number of nodes. -/

set_option linter.unusedSectionVars false
set_option linter.unusedSimpArgs false

namespace Interp.Filter
open Interp.Codegen Interp.Ref Interp.Spec Interp.FilterRef

/-! ### Absolute errors of single operations -/

/-- `z` is `y` rounded. -/
def Rnd (u y z : ℝ) : Prop := |z - y| ≤ u * |y|

theorem rnd_of (R : Rounding) (y : ℝ) : Rnd R.u y (R.rnd y) := R.err y

theorem Rnd.scale {u y z : ℝ} (h : Rnd u y z) (S : ℝ) : Rnd u (y / S) (z / S) := by
  unfold Rnd at h ⊢
  rw [← sub_div, abs_div, abs_div, ← mul_div_assoc]
  gcongr

theorem close_abs {a a' e A : ℝ} (h : |a' - a| ≤ e) (hA : |a| ≤ A) : |a'| ≤ A + e := by
  have := abs_sub_abs_le_abs_sub a' a
  linarith

theorem sub_close {u a a' b b' ea eb D z : ℝ} (hu : 0 ≤ u) (ha : |a' - a| ≤ ea) (hb : |b' - b| ≤ eb)
    (hD : |a - b| ≤ D) (hz : Rnd u (a' - b') z) :
    |z - (a - b)| ≤ ea + eb + u * (D + (ea + eb)) := by
  have h1 : |a' - b' - (a - b)| ≤ ea + eb := by
    rw [show a' - b' - (a - b) = (a' - a) - (b' - b) by ring]
    have := abs_sub (a' - a) (b' - b)
    linarith
  have h2 := close_abs h1 hD
  have h3 : |z - (a' - b')| ≤ u * |a' - b'| := hz
  have h4 := mul_le_mul_of_nonneg_left h2 hu
  have := abs_sub_le z (a' - b') (a - b)
  linarith

theorem mul_close {u a a' b b' ea eb A B z : ℝ} (hu : 0 ≤ u) (ha : |a' - a| ≤ ea) (hb : |b' - b| ≤ eb)
    (hA : |a| ≤ A) (hB : |b| ≤ B) (hz : Rnd u (a' * b') z) :
    |z - a * b| ≤ A * eb + ea * (B + eb) + u * ((A + ea) * (B + eb)) := by
  have ha' := close_abs ha hA
  have hb' := close_abs hb hB
  have h1 : |a' * b' - a * b| ≤ A * eb + ea * (B + eb) := by
    rw [show a' * b' - a * b = a * (b' - b) + (a' - a) * b' by ring]
    have := abs_add_le (a * (b' - b)) ((a' - a) * b')
    rw [abs_mul, abs_mul] at this
    have e1 := mul_le_mul hA hb (abs_nonneg _) ((abs_nonneg _).trans hA)
    have e2 := mul_le_mul ha hb' (abs_nonneg _) ((abs_nonneg _).trans ha)
    linarith
  have h3 : |z - a' * b'| ≤ u * |a' * b'| := hz
  have h4 : u * |a' * b'| ≤ u * ((A + ea) * (B + eb)) := by
    rw [abs_mul]
    gcongr
    exact (abs_nonneg _).trans ha'
  have := abs_sub_le z (a' * b') (a * b)
  linarith

/-- The quotient `t = a / b` with `|t| ≤ T`, `|b| ≥ β`. -/
theorem div_close {u t b a' b' ea eb T β z : ℝ} (hu : 0 ≤ u) (ha : |a' - t * b| ≤ ea)
    (hb : |b' - b| ≤ eb) (hT : |t| ≤ T) (hβ : β ≤ |b|) (hpos : eb < β) (hz : Rnd u (a' / b') z) :
    |z - t| ≤ (ea + T * eb) / (β - eb) + u * (T + (ea + T * eb) / (β - eb)) := by
  have hb1 : β - eb ≤ |b'| := by
    have := abs_sub_abs_le_abs_sub b b'
    rw [abs_sub_comm] at this
    linarith
  have hp : 0 < β - eb := by linarith
  have hb0 : 0 < |b'| := lt_of_lt_of_le hp hb1
  have hne : b' ≠ 0 := abs_pos.1 hb0
  have h1 : |a' / b' - t| ≤ (ea + T * eb) / (β - eb) := by
    have e : a' / b' - t = ((a' - t * b) - t * (b' - b)) / b' := by field_simp; ring
    rw [e, abs_div]
    have e1 : |(a' - t * b) - t * (b' - b)| ≤ ea + T * eb := by
      have := abs_sub (a' - t * b) (t * (b' - b))
      rw [abs_mul] at this
      have := mul_le_mul hT hb (abs_nonneg _) ((abs_nonneg _).trans hT)
      linarith
    exact div_le_div₀ ((abs_nonneg _).trans e1) e1 hp hb1
  have h3 : |z - a' / b'| ≤ u * |a' / b'| := hz
  have h4 := mul_le_mul_of_nonneg_left (close_abs h1 hT) hu
  have := abs_sub_le z (a' / b') t
  linarith

theorem powers {u M : ℝ} (h0 : 0 ≤ u) (hu : u ≤ 1 / 1000) (hM : 0 ≤ M) :
    0 ≤ u * M ∧ 0 ≤ u ^ 2 * M ∧ u ^ 2 * M ≤ 1 / 1000 * (u * M) ∧ 0 ≤ u ^ 3 * M ∧
      u ^ 3 * M ≤ 1 / 1000000 * (u * M) ∧ 0 ≤ u ^ 4 * M ∧ u ^ 4 * M ≤ 1 / 1000000000 * (u * M) ∧
      0 ≤ u ^ 5 * M ∧ u ^ 5 * M ≤ 1 / 1000000000 * (u * M) := by
  have a1 : 0 ≤ u * M := mul_nonneg h0 hM
  have e2 : u ^ 2 * M = u * (u * M) := by ring
  have a2 : u ^ 2 * M ≤ 1 / 1000 * (u * M) := by rw [e2]; gcongr
  have b2 : 0 ≤ u ^ 2 * M := by positivity
  have e3 : u ^ 3 * M = u * (u ^ 2 * M) := by ring
  have a3 : u ^ 3 * M ≤ 1 / 1000 * (u ^ 2 * M) := by rw [e3]; gcongr
  have b3 : 0 ≤ u ^ 3 * M := by positivity
  have e4 : u ^ 4 * M = u * (u ^ 3 * M) := by ring
  have a4 : u ^ 4 * M ≤ 1 / 1000 * (u ^ 3 * M) := by rw [e4]; gcongr
  have b4 : 0 ≤ u ^ 4 * M := by positivity
  have e5 : u ^ 5 * M = u * (u ^ 4 * M) := by ring
  have a5 : u ^ 5 * M ≤ 1 / 1000 * (u ^ 4 * M) := by rw [e5]; gcongr
  have b5 : 0 ≤ u ^ 5 * M := by positivity
  refine ⟨a1, b2, a2, b3, ?_, b4, ?_, b5, ?_⟩ <;> linarith

theorem powers1 {u : ℝ} (h0 : 0 ≤ u) (hu : u ≤ 1 / 1000) :
    0 ≤ u ^ 2 ∧ u ^ 2 ≤ 1 / 1000 * u ∧ 0 ≤ u ^ 3 ∧
      u ^ 3 ≤ 1 / 1000000 * u ∧ 0 ≤ u ^ 4 ∧ u ^ 4 ≤ 1 / 1000000000 * u ∧
      0 ≤ u ^ 5 ∧ u ^ 5 ≤ 1 / 1000000000 * u := by
  have := (powers h0 hu zero_le_one).2
  simpa only [mul_one] using this

/-! ### The first rows -/

section
variable {R : Rounding} (hu : R.u ≤ 1 / 1000)
include hu

theorem β0_close : |(β0 : Fl R).val - 1 / 6| ≤ R.u / 6 := by
  have h : (β0 : Fl R).val = R.rnd (1 / 6) := by
    show R.rnd (1 / ((6 : ℕ) : ℝ)) = _
    norm_num
  rw [h]
  have := R.err (1 / 6)
  rw [abs_of_pos (by norm_num : (0 : ℝ) < 1 / 6)] at this
  linarith

theorem β1_close : |(β1 : Fl R).val - 2 / 3| ≤ 2 * R.u / 3 := by
  have h : (β1 : Fl R).val = R.rnd (2 / 3) := by
    show R.rnd (((2 : ℕ) : ℝ) / ((3 : ℕ) : ℝ)) = _
    norm_num
  rw [h]
  have := R.err (2 / 3)
  rw [abs_of_pos (by norm_num : (0 : ℝ) < 2 / 3)] at this
  linarith

variable {δ : Fl R} (hδ : δ.val ≠ 0)
include hδ

theorem fA_close : |(fA δ).val / δ.val ^ 2 - 1| ≤ 2.01 * R.u := by
  have hu0 := Rounding.u_nonneg R
  obtain ⟨w1, w2, w3, w4, w5, w6, w7, w8⟩ := powers1 hu0 hu
  have r1 := (rnd_of R (1 * δ.val)).scale δ.val
  rw [one_mul, div_self hδ] at r1
  have c1 : |R.rnd δ.val / δ.val - 1| ≤ R.u := by
    have : |R.rnd δ.val / δ.val - 1| ≤ R.u * |1| := r1
    simpa using this
  have r2 := (rnd_of R (R.rnd δ.val * δ.val)).scale (δ.val ^ 2)
  rw [show R.rnd δ.val * δ.val / δ.val ^ 2 = R.rnd δ.val / δ.val * 1 by field_simp] at r2
  have c2 := mul_close hu0 c1 (show |(1 : ℝ) - 1| ≤ 0 by simp) (A := 1) (B := 1) (by simp) (by simp) r2
  have e : (fA δ).val = R.rnd (R.rnd δ.val * δ.val) := by
    simp [fA, Fl.mul_val, Fl.one_val]
  rw [e]
  refine le_trans (by simpa using c2) ?_
  linarith

theorem fB_close : |(fB δ).val / δ.val ^ 2 - -2| ≤ 4.02 * R.u := by
  have hu0 := Rounding.u_nonneg R
  obtain ⟨w1, w2, w3, w4, w5, w6, w7, w8⟩ := powers1 hu0 hu
  have r1 := (rnd_of R (-2 * δ.val)).scale δ.val
  rw [mul_div_assoc, div_self hδ] at r1
  have c1 : |R.rnd (-2 * δ.val) / δ.val - -2| ≤ 2 * R.u := by
    have : |R.rnd (-2 * δ.val) / δ.val - -2 * 1| ≤ R.u * |(-2 : ℝ) * 1| := r1
    norm_num at this
    norm_num
    linarith
  have r2 := (rnd_of R (R.rnd (-2 * δ.val) * δ.val)).scale (δ.val ^ 2)
  rw [show R.rnd (-2 * δ.val) * δ.val / δ.val ^ 2 = R.rnd (-2 * δ.val) / δ.val * 1 by field_simp] at r2
  have c2 := mul_close hu0 c1 (show |(1 : ℝ) - 1| ≤ 0 by simp) (A := 2) (B := 1) (by norm_num) (by simp) r2
  have e : (fB δ).val = R.rnd (R.rnd (-2 * δ.val) * δ.val) := by
    show R.rnd (R.rnd (-((2 : ℕ) : ℝ) * δ.val) * δ.val) = _
    norm_num
  rw [e]
  refine le_trans (by simpa using c2) ?_
  linarith

theorem fA_pos : 0 < (fA δ).val := by
  have hu0 := Rounding.u_nonneg R
  obtain ⟨w1, w2, w3, w4, w5, w6, w7, w8⟩ := powers1 hu0 hu
  have h := (abs_le.1 (fA_close hu hδ)).1
  have h2 : 0 < (fA δ).val / δ.val ^ 2 := by linarith
  have h3 : 0 < δ.val ^ 2 := by positivity
  exact (div_pos_iff_of_pos_right h3).1 h2

theorem u1_close : |(u1 δ).val - -2| ≤ 11 * R.u := by
  have hu0 := Rounding.u_nonneg R
  obtain ⟨w1, w2, w3, w4, w5, w6, w7, w8⟩ := powers1 hu0 hu
  have hS : δ.val ^ 2 ≠ 0 := by positivity
  have r := rnd_of R ((fB δ).val / (fA δ).val)
  rw [show (fB δ).val / (fA δ).val = ((fB δ).val / δ.val ^ 2) / ((fA δ).val / δ.val ^ 2) by
    have := (fA_pos hu hδ).ne'; field_simp] at r
  have c := div_close (t := -2) (b := 1) (T := 2) (β := 1) hu0 (by simpa using fB_close hu hδ)
    (fA_close hu hδ) (by norm_num) (by simp) (by linarith) r
  have e : (u1 δ).val = R.rnd ((fB δ).val / (fA δ).val) := rfl
  rw [e, show (fB δ).val / (fA δ).val = ((fB δ).val / δ.val ^ 2) / ((fA δ).val / δ.val ^ 2) by
    have := (fA_pos hu hδ).ne'; field_simp]
  refine c.trans ?_
  have hd : (4.02 * R.u + 2 * (2.01 * R.u)) / (1 - 2.01 * R.u) ≤ 8.1 * R.u := by
    rw [div_le_iff₀ (by linarith)]
    linarith
  have h2 := mul_le_mul_of_nonneg_left hd hu0
  linarith

theorem u2_close : |(u2 δ).val - 1| ≤ R.u := by
  have e : (u2 δ).val = R.rnd ((fA δ).val / (fA δ).val) := rfl
  rw [e, div_self (fA_pos hu hδ).ne']
  simpa using R.err 1

theorem u3_close : (u3 δ).val = 0 := by
  have e : (u3 δ).val = R.rnd (0 / (fA δ).val) := rfl
  rw [e, zero_div, Rounding.rnd_zero]

theorem piv0_close : |(piv0 δ).val - 1| ≤ 5 * R.u := by
  have hu0 := Rounding.u_nonneg R
  obtain ⟨w1, w2, w3, w4, w5, w6, w7, w8⟩ := powers1 hu0 hu
  have c1 := mul_close hu0 (β0_close hu) (u1_close hu hδ) (A := 1 / 6) (B := 2) (by norm_num) (by norm_num)
    (rnd_of R _)
  have c2 := sub_close hu0 (β1_close hu) c1 (D := 1) (by norm_num) (rnd_of R _)
  have e : (piv0 δ).val = R.rnd ((β1 : Fl R).val - R.rnd ((β0 : Fl R).val * (u1 δ).val)) := rfl
  rw [e]
  norm_num at c2
  refine c2.trans ?_
  linarith

/-! ### Elimination -/

theorem q_close : ∀ r : ℕ, |(q δ r).val - q (1 : ℝ) r| ≤ 3 * R.u
  | 0 => by
    have hu0 := Rounding.u_nonneg R
    obtain ⟨w1, w2, w3, w4, w5, w6, w7, w8⟩ := powers1 hu0 hu
    have e0 : q (1 : ℝ) 0 = 0 := by rw [q, u2_eq one_ne_zero]; simp
    have c1 := mul_close hu0 (β0_close hu) (u2_close hu hδ) (A := 1 / 6) (B := 1) (by norm_num) (by norm_num)
      (rnd_of R _)
    have c2 := sub_close hu0 (β0_close hu) c1 (D := 0) (by norm_num) (rnd_of R _)
    rw [e0]
    have c3 : |R.rnd ((β0 : Fl R).val - R.rnd ((β0 : Fl R).val * (u2 δ).val)) - 0 * 1| ≤ 0.8 * R.u := by
      norm_num at c2 ⊢
      refine c2.trans ?_
      linarith
    have c4 := div_close hu0 c3 (piv0_close hu hδ) (T := 0) (β := 1) (by simp) (by simp) (by linarith)
      (rnd_of R _)
    have e : (q δ 0).val = R.rnd (R.rnd ((β0 : Fl R).val - R.rnd ((β0 : Fl R).val * (u2 δ).val)) /
      (piv0 δ).val) := rfl
    rw [e]
    refine c4.trans ?_
    have hd : (0.8 * R.u + 0 * (5 * R.u)) / (1 - 5 * R.u) ≤ 0.9 * R.u := by
      rw [div_le_iff₀ (by linarith)]
      linarith
    have h2 := mul_le_mul_of_nonneg_left hd hu0
    linarith
  | r + 1 => by
    have hu0 := Rounding.u_nonneg R
    obtain ⟨w1, w2, w3, w4, w5, w6, w7, w8⟩ := powers1 hu0 hu
    have ih := q_close r
    obtain ⟨q0, q1⟩ := q_range (δ := (1 : ℝ)) one_ne_zero r
    obtain ⟨q0', q1'⟩ := q_range (δ := (1 : ℝ)) one_ne_zero (r + 1)
    have c1 := mul_close hu0 (β0_close hu) ih (A := 1 / 6) (B := 1 / 3) (by norm_num)
      (by rw [abs_of_nonneg q0]; exact q1) (rnd_of R _)
    have c2 := sub_close hu0 (β1_close hu) c1 (D := 2 / 3) (by rw [abs_le]; constructor <;> linarith)
      (rnd_of R _)
    have c3 : |R.rnd ((β1 : Fl R).val - R.rnd ((β0 : Fl R).val * (q δ r).val)) - (2 / 3 - 1 / 6 * q 1 r)|
        ≤ 2 * R.u := c2.trans (by linarith)
    have hb : (11 / 18 : ℝ) ≤ |2 / 3 - 1 / 6 * q (1 : ℝ) r| := by
      rw [abs_of_nonneg (by linarith)]; linarith
    have hq : q (1 : ℝ) (r + 1) * (2 / 3 - 1 / 6 * q 1 r) = 1 / 6 := by
      rw [q, β0_eq, β1_eq]
      have : (2 / 3 - 1 / 6 * q (1 : ℝ) r) ≠ 0 := by intro h0; linarith
      rw [div_mul_cancel₀ _ this]
    have c4 := div_close (t := q (1 : ℝ) (r + 1)) (a' := (β0 : Fl R).val) (ea := R.u / 6) hu0 (by rw [hq]; exact β0_close hu) c3 (T := 1 / 3)
      (by rw [abs_of_nonneg q0']; exact q1') hb (by linarith) (rnd_of R _)
    have e : (q δ (r + 1)).val = R.rnd ((β0 : Fl R).val /
      R.rnd ((β1 : Fl R).val - R.rnd ((β0 : Fl R).val * (q δ r).val))) := rfl
    rw [e]
    refine c4.trans ?_
    have hd : (R.u / 6 + 1 / 3 * (2 * R.u)) / (11 / 18 - 2 * R.u) ≤ 1.4 * R.u := by
      rw [div_le_iff₀ (by linarith)]
      linarith
    have h2 := mul_le_mul_of_nonneg_left hd hu0
    linarith

theorem piv_close (r : ℕ) : |(piv δ (r + 1)).val - (2 / 3 - 1 / 6 * q (1 : ℝ) r)| ≤ 2 * R.u := by
  have hu0 := Rounding.u_nonneg R
  obtain ⟨w1, w2, w3, w4, w5, w6, w7, w8⟩ := powers1 hu0 hu
  obtain ⟨q0, q1⟩ := q_range (δ := (1 : ℝ)) one_ne_zero r
  have c1 := mul_close hu0 (β0_close hu) (q_close hu hδ r) (A := 1 / 6) (B := 1 / 3) (by norm_num)
    (by rw [abs_of_nonneg q0]; exact q1) (rnd_of R _)
  have c2 := sub_close hu0 (β1_close hu) c1 (D := 2 / 3) (by rw [abs_le]; constructor <;> linarith)
    (rnd_of R _)
  have e : (piv δ (r + 1)).val = R.rnd ((β1 : Fl R).val - R.rnd ((β0 : Fl R).val * (q δ r).val)) := rfl
  rw [e]
  exact c2.trans (by linarith)

end

/-! ### Right-hand sides -/

theorem piv_one (r : ℕ) : piv (1 : ℝ) (r + 1) = 2 / 3 - 1 / 6 * q 1 r := by
  rw [piv, β0_eq, β1_eq]

theorem rhs_bound {data : ℕ → ℝ} {M : ℝ} {m : ℕ} (hM : ∀ i < m, |data i| ≤ M) : ∀ r < m,
    |rhs (1 : ℝ) data r| ≤ 9 / 4 * M
  | 0, h => by
    have e : rhs (1 : ℝ) data 0 = data 0 := by
      rw [rhs, piv0_eq one_ne_zero, u3_eq one_ne_zero]; simp
    rw [e]
    have := hM 0 h
    have := abs_nonneg (data 0)
    linarith
  | r + 1, h => by
    have ih := rhs_bound hM r (by omega)
    have h1 := hM (r + 1) h
    obtain ⟨q0, q1⟩ := q_range (δ := (1 : ℝ)) one_ne_zero r
    rw [rhs, β0_eq, piv_one, abs_div, abs_of_pos (by linarith : 0 < 2 / 3 - 1 / 6 * q (1 : ℝ) r),
      div_le_iff₀ (by linarith)]
    have h2 : |data (r + 1) - 1 / 6 * rhs (1 : ℝ) data r| ≤ M + 1 / 6 * (9 / 4 * M) := by
      have := abs_sub (data (r + 1)) (1 / 6 * rhs (1 : ℝ) data r)
      rw [abs_mul, abs_of_pos (by norm_num : (0 : ℝ) < 1 / 6)] at this
      linarith
    have hM0 : 0 ≤ M := (abs_nonneg _).trans h1
    nlinarith

section
variable {R : Rounding} (hu : R.u ≤ 1 / 1000) {δ : Fl R} (hδ : δ.val ≠ 0)
include hu hδ

theorem rhs_close {data : ℕ → Fl R} {M : ℝ} {m : ℕ} (hM : ∀ i < m, |(data i).val| ≤ M) : ∀ r < m,
    |(rhs δ data r).val - rhs (1 : ℝ) (fun i => (data i).val) r| ≤ 25 * R.u * M
  | 0, h => by
    have hu0 := Rounding.u_nonneg R
    obtain ⟨w1, w2, w3, w4, w5, w6, w7, w8⟩ := powers1 hu0 hu
    have h0 := hM 0 h
    have hM0 : 0 ≤ M := (abs_nonneg _).trans h0
    obtain ⟨s1, s2, s3, s4, s5, s6, s7, s8, s9⟩ := powers hu0 hu hM0
    have e : rhs (1 : ℝ) (fun i => (data i).val) 0 = (data 0).val := by
      rw [rhs, piv0_eq one_ne_zero, u3_eq one_ne_zero]; simp
    rw [e]
    have c1 : |R.rnd ((data 0).val - R.rnd ((β0 : Fl R).val * (u3 δ).val)) - (data 0).val * 1| ≤ R.u * M := by
      rw [u3_close hu hδ, mul_zero, Rounding.rnd_zero, sub_zero, mul_one]
      exact (R.err _).trans (by gcongr)
    have c2 := div_close hu0 c1 (piv0_close hu hδ) (T := M) (β := 1) h0 (by simp) (by linarith)
      (rnd_of R _)
    have e2 : (rhs δ data 0).val = R.rnd (R.rnd ((data 0).val - R.rnd ((β0 : Fl R).val * (u3 δ).val)) /
      (piv0 δ).val) := rfl
    rw [e2]
    refine c2.trans ?_
    have hum : 0 ≤ R.u * M := mul_nonneg hu0 hM0
    have hd : (R.u * M + M * (5 * R.u)) / (1 - 5 * R.u) ≤ 6.1 * (R.u * M) := by
      rw [div_le_iff₀ (by linarith)]
      linarith
    have h2 := mul_le_mul_of_nonneg_left hd hu0
    linarith
  | r + 1, h => by
    have hu0 := Rounding.u_nonneg R
    obtain ⟨w1, w2, w3, w4, w5, w6, w7, w8⟩ := powers1 hu0 hu
    have h1 := hM (r + 1) h
    have hM0 : 0 ≤ M := (abs_nonneg _).trans h1
    obtain ⟨s1, s2, s3, s4, s5, s6, s7, s8, s9⟩ := powers hu0 hu hM0
    have ih := rhs_close hM r (by omega)
    have hum : 0 ≤ R.u * M := mul_nonneg hu0 hM0
    have huum : R.u * (R.u * M) ≤ 1 / 1000 * (R.u * M) := by gcongr
    have b := rhs_bound (data := fun i => (data i).val) hM r (by omega)
    have b' := rhs_bound (data := fun i => (data i).val) hM (r + 1) h
    obtain ⟨q0, q1⟩ := q_range (δ := (1 : ℝ)) one_ne_zero r
    set ρ := rhs (1 : ℝ) (fun i => (data i).val) r with hρ
    set ρ' := rhs (1 : ℝ) (fun i => (data i).val) (r + 1) with hρ'
    have c1 := mul_close hu0 (β0_close hu) ih (A := 1 / 6) (B := 9 / 4 * M) (by norm_num) b (rnd_of R _)
    have c2 := sub_close hu0 (show |(data (r + 1)).val - (data (r + 1)).val| ≤ 0 by simp) c1
      (D := 1.375 * M) (by
        have := abs_sub ((data (r + 1)).val) (1 / 6 * ρ)
        rw [abs_mul, abs_of_pos (by norm_num : (0 : ℝ) < 1 / 6)] at this
        linarith) (rnd_of R _)
    have hb : (11 / 18 : ℝ) ≤ |2 / 3 - 1 / 6 * q (1 : ℝ) r| := by
      rw [abs_of_nonneg (by linarith)]; linarith
    have hq : ρ' * (2 / 3 - 1 / 6 * q 1 r) = (data (r + 1)).val - 1 / 6 * ρ := by
      rw [hρ', rhs, β0_eq, piv_one]
      have : (2 / 3 - 1 / 6 * q (1 : ℝ) r) ≠ 0 := by intro h0; linarith
      rw [div_mul_cancel₀ _ this]
    have c3 : |R.rnd ((data (r + 1)).val - R.rnd ((β0 : Fl R).val * (rhs δ data r).val))
        - ρ' * (2 / 3 - 1 / 6 * q 1 r)| ≤ 6.4 * (R.u * M) := by
      rw [hq]
      refine c2.trans ?_
      have : R.u * (R.u * (R.u * M)) ≤ 1 / 1000 * (R.u * M) := by nlinarith
      linarith
    have c4 := div_close hu0 c3 (piv_close hu hδ r) (T := 9 / 4 * M) b' hb (by linarith) (rnd_of R _)
    have e : (rhs δ data (r + 1)).val = R.rnd (R.rnd ((data (r + 1)).val -
      R.rnd ((β0 : Fl R).val * (rhs δ data r).val)) / (piv δ (r + 1)).val) := rfl
    rw [e]
    refine c4.trans ?_
    have hd : (6.4 * (R.u * M) + 9 / 4 * M * (2 * R.u)) / (11 / 18 - 2 * R.u) ≤ 18 * (R.u * M) := by
      rw [div_le_iff₀ (by linarith)]
      linarith
    have h2 := mul_le_mul_of_nonneg_left hd hu0
    linarith

/-! ### The last row -/

theorem l1_close (m : ℕ) : |(l1 δ m).val / δ.val ^ 2 - (-2 - q (1 : ℝ) (m - 2))| ≤ 11 * R.u := by
  have hu0 := Rounding.u_nonneg R
  obtain ⟨w1, w2, w3, w4, w5, w6, w7, w8⟩ := powers1 hu0 hu
  have hS : δ.val ^ 2 ≠ 0 := by positivity
  obtain ⟨q0, q1⟩ := q_range (δ := (1 : ℝ)) one_ne_zero (m - 2)
  have r1 := (rnd_of R ((fA δ).val * (q δ (m - 2)).val)).scale (δ.val ^ 2)
  rw [mul_div_right_comm] at r1
  have c1 := mul_close hu0 (fA_close hu hδ) (q_close hu hδ (m - 2)) (A := 1) (B := 1 / 3) (by simp)
    (by rw [abs_of_nonneg q0]; exact q1) r1
  have r2 := (rnd_of R ((fB δ).val - R.rnd ((fA δ).val * (q δ (m - 2)).val))).scale (δ.val ^ 2)
  rw [sub_div] at r2
  have c2 := sub_close hu0 (fB_close hu hδ) c1 (D := 7 / 3)
    (by rw [abs_le]; constructor <;> linarith) r2
  have e : (l1 δ m).val = R.rnd ((fB δ).val - R.rnd ((fA δ).val * (q δ (m - 2)).val)) := rfl
  rw [e, show -2 - q (1 : ℝ) (m - 2) = -2 - 1 * q (1 : ℝ) (m - 2) by ring]
  exact c2.trans (by linarith)

theorem l2_close (m : ℕ) : |(l2 δ m).val / δ.val ^ 2
    - (1 - (-2 - q (1 : ℝ) (m - 2)) * q (1 : ℝ) (m - 1))| ≤ 16 * R.u := by
  have hu0 := Rounding.u_nonneg R
  obtain ⟨w1, w2, w3, w4, w5, w6, w7, w8⟩ := powers1 hu0 hu
  have hS : δ.val ^ 2 ≠ 0 := by positivity
  obtain ⟨q0, q1⟩ := q_range (δ := (1 : ℝ)) one_ne_zero (m - 2)
  obtain ⟨p0, p1⟩ := q_range (δ := (1 : ℝ)) one_ne_zero (m - 1)
  have r1 := (rnd_of R ((l1 δ m).val * (q δ (m - 1)).val)).scale (δ.val ^ 2)
  rw [mul_div_right_comm] at r1
  have c1 := mul_close hu0 (l1_close hu hδ m) (q_close hu hδ (m - 1)) (A := 7 / 3) (B := 1 / 3)
    (by rw [abs_le]; constructor <;> linarith) (by rw [abs_of_nonneg p0]; exact p1) r1
  have r2 := (rnd_of R ((fA δ).val - R.rnd ((l1 δ m).val * (q δ (m - 1)).val))).scale (δ.val ^ 2)
  rw [sub_div] at r2
  have c2 := sub_close hu0 (fA_close hu hδ) c1 (D := 16 / 9)
    (by rw [abs_le]; constructor <;> nlinarith) r2
  have e : (l2 δ m).val = R.rnd ((fA δ).val - R.rnd ((l1 δ m).val * (q δ (m - 1)).val)) := rfl
  rw [e]
  exact c2.trans (by linarith)

theorem l2_ge (m : ℕ) : 1 ≤ 1 - (-2 - q (1 : ℝ) (m - 2)) * q (1 : ℝ) (m - 1) := by
  obtain ⟨q0, q1⟩ := q_range (δ := (1 : ℝ)) one_ne_zero (m - 2)
  obtain ⟨p0, p1⟩ := q_range (δ := (1 : ℝ)) one_ne_zero (m - 1)
  nlinarith

theorem l2_exact (m : ℕ) : l2 (1 : ℝ) m = 1 - (-2 - q (1 : ℝ) (m - 2)) * q (1 : ℝ) (m - 1) := by
  simp only [l2, l1, fA, fB]; push_cast; ring

theorem top_bound {data : ℕ → ℝ} {M : ℝ} {m : ℕ} (hm : 2 ≤ m) (hM : ∀ i < m, |data i| ≤ M) :
    |top (1 : ℝ) m data| ≤ 15 / 2 * M := by
  obtain ⟨q0, q1⟩ := q_range (δ := (1 : ℝ)) one_ne_zero (m - 2)
  obtain ⟨p0, p1⟩ := q_range (δ := (1 : ℝ)) one_ne_zero (m - 1)
  have b1 := rhs_bound hM (m - 2) (by omega)
  have b2 := rhs_bound hM (m - 1) (by omega)
  have hM0 : 0 ≤ M := (abs_nonneg _).trans (hM 0 (by omega))
  rw [top, l2_exact hu hδ, abs_div]
  have hd : (1 : ℝ) ≤ |1 - (-2 - q (1 : ℝ) (m - 2)) * q (1 : ℝ) (m - 1)| := by
    have := l2_ge hu hδ m
    rw [abs_of_nonneg (by linarith)]; exact this
  have hn : |0 - fA (1 : ℝ) * rhs 1 data (m - 2) - l1 1 m * rhs 1 data (m - 1)| ≤ 15 / 2 * M := by
    have e : 0 - fA (1 : ℝ) * rhs 1 data (m - 2) - l1 1 m * rhs 1 data (m - 1)
        = (2 + q (1 : ℝ) (m - 2)) * rhs 1 data (m - 1) - rhs 1 data (m - 2) := by
      simp only [l1, fA, fB]; push_cast; ring
    rw [e]
    have := abs_sub ((2 + q (1 : ℝ) (m - 2)) * rhs 1 data (m - 1)) (rhs 1 data (m - 2))
    rw [abs_mul, abs_of_nonneg (by linarith : (0 : ℝ) ≤ 2 + q 1 (m - 2))] at this
    nlinarith [abs_nonneg (rhs (1 : ℝ) data (m - 1))]
  rw [div_le_iff₀ (by linarith)]
  nlinarith

theorem top_close {data : ℕ → Fl R} {M : ℝ} {m : ℕ} (hm : 2 ≤ m) (hM : ∀ i < m, |(data i).val| ≤ M) :
    |(top δ m data).val - top (1 : ℝ) m (fun i => (data i).val)| ≤ 265 * R.u * M := by
  have hu0 := Rounding.u_nonneg R
  obtain ⟨w1, w2, w3, w4, w5, w6, w7, w8⟩ := powers1 hu0 hu
  have hS : δ.val ^ 2 ≠ 0 := by positivity
  have hM0 : 0 ≤ M := (abs_nonneg _).trans (hM 0 (by omega))
  obtain ⟨s1, s2, s3, s4, s5, s6, s7, s8, s9⟩ := powers hu0 hu hM0
  have hl2 : 0 < (l2 δ m).val / δ.val ^ 2 := by
    have := (abs_le.1 (l2_close hu hδ m)).1
    have := l2_ge hu hδ m
    linarith
  set data' : ℕ → ℝ := fun i => (data i).val with hdata
  obtain ⟨q0, q1⟩ := q_range (δ := (1 : ℝ)) one_ne_zero (m - 2)
  obtain ⟨p0, p1⟩ := q_range (δ := (1 : ℝ)) one_ne_zero (m - 1)
  have b1 := rhs_bound (data := data') hM (m - 2) (by omega)
  have b2 := rhs_bound (data := data') hM (m - 1) (by omega)
  have bt := top_bound hu hδ (data := data') hm hM
  have k1 := rhs_close hu hδ hM (m - 2) (by omega)
  have k2 := rhs_close hu hδ hM (m - 1) (by omega)
  rw [← hdata] at k1 k2
  set ρ := rhs (1 : ℝ) data' (m - 2) with hρ
  set ρ' := rhs (1 : ℝ) data' (m - 1) with hρ'
  -- first product
  have r1 := (rnd_of R ((fA δ).val * (rhs δ data (m - 2)).val)).scale (δ.val ^ 2)
  rw [mul_div_right_comm] at r1
  have c1 := mul_close hu0 (fA_close hu hδ) k1 (A := 1) (B := 9 / 4 * M) (by simp) b1 r1
  have c1' : |R.rnd ((fA δ).val * (rhs δ data (m - 2)).val) / δ.val ^ 2 - 1 * ρ| ≤ 32 * (R.u * M) :=
    c1.trans (by linarith)
  have r2 := (rnd_of R (0 - R.rnd ((fA δ).val * (rhs δ data (m - 2)).val))).scale (δ.val ^ 2)
  rw [sub_div] at r2
  have c2 := sub_close hu0 (show |(0 : ℝ) / δ.val ^ 2 - 0| ≤ 0 by simp) c1' (D := 9 / 4 * M)
    (by rw [zero_sub, abs_neg, one_mul]; exact b1) r2
  have c2' : |R.rnd (0 - R.rnd ((fA δ).val * (rhs δ data (m - 2)).val)) / δ.val ^ 2 - (0 - 1 * ρ)|
      ≤ 35 * (R.u * M) := c2.trans (by linarith)
  -- second product
  have r3 := (rnd_of R ((l1 δ m).val * (rhs δ data (m - 1)).val)).scale (δ.val ^ 2)
  rw [mul_div_right_comm] at r3
  have c3 := mul_close hu0 (l1_close hu hδ m) k2 (A := 7 / 3) (B := 9 / 4 * M)
    (by rw [abs_le]; constructor <;> linarith) b2 r3
  have c3' : |R.rnd ((l1 δ m).val * (rhs δ data (m - 1)).val) / δ.val ^ 2
      - (-2 - q (1 : ℝ) (m - 2)) * ρ'| ≤ 90 * (R.u * M) := c3.trans (by linarith)
  have r4 := (rnd_of R (R.rnd (0 - R.rnd ((fA δ).val * (rhs δ data (m - 2)).val))
    - R.rnd ((l1 δ m).val * (rhs δ data (m - 1)).val))).scale (δ.val ^ 2)
  rw [sub_div] at r4
  have hD : |0 - 1 * ρ - (-2 - q (1 : ℝ) (m - 2)) * ρ'| ≤ 15 / 2 * M := by
    rw [show 0 - 1 * ρ - (-2 - q (1 : ℝ) (m - 2)) * ρ' = (2 + q (1 : ℝ) (m - 2)) * ρ' - ρ by ring]
    have := abs_sub ((2 + q (1 : ℝ) (m - 2)) * ρ') ρ
    rw [abs_mul, abs_of_nonneg (by linarith : (0 : ℝ) ≤ 2 + q 1 (m - 2))] at this
    nlinarith [abs_nonneg ρ']
  have c4 := sub_close hu0 c2' c3' hD r4
  have ht : top (1 : ℝ) m data' * (1 - (-2 - q (1 : ℝ) (m - 2)) * q (1 : ℝ) (m - 1))
      = 0 - 1 * ρ - (-2 - q (1 : ℝ) (m - 2)) * ρ' := by
    rw [top, l2_exact hu hδ, div_mul_cancel₀ _ (by have := l2_ge hu hδ m; intro h0; linarith)]
    simp only [l1, fA, fB]; push_cast; ring
  rw [← ht] at c4
  have r5 := rnd_of R (R.rnd (R.rnd (0 - R.rnd ((fA δ).val * (rhs δ data (m - 2)).val))
    - R.rnd ((l1 δ m).val * (rhs δ data (m - 1)).val)) / (l2 δ m).val)
  set num := R.rnd (R.rnd (0 - R.rnd ((fA δ).val * (rhs δ data (m - 2)).val))
    - R.rnd ((l1 δ m).val * (rhs δ data (m - 1)).val)) with hnum
  have c4' : |num / δ.val ^ 2 - top (1 : ℝ) m data' * (1 - (-2 - q (1 : ℝ) (m - 2)) * q (1 : ℝ) (m - 1))|
      ≤ 133 * (R.u * M) := c4.trans (by linarith)
  have e : (top δ m data).val = R.rnd (num / (l2 δ m).val) := rfl
  have hne : (l2 δ m).val ≠ 0 := by
    intro h0; rw [h0, zero_div] at hl2; exact lt_irrefl _ hl2
  rw [show num / (l2 δ m).val = num / δ.val ^ 2 / ((l2 δ m).val / δ.val ^ 2) by field_simp] at r5 e
  have hb : (1 : ℝ) ≤ |1 - (-2 - q (1 : ℝ) (m - 2)) * q (1 : ℝ) (m - 1)| := by
    have := l2_ge hu hδ m
    rw [abs_of_nonneg (by linarith)]; exact this
  have c5 := div_close hu0 c4' (l2_close hu hδ m) bt hb (by linarith) r5
  rw [e]
  refine c5.trans ?_
  have hd : (133 * (R.u * M) + 15 / 2 * M * (16 * R.u)) / (1 - 16 * R.u) ≤ 257.2 * (R.u * M) := by
    rw [div_le_iff₀ (by linarith)]
    linarith
  have h2 := mul_le_mul_of_nonneg_left hd hu0
  linarith

/-! ### Back substitution -/

theorem bk_bound {data : ℕ → ℝ} {M : ℝ} {m : ℕ} (hm : 2 ≤ m) (hM : ∀ i < m, |data i| ≤ M) : ∀ k ≤ m,
    |bk (1 : ℝ) m data k| ≤ 15 / 2 * M ∧ (1 ≤ k → |bk (1 : ℝ) m data k| ≤ 19 / 4 * M)
  | 0, _ => ⟨top_bound hu hδ hm hM, by omega⟩
  | k + 1, h => by
    have ih := (bk_bound hm hM k (by omega)).1
    have b := rhs_bound hM (m - 1 - k) (by omega)
    obtain ⟨q0, q1⟩ := q_range (δ := (1 : ℝ)) one_ne_zero (m - 1 - k)
    have hM0 : 0 ≤ M := (abs_nonneg _).trans (hM 0 (by omega))
    have : |bk (1 : ℝ) m data (k + 1)| ≤ 19 / 4 * M := by
      rw [bk]
      have := abs_sub (rhs (1 : ℝ) data (m - 1 - k)) (q 1 (m - 1 - k) * bk 1 m data k)
      rw [abs_mul, abs_of_nonneg q0] at this
      nlinarith [abs_nonneg (bk (1 : ℝ) m data k)]
    exact ⟨by linarith, fun _ => this⟩

theorem bk_close {data : ℕ → Fl R} {M : ℝ} {m : ℕ} (hm : 2 ≤ m) (hM : ∀ i < m, |(data i).val| ≤ M) :
    ∀ k ≤ m, |(bk δ m data k).val - bk (1 : ℝ) m (fun i => (data i).val) k| ≤ 265 * R.u * M ∧
      (1 ≤ k → |(bk δ m data k).val - bk (1 : ℝ) m (fun i => (data i).val) k| ≤ 145 * R.u * M)
  | 0, _ => ⟨top_close hu hδ hm hM, by omega⟩
  | k + 1, h => by
    have hu0 := Rounding.u_nonneg R
    obtain ⟨w1, w2, w3, w4, w5, w6, w7, w8⟩ := powers1 hu0 hu
    have hM0 : 0 ≤ M := (abs_nonneg _).trans (hM 0 (by omega))
    obtain ⟨s1, s2, s3, s4, s5, s6, s7, s8, s9⟩ := powers hu0 hu hM0
    have ih := (bk_close hm hM k (by omega)).1
    have b0 := (bk_bound hu hδ (data := fun i => (data i).val) hm hM k (by omega)).1
    have b1 := rhs_bound (data := fun i => (data i).val) hM (m - 1 - k) (by omega)
    have k1 := rhs_close hu hδ hM (m - 1 - k) (by omega)
    obtain ⟨q0, q1⟩ := q_range (δ := (1 : ℝ)) one_ne_zero (m - 1 - k)
    have c1 := mul_close hu0 (q_close hu hδ (m - 1 - k)) ih (A := 1 / 3) (B := 15 / 2 * M)
      (by rw [abs_of_nonneg q0]; exact q1) b0 (rnd_of R _)
    have c1' : |R.rnd ((q δ (m - 1 - k)).val * (bk δ m data k).val)
        - q 1 (m - 1 - k) * bk 1 m (fun i => (data i).val) k| ≤ 115 * (R.u * M) := c1.trans (by linarith)
    have c2 := sub_close hu0 k1 c1' (D := 19 / 4 * M) (by
      have := abs_sub (rhs (1 : ℝ) (fun i => (data i).val) (m - 1 - k))
        (q 1 (m - 1 - k) * bk 1 m (fun i => (data i).val) k)
      rw [abs_mul, abs_of_nonneg q0] at this
      nlinarith [abs_nonneg (bk (1 : ℝ) m (fun i => (data i).val) k)]) (rnd_of R _)
    have e : (bk δ m data (k + 1)).val = R.rnd ((rhs δ data (m - 1 - k)).val
      - R.rnd ((q δ (m - 1 - k)).val * (bk δ m data k).val)) := rfl
    have c3 : |(bk δ m data (k + 1)).val - bk (1 : ℝ) m (fun i => (data i).val) (k + 1)|
        ≤ 145 * R.u * M := by
      rw [e, bk]
      exact c2.trans (by linarith)
    exact ⟨by nlinarith, fun _ => c3⟩

theorem solve_close {data : ℕ → Fl R} {M : ℝ} {m : ℕ} (hm : 2 ≤ m) (hM : ∀ i < m, |(data i).val| ≤ M)
    (i : ℕ) (hi : i < m + 2) :
    |(solve δ m data i).val - solve (1 : ℝ) m (fun i => (data i).val) i| ≤ 540 * R.u * M := by
  have hu0 := Rounding.u_nonneg R
  obtain ⟨w1, w2, w3, w4, w5, w6, w7, w8⟩ := powers1 hu0 hu
  have hM0 : 0 ≤ M := (abs_nonneg _).trans (hM 0 (by omega))
  obtain ⟨s1, s2, s3, s4, s5, s6, s7, s8, s9⟩ := powers hu0 hu hM0
  by_cases h0 : i = 0
  · subst h0
    simp only [solve, if_true]
    have k1 := (bk_close hu hδ hm hM m le_rfl).2 (by omega)
    have k2 := (bk_close hu hδ hm hM (m - 1) (by omega)).2 (by omega)
    have b1 := (bk_bound hu hδ (data := fun i => (data i).val) hm hM m le_rfl).2 (by omega)
    have b2 := (bk_bound hu hδ (data := fun i => (data i).val) hm hM (m - 1) (by omega)).2 (by omega)
    set x1 := bk (1 : ℝ) m (fun i => (data i).val) m with hx1
    set x2 := bk (1 : ℝ) m (fun i => (data i).val) (m - 1) with hx2
    rw [u1_eq one_ne_zero, u2_eq one_ne_zero, u3_eq one_ne_zero]
    have c1 := mul_close hu0 (u1_close hu hδ) k1 (A := 2) (B := 19 / 4 * M) (by norm_num) b1 (rnd_of R _)
    have c1' : |R.rnd ((u1 δ).val * (bk δ m data m).val) - -2 * x1| ≤ 355 * (R.u * M) :=
      c1.trans (by linarith)
    have c2 := sub_close hu0 (show |(u3 δ).val - 0| ≤ 0 by rw [u3_close hu hδ]; simp) c1'
      (D := 19 / 2 * M) (by
        rw [zero_sub, abs_neg, abs_mul]; norm_num; linarith) (rnd_of R _)
    have c2' : |R.rnd ((u3 δ).val - R.rnd ((u1 δ).val * (bk δ m data m).val)) - (0 - -2 * x1)|
        ≤ 366 * (R.u * M) := c2.trans (by linarith)
    have c3 := mul_close hu0 (u2_close hu hδ) k2 (A := 1) (B := 19 / 4 * M) (by norm_num) b2 (rnd_of R _)
    have c3' : |R.rnd ((u2 δ).val * (bk δ m data (m - 1)).val) - 1 * x2| ≤ 156 * (R.u * M) :=
      c3.trans (by linarith)
    have c4 := sub_close hu0 c2' c3' (D := 57 / 4 * M) (by
      rw [show 0 - -2 * x1 - 1 * x2 = 2 * x1 - x2 by ring]
      have := abs_sub (2 * x1) x2
      rw [abs_mul, abs_of_pos (by norm_num : (0 : ℝ) < 2)] at this
      linarith) (rnd_of R _)
    refine le_trans c4 ?_
    linarith
  · simp only [solve, if_neg h0]
    have := (bk_close hu hδ hm hM (m + 1 - i) (by omega)).1
    linarith

/-- With rounding the solver meets no zero divisor. -/
theorem noZeroPivot_fl (m : ℕ) : NoZeroPivot δ m := by
  have hu0 := Rounding.u_nonneg R
  obtain ⟨w1, w2, w3, w4, w5, w6, w7, w8⟩ := powers1 hu0 hu
  refine ⟨(Fl.beq_false_iff _ _).2 (by simpa [Fl.zero_val] using (fA_pos hu hδ).ne'), ?_, ?_⟩
  · intro r _
    rw [Fl.beq_false_iff, Fl.zero_val]
    cases r with
    | zero =>
      have := (abs_le.1 (piv0_close hu hδ)).1
      have h : 0 < (piv0 δ).val := by linarith
      exact h.ne'
    | succ r =>
      have := (abs_le.1 (piv_close hu hδ r)).1
      obtain ⟨q0, q1⟩ := q_range (δ := (1 : ℝ)) one_ne_zero r
      have h : 0 < (piv δ (r + 1)).val := by linarith
      exact h.ne'
  · rw [Fl.beq_false_iff, Fl.zero_val]
    have h' := l2_ge hu hδ m
    have h := (abs_le.1 (l2_close hu hδ m)).1
    intro h0
    rw [h0, zero_div] at h
    linarith

end

end Interp.Filter
