import Verif.Proofs.FilterRounding
import Verif.Proofs.Calculus
import Mathlib.Analysis.Calculus.MeanValue

/-! Propagation of rounding errors through the evaluation of cubic splines. -/

set_option linter.unusedSectionVars false
set_option linter.unusedSimpArgs false

namespace Interp.Codegen
open Interp.Ref Interp.Spec Interp.Filter

theorem add_close {u a a' b b' ea eb D z : ℝ} (hu : 0 ≤ u) (ha : |a' - a| ≤ ea) (hb : |b' - b| ≤ eb)
    (hD : |a + b| ≤ D) (hz : Rnd u (a' + b') z) :
    |z - (a + b)| ≤ ea + eb + u * (D + (ea + eb)) := by
  have := sub_close (a := a) (a' := a') (b := -b) (b' := -b') (eb := eb) (D := D) (z := z) hu ha
    (by rw [show -b' - -b = -(b' - b) by ring, abs_neg]; exact hb)
    (by rwa [sub_neg_eq_add]) (by rwa [sub_neg_eq_add])
  rwa [sub_neg_eq_add] at this

theorem exact_close (a : ℝ) : |a - a| ≤ 0 := by simp

/-- The cubic polynomial of one weight. -/
theorem poly_close (R : Rounding) (hu : R.u ≤ 1 / 360) {A0 A1 A2 A3 t : ℝ} (h0 : |A0| ≤ 1)
    (h1 : |A1| ≤ 1) (h2 : |A2| ≤ 1) (h3 : |A3| ≤ 1) (t0 : 0 ≤ t) (t1 : t ≤ 1) :
    |R.rnd (R.rnd (R.rnd (R.rnd (R.rnd A0 * R.rnd (R.rnd (t * t) * t)) + R.rnd (R.rnd A1 * R.rnd (t * t)))
        + R.rnd (R.rnd A2 * t)) + R.rnd (R.rnd A3 * 1)) - (A0 * (t * t * t) + A1 * (t * t) + A2 * t + A3 * 1)|
      ≤ 22 * R.u := by
  have hu0 := Rounding.u_nonneg R
  have w1 : R.u * R.u ≤ 1 / 360 * R.u := by gcongr
  have w2 : R.u * R.u * R.u ≤ 1 / 360 * R.u := by nlinarith
  have w3 : R.u * R.u * R.u * R.u ≤ 1 / 360 * R.u := by nlinarith
  have lit : ∀ A : ℝ, |A| ≤ 1 → |R.rnd A - A| ≤ R.u := fun A hA =>
    (R.err A).trans (by nlinarith)
  have ht : |t| ≤ 1 := by rw [abs_of_nonneg t0]; exact t1
  have htt : |t * t| ≤ 1 := by rw [abs_of_nonneg (by positivity)]; nlinarith
  have httt : |t * t * t| ≤ 1 := by
    rw [abs_mul]; nlinarith [abs_nonneg t, abs_nonneg (t * t)]
  have m1 : |R.rnd (t * t) - t * t| ≤ R.u := lit _ htt
  have m0 : |R.rnd (R.rnd (t * t) * t) - t * t * t| ≤ 2.1 * R.u := by
    have := mul_close hu0 m1 (exact_close t) htt ht (rnd_of R _)
    linarith
  have pm : ∀ {A B B' e e' : ℝ}, |A| ≤ 1 → |B| ≤ 1 → |B' - B| ≤ e → 0 ≤ e → e ≤ 3 * R.u → e + 2.05 * R.u ≤ e' →
      |R.rnd (R.rnd A * B') - A * B| ≤ e' := by
    intro A B B' e e' hA hB hBB he he3 hee
    have := mul_close hu0 (lit A hA) hBB hA hB (rnd_of R _)
    have x1 : R.u * e ≤ 3 / 360 * R.u := by nlinarith
    have x2 : R.u * (R.u * e) ≤ 3 / 360 / 360 * R.u := by nlinarith
    nlinarith
  have pb : ∀ {A B : ℝ}, |A| ≤ 1 → |B| ≤ 1 → |A * B| ≤ 1 := by
    intro A B hA hB
    rw [abs_mul]; nlinarith [abs_nonneg A, abs_nonneg B]
  have p0 := pm (e' := 4.2 * R.u) h0 httt m0 (by linarith) (by linarith) (by linarith)
  have p1 := pm (e' := 3.1 * R.u) h1 htt m1 (by linarith) (by linarith) (by linarith)
  have p2 := pm (e' := 2.1 * R.u) h2 ht (exact_close t) le_rfl (by linarith) (by linarith)
  have p3 := pm (e' := 2.1 * R.u) (B := 1) (B' := 1) h3 (by norm_num) (exact_close 1) le_rfl (by linarith) (by linarith)
  have q0 := pb h0 httt
  have q1 := pb h1 htt
  have q2 := pb h2 ht
  have q3 : |A3 * 1| ≤ 1 := by rwa [mul_one]
  have d1 : |A0 * (t * t * t) + A1 * (t * t)| ≤ 2 := (abs_add_le _ _).trans (by linarith)
  have d2 : |A0 * (t * t * t) + A1 * (t * t) + A2 * t| ≤ 3 := (abs_add_le _ _).trans (by linarith)
  have d3 : |A0 * (t * t * t) + A1 * (t * t) + A2 * t + A3 * 1| ≤ 4 := (abs_add_le _ _).trans (by linarith)
  have s1 := add_close hu0 p0 p1 d1 (rnd_of R _)
  have s2 := add_close hu0 s1 p2 d2 (rnd_of R _)
  have s3 := add_close hu0 s2 p3 d3 (rnd_of R _)
  refine s3.trans ?_
  linarith

/-- The affine continuation of one weight. -/
theorem tangent_close (R : Rounding) (hu : R.u ≤ 1 / 360) {A0 A1 A2 A3 t : ℝ} (h0 : |A0| ≤ 1)
    (h1 : |A1| ≤ 1) (h2 : |A2| ≤ 1) (h3 : |A3| ≤ 1) (t0 : 1 ≤ t) (t1 : t ≤ 1.15) :
    |R.rnd (R.rnd (R.rnd (R.rnd (R.rnd (3 * R.rnd A0) + R.rnd (2 * R.rnd A1)) + R.rnd A2) * R.rnd (t - 1))
        + R.rnd (R.rnd (R.rnd (R.rnd (R.rnd A0 + R.rnd A1) + R.rnd A2) + R.rnd A3) * 1))
        - ((3 * A0 + 2 * A1 + A2) * (t - 1) + (A0 + A1 + A2 + A3) * 1)|
      ≤ 30 * R.u := by
  have hu0 := Rounding.u_nonneg R
  have w1 : R.u * R.u ≤ 1 / 360 * R.u := by gcongr
  have w2 : R.u * R.u * R.u ≤ 1 / 360 / 360 * R.u := by nlinarith
  have lit : ∀ A : ℝ, |A| ≤ 1 → |R.rnd A - A| ≤ R.u := fun A hA =>
    (R.err A).trans (by nlinarith)
  have a1 : |R.rnd (3 * R.rnd A0) - 3 * A0| ≤ 6.1 * R.u := by
    have := mul_close hu0 (exact_close 3) (lit A0 h0) (A := 3) (by norm_num) h0 (rnd_of R _)
    linarith
  have a2 : |R.rnd (2 * R.rnd A1) - 2 * A1| ≤ 4.1 * R.u := by
    have := mul_close hu0 (exact_close 2) (lit A1 h1) (A := 2) (by norm_num) h1 (rnd_of R _)
    linarith
  have b0 : |3 * A0| ≤ 3 := by rw [abs_mul]; norm_num; linarith
  have b1 : |2 * A1| ≤ 2 := by rw [abs_mul]; norm_num; linarith
  have b2 : |3 * A0 + 2 * A1| ≤ 5 := (abs_add_le _ _).trans (by linarith)
  have b3 : |3 * A0 + 2 * A1 + A2| ≤ 6 := (abs_add_le _ _).trans (by linarith)
  have a3 : |R.rnd (R.rnd (3 * R.rnd A0) + R.rnd (2 * R.rnd A1)) - (3 * A0 + 2 * A1)| ≤ 15.3 * R.u := by
    have := add_close hu0 a1 a2 b2 (rnd_of R _)
    linarith
  have a4 : |R.rnd (R.rnd (R.rnd (3 * R.rnd A0) + R.rnd (2 * R.rnd A1)) + R.rnd A2) - (3 * A0 + 2 * A1 + A2)|
      ≤ 22.4 * R.u := by
    have := add_close hu0 a3 (lit A2 h2) b3 (rnd_of R _)
    linarith
  have ht : |t - 1| ≤ 0.15 := by rw [abs_of_nonneg (by linarith)]; linarith
  have a5 : |R.rnd (t - 1) - (t - 1)| ≤ 0.15 * R.u := (R.err _).trans (by nlinarith)
  have a6 : |R.rnd (R.rnd (R.rnd (R.rnd (3 * R.rnd A0) + R.rnd (2 * R.rnd A1)) + R.rnd A2) * R.rnd (t - 1))
      - (3 * A0 + 2 * A1 + A2) * (t - 1)| ≤ 5.4 * R.u := by
    have := mul_close hu0 a4 a5 b3 ht (rnd_of R _)
    linarith
  have c1 : |A0 + A1| ≤ 2 := (abs_add_le _ _).trans (by linarith)
  have c2 : |A0 + A1 + A2| ≤ 3 := (abs_add_le _ _).trans (by linarith)
  have c3 : |A0 + A1 + A2 + A3| ≤ 4 := (abs_add_le _ _).trans (by linarith)
  have d1 : |R.rnd (R.rnd A0 + R.rnd A1) - (A0 + A1)| ≤ 4.1 * R.u := by
    have := add_close hu0 (lit A0 h0) (lit A1 h1) c1 (rnd_of R _)
    linarith
  have d2 : |R.rnd (R.rnd (R.rnd A0 + R.rnd A1) + R.rnd A2) - (A0 + A1 + A2)| ≤ 8.2 * R.u := by
    have := add_close hu0 d1 (lit A2 h2) c2 (rnd_of R _)
    linarith
  have d3 : |R.rnd (R.rnd (R.rnd (R.rnd A0 + R.rnd A1) + R.rnd A2) + R.rnd A3) - (A0 + A1 + A2 + A3)|
      ≤ 13.3 * R.u := by
    have := add_close hu0 d2 (lit A3 h3) c3 (rnd_of R _)
    linarith
  have d4 := mul_close hu0 d3 (exact_close 1) c3 (B := 1) (by norm_num) (rnd_of R _)
  have e1 : |(3 * A0 + 2 * A1 + A2) * (t - 1)| ≤ 0.9 := by
    rw [abs_mul]
    have := mul_le_mul b3 ht (abs_nonneg _) (by norm_num)
    linarith
  have e2 : |(3 * A0 + 2 * A1 + A2) * (t - 1) + (A0 + A1 + A2 + A3) * 1| ≤ 4.9 := by
    rw [mul_one]
    exact (abs_add_le _ _).trans (by linarith)
  have s := add_close hu0 a6 d4 e2 (rnd_of R _)
  refine s.trans ?_
  linarith

/-! ### The weights -/

theorem Ad_abs (j k : ℕ) : |(Ad j k : ℝ)| ≤ 1 := by
  unfold Ad
  split <;> norm_num [abs_le]

variable {R : Rounding}

theorem Ad_val (j k : ℕ) : (Ad j k : Fl R).val = R.rnd (Ad j k : ℝ) := by
  have h : ∀ p : ℝ, R.rnd (p / ((6 : ℕ) : ℝ)) = R.rnd (p / 6) := fun p => by norm_num
  have n3 : ((3 : ℕ) : ℝ) = 3 := by norm_num
  have n6 : ((6 : ℕ) : ℝ) = 6 := by norm_num
  have n4 : ((4 : ℕ) : ℝ) = 4 := by norm_num
  unfold Ad
  split
  · exact h _
  · exact (h ((3 : ℕ) : ℝ)).trans (by rw [n3])
  · exact (h (-((3 : ℕ) : ℝ))).trans (by rw [n3])
  · exact h _
  · exact (h ((3 : ℕ) : ℝ)).trans (by rw [n3])
  · exact (h (-((6 : ℕ) : ℝ))).trans (by rw [n6])
  · exact h _
  · exact (h ((4 : ℕ) : ℝ)).trans (by rw [n4])
  · exact (h (-((3 : ℕ) : ℝ))).trans (by rw [n3])
  · exact (h ((3 : ℕ) : ℝ)).trans (by rw [n3])
  · exact (h ((3 : ℕ) : ℝ)).trans (by rw [n3])
  · exact h _
  · exact h _
  · exact h _
  · exact h _
  · exact h _
  · exact (Rounding.rnd_zero R).symm

/-- The exact weights to the right of the left end of the cell. -/
theorem blend_right (t d : ℝ) (j : ℕ) (ht : 0 ≤ t) : blend3Vals 0 t d j =
    if 1 < t then (3 * Ad j 0 + 2 * Ad j 1 + Ad j 2) * (t - 1) + (Ad j 0 + Ad j 1 + Ad j 2 + Ad j 3) * 1
    else Ad j 0 * (t * t * t) + Ad j 1 * (t * t) + Ad j 2 * t + Ad j 3 * 1 := by
  simp only [blend3Vals, if_true, if_neg (not_lt.2 ht)]

theorem blend_close (hu : R.u ≤ 1 / 360) (t : Fl R) (d : Fl R) (e : ℝ) (j : ℕ) (t0 : 0 ≤ t.val)
    (t1 : t.val ≤ 1.15) : |(blend3Vals 0 t d j).val - blend3Vals 0 t.val e j| ≤ 30 * R.u := by
  have hu0 := Rounding.u_nonneg R
  rw [blend_right _ _ _ t0]
  have h0 : ¬ t < 0 := by rw [Fl.lt_iff, Fl.zero_val]; exact not_lt.2 t0
  by_cases h1 : 1 < t.val
  · have h1' : (1 : Fl R) < t := h1
    rw [if_pos h1]
    simp only [blend3Vals, if_true, if_neg h0, if_pos h1', Fl.add_val, Fl.mul_val, Fl.sub_val, Ad_val,
      Fl.one_val]
    have n3 : (3 : Fl R).val = 3 := show ((3 : ℕ) : ℝ) = 3 by norm_num
    have n2 : (2 : Fl R).val = 2 := show ((2 : ℕ) : ℝ) = 2 by norm_num
    rw [n3, n2]
    exact tangent_close R hu (Ad_abs j 0) (Ad_abs j 1) (Ad_abs j 2) (Ad_abs j 3) h1.le t1
  · have h1' : ¬ (1 : Fl R) < t := h1
    rw [if_neg h1]
    simp only [blend3Vals, if_true, if_neg h0, if_neg h1', Fl.add_val, Fl.mul_val, Fl.sub_val, Ad_val,
      Fl.one_val]
    exact (poly_close R hu (Ad_abs j 0) (Ad_abs j 1) (Ad_abs j 2) (Ad_abs j 3) t0 (not_lt.1 h1)).trans
      (by linarith)

theorem poly_lip {A0 A1 A2 A3 s t : ℝ} (h0 : |A0| ≤ 1) (h1 : |A1| ≤ 1) (h2 : |A2| ≤ 1) (s0 : 0 ≤ s)
    (s1 : s ≤ 1) (t0 : 0 ≤ t) (t1 : t ≤ 1) :
    |(A0 * (s * s * s) + A1 * (s * s) + A2 * s + A3 * 1) - (A0 * (t * t * t) + A1 * (t * t) + A2 * t + A3 * 1)|
      ≤ 6 * |s - t| := by
  have e : (A0 * (s * s * s) + A1 * (s * s) + A2 * s + A3 * 1)
      - (A0 * (t * t * t) + A1 * (t * t) + A2 * t + A3 * 1)
      = (A0 * (s * s + s * t + t * t) + A1 * (s + t) + A2) * (s - t) := by ring
  rw [e, abs_mul]
  gcongr
  have b1 : |A0 * (s * s + s * t + t * t)| ≤ 3 := by
    rw [abs_mul, abs_of_nonneg (show 0 ≤ s * s + s * t + t * t by positivity)]
    have x1 : s * s ≤ 1 := by nlinarith
    have x2 : s * t ≤ 1 := by nlinarith
    have x3 : t * t ≤ 1 := by nlinarith
    have := mul_le_mul h0 (show s * s + s * t + t * t ≤ 3 by linarith) (by positivity) zero_le_one
    linarith
  have b2 : |A1 * (s + t)| ≤ 2 := by
    rw [abs_mul, abs_of_nonneg (show 0 ≤ s + t by positivity)]
    have := mul_le_mul h1 (show s + t ≤ 2 by linarith) (by positivity) zero_le_one
    linarith
  have := abs_add_le (A0 * (s * s + s * t + t * t) + A1 * (s + t)) A2
  have := abs_add_le (A0 * (s * s + s * t + t * t)) (A1 * (s + t))
  linarith

theorem blend_lip (d : ℝ) (j : ℕ) {s t : ℝ} (s0 : 0 ≤ s) (t0 : 0 ≤ t) :
    |blend3Vals 0 s d j - blend3Vals 0 t d j| ≤ 6 * |s - t| := by
  wlog hst : s ≤ t generalizing s t
  · have := this t0 s0 (le_of_lt (not_le.1 hst))
    rwa [abs_sub_comm, abs_sub_comm t s] at this
  have h0 := Ad_abs j 0
  have h1 := Ad_abs j 1
  have h2 := Ad_abs j 2
  have hB : |3 * (Ad j 0 : ℝ) + 2 * Ad j 1 + Ad j 2| ≤ 6 := by
    have := abs_le.1 h0
    have := abs_le.1 h1
    have := abs_le.1 h2
    rw [abs_le]; constructor <;> linarith
  rw [blend_right _ _ _ s0, blend_right _ _ _ t0]
  by_cases ht : 1 < t
  · by_cases hs : 1 < s
    · rw [if_pos ht, if_pos hs]
      have e : (3 * (Ad j 0 : ℝ) + 2 * Ad j 1 + Ad j 2) * (s - 1) + (Ad j 0 + Ad j 1 + Ad j 2 + Ad j 3) * 1
          - ((3 * Ad j 0 + 2 * Ad j 1 + Ad j 2) * (t - 1) + (Ad j 0 + Ad j 1 + Ad j 2 + Ad j 3) * 1)
          = (3 * (Ad j 0 : ℝ) + 2 * Ad j 1 + Ad j 2) * (s - t) := by ring
      rw [e, abs_mul]
      gcongr
    · rw [if_pos ht, if_neg hs]
      have a1 := poly_lip (A3 := (Ad j 3 : ℝ)) h0 h1 h2 s0 (not_lt.1 hs) zero_le_one le_rfl
      have a2 : |(3 * (Ad j 0 : ℝ) + 2 * Ad j 1 + Ad j 2) * (1 - t)| ≤ 6 * |1 - t| := by
        rw [abs_mul]; gcongr
      have e : (Ad j 0 : ℝ) * (s * s * s) + Ad j 1 * (s * s) + Ad j 2 * s + Ad j 3 * 1
          - ((3 * Ad j 0 + 2 * Ad j 1 + Ad j 2) * (t - 1) + (Ad j 0 + Ad j 1 + Ad j 2 + Ad j 3) * 1)
          = (Ad j 0 * (s * s * s) + Ad j 1 * (s * s) + Ad j 2 * s + Ad j 3 * 1
            - (Ad j 0 * (1 * 1 * 1) + Ad j 1 * (1 * 1) + Ad j 2 * 1 + Ad j 3 * 1))
            + (3 * (Ad j 0 : ℝ) + 2 * Ad j 1 + Ad j 2) * (1 - t) := by ring
      rw [e]
      refine (abs_add_le _ _).trans ?_
      rw [abs_of_nonpos (show s - 1 ≤ 0 by linarith)] at a1
      rw [abs_of_nonpos (show 1 - t ≤ 0 by linarith)] at a2
      rw [abs_of_nonpos (show s - t ≤ 0 by linarith)]
      linarith
  · rw [if_neg ht, if_neg (by linarith)]
    exact poly_lip h0 h1 h2 s0 (by linarith) t0 (by linarith)

theorem blend_abs (d : ℝ) {j : ℕ} {t : ℝ} (hj : j < 4) (t0 : 0 ≤ t) (t1 : t ≤ 9 / 8) :
    |blend3Vals 0 t d j| ≤ 1 := by
  rw [blend_right _ _ _ t0]
  by_cases ht : 1 < t
  · rw [if_pos ht, abs_le]
    have : j = 0 ∨ j = 1 ∨ j = 2 ∨ j = 3 := by omega
    rcases this with rfl | rfl | rfl | rfl <;> norm_num [Ad] <;> constructor <;> linarith
  · rw [if_neg ht, abs_le]
    have ht := not_lt.1 ht
    have p1 : 0 ≤ t * t := by positivity
    have p2 : t * t ≤ t := by nlinarith
    have p3 : 0 ≤ t * t * t := by positivity
    have p4 : t * t * t ≤ t * t := by nlinarith
    have p5 : t * t - t * t * t ≤ 1 - t := by nlinarith
    have : j = 0 ∨ j = 1 ∨ j = 2 ∨ j = 3 := by omega
    rcases this with rfl | rfl | rfl | rfl <;> norm_num [Ad] <;> constructor <;> linarith

/-- The weights computed at a rounded coordinate. -/
theorem weight_close (hu : R.u ≤ 1 / 360) (t : Fl R) (d : Fl R) (e μ : ℝ) (j : ℕ) (m0 : 0 ≤ μ)
    (m1 : μ ≤ 9 / 8) (hn : Near R.u μ t.val) :
    |(blend3Vals 0 t d j).val - blend3Vals 0 μ e j| ≤ 37 * R.u := by
  have hu0 := Rounding.u_nonneg R
  have hd : |t.val - μ| ≤ R.u * μ := by
    have : |t.val - μ| ≤ R.u * |μ| := hn
    rwa [abs_of_nonneg m0] at this
  have hd' := abs_le.1 hd
  have t0 : 0 ≤ t.val := by nlinarith [hd'.1]
  have t1 : t.val ≤ 1.15 := by nlinarith [hd'.2]
  have a1 := blend_close hu t d e j t0 t1
  have a2 := blend_lip e j t0 m0
  have a3 := abs_sub_le (blend3Vals 0 t d j).val (blend3Vals 0 t.val e j) (blend3Vals 0 μ e j)
  nlinarith

/-- The sum of four products. -/
theorem four_close (R : Rounding) (hu : R.u ≤ 1 / 360) {W w h : ℕ → ℝ} {M : ℝ}
    (hw : ∀ j < 4, |w j - W j| ≤ 37 * R.u) (hW : ∀ j < 4, |W j| ≤ 1) (hh : ∀ j < 4, |h j| ≤ M) :
    |R.rnd (R.rnd (R.rnd (R.rnd (w 0 * h 0) + R.rnd (w 1 * h 1)) + R.rnd (w 2 * h 2)) + R.rnd (w 3 * h 3))
      - (W 0 * h 0 + W 1 * h 1 + W 2 * h 2 + W 3 * h 3)| ≤ 165 * R.u * M := by
  have hu0 := Rounding.u_nonneg R
  have hM : 0 ≤ M := (abs_nonneg _).trans (hh 0 (by norm_num))
  have v0 : 0 ≤ R.u * M := mul_nonneg hu0 hM
  have v1 : R.u * R.u * M ≤ 1 / 360 * (R.u * M) := by nlinarith
  have v2 : R.u * (R.u * R.u * M) ≤ 1 / 360 / 360 * (R.u * M) := by nlinarith
  have v3 : R.u * (R.u * (R.u * R.u * M)) ≤ 1 / 360 / 360 * (R.u * M) := by nlinarith
  have p : ∀ j < 4, |R.rnd (w j * h j) - W j * h j| ≤ 38.2 * (R.u * M) := fun j hj => by
    have := mul_close hu0 (hw j hj) (exact_close (h j)) (hW j hj) (hh j hj) (rnd_of R _)
    linarith
  have q : ∀ j < 4, |W j * h j| ≤ M := fun j hj => by
    rw [abs_mul]
    have := mul_le_mul (hW j hj) (hh j hj) (abs_nonneg _) zero_le_one
    linarith
  have d1 : |W 0 * h 0 + W 1 * h 1| ≤ 2 * M :=
    (abs_add_le _ _).trans (by linarith [q 0 (by norm_num), q 1 (by norm_num)])
  have d2 : |W 0 * h 0 + W 1 * h 1 + W 2 * h 2| ≤ 3 * M :=
    (abs_add_le _ _).trans (by linarith [q 2 (by norm_num)])
  have d3 : |W 0 * h 0 + W 1 * h 1 + W 2 * h 2 + W 3 * h 3| ≤ 4 * M :=
    (abs_add_le _ _).trans (by linarith [q 3 (by norm_num)])
  have s1 := add_close hu0 (p 0 (by norm_num)) (p 1 (by norm_num)) d1 (rnd_of R _)
  have s2 := add_close hu0 s1 (p 2 (by norm_num)) d2 (rnd_of R _)
  have s3 := add_close hu0 s2 (p 3 (by norm_num)) d3 (rnd_of R _)
  refine s3.trans ?_
  linarith

end Interp.Codegen
