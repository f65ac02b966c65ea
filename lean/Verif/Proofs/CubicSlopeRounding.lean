import Verif.Proofs.CubicRoundingNd

/-! Propagation of rounding errors through the first partial derivatives of cubic splines. -/

set_option linter.unusedSectionVars false
set_option linter.unusedSimpArgs false

namespace Interp.Codegen
open Interp.Ref Interp.Spec Interp.Filter

/-! ### The slope is Lipschitz -/

/-- The slope on one cell, in units of the spacing. -/
noncomputable def slopeP (c : ℕ → ℝ) (s : ℝ) : ℝ :=
  -(1 - s) ^ 2 / 2 * c 0 + (3 * s ^ 2 - 4 * s) / 2 * c 1 + (-3 * s ^ 2 + 2 * s + 1) / 2 * c 2
    + s ^ 2 / 2 * c 3

theorem slopeP_lip {c : ℕ → ℝ} {M s t : ℝ} (h : ∀ j < 4, |c j| ≤ M) (s0 : 0 ≤ s) (s1 : s ≤ 1)
    (t0 : 0 ≤ t) (t1 : t ≤ 1) : |slopeP c s - slopeP c t| ≤ 6 * M * |s - t| := by
  have e : slopeP c s - slopeP c t = ((1 - (s + t) / 2) * c 0 + (3 * ((s + t) / 2) - 2) * c 1
      + (1 - 3 * ((s + t) / 2)) * c 2 + (s + t) / 2 * c 3) * (s - t) := by
    unfold slopeP; ring
  rw [e, abs_mul]
  refine mul_le_mul_of_nonneg_right ?_ (abs_nonneg _)
  have w0 : 0 ≤ (s + t) / 2 := by linarith
  have w1 : (s + t) / 2 ≤ 1 := by linarith
  set w := (s + t) / 2
  have hM : 0 ≤ M := (abs_nonneg _).trans (h 0 (by norm_num))
  have pr : ∀ {k B : ℝ} {j : ℕ}, j < 4 → |k| ≤ B → 0 ≤ B → |k * c j| ≤ B * M := fun hj hk hB => by
    rw [abs_mul]; exact mul_le_mul hk (h _ hj) (abs_nonneg _) hB
  have q0 := pr (k := 1 - w) (B := 1) (j := 0) (by norm_num) (by rw [abs_le]; constructor <;> linarith) (by norm_num)
  have q1 := pr (k := 3 * w - 2) (B := 2) (j := 1) (by norm_num) (by rw [abs_le]; constructor <;> linarith) (by norm_num)
  have q2 := pr (k := 1 - 3 * w) (B := 2) (j := 2) (by norm_num) (by rw [abs_le]; constructor <;> linarith) (by norm_num)
  have q3 := pr (k := w) (B := 1) (j := 3) (by norm_num) (by rw [abs_le]; constructor <;> linarith) (by norm_num)
  refine (abs_add_le _ _).trans ?_
  refine (add_le_add (abs_add_le _ _) le_rfl).trans ?_
  refine (add_le_add (add_le_add (abs_add_le _ _) le_rfl) le_rfl).trans ?_
  linarith

/-- The slope along an axis, in units of the spacing. -/
noncomputable def slopeQ (c : ℕ → ℝ) (s : ℝ) : ℝ := slopeP c (max 0 (min s 1))

theorem clamp_sub_le (s t : ℝ) : |max 0 (min s 1) - max 0 (min t 1)| ≤ |s - t| := by
  rw [abs_le]
  simp only [max_def, min_def]
  split_ifs <;> constructor <;> cases abs_cases (s - t) <;> linarith

theorem slopeQ_lip {c : ℕ → ℝ} {M : ℝ} (h : ∀ j < 4, |c j| ≤ M) (s t : ℝ) :
    |slopeQ c s - slopeQ c t| ≤ 6 * M * |s - t| := by
  have hM : 0 ≤ M := (abs_nonneg _).trans (h 0 (by norm_num))
  refine (slopeP_lip h (le_max_left _ _) (max_le zero_le_one (min_le_right _ _)) (le_max_left _ _)
    (max_le zero_le_one (min_le_right _ _))).trans ?_
  exact mul_le_mul_of_nonneg_left (clamp_sub_le s t) (by linarith)

theorem slopeQ_eq (c : ℕ → ℝ) (s d : ℝ) :
    blend3Vals 1 s d 0 * c 0 + blend3Vals 1 s d 1 * c 1 + blend3Vals 1 s d 2 * c 2
      + blend3Vals 1 s d 3 * c 3 = slopeQ c s * d := by
  rw [(three_ops s d _ _ _ _).2, slopeQ]
  congr 1
  split_ifs with h1 h2
  · rw [min_eq_left (by linarith), max_eq_left h1.le]; unfold slopeP; ring
  · rw [min_eq_right h2.le, max_eq_right zero_le_one]; unfold slopeP; ring
  · rw [min_eq_left (not_lt.1 h2), max_eq_right (not_lt.1 h1)]; rfl

section
variable {a b : ℝ} {n : ℤ}

theorem axisOp_slopeQ (x : ℝ) (c : ℕ → ℝ) (J : ℕ) (hJ : cell (.uniform a b n) x = J) :
    axisOp 3 1 (.uniform a b n) x c
      = slopeQ (fun i => c (J + i)) (upos a b n x - J) * (((n : ℝ) - 1) / (b - a)) := by
  rw [axisOp_three 1 a b n x c J hJ, ← slopeQ_eq]
  rfl

theorem slope_lip_aux (h : ValidAxis (.uniform a b n)) {x y : ℝ} {c : ℕ → ℝ} {M : ℝ}
    (hc : ∀ j < nCoef 3 (.uniform a b n), |c j| ≤ M) {J J' : ℕ} (hJ : cell (.uniform a b n) x = J)
    (hJ' : cell (.uniform a b n) y = J') (hle : J ≤ J') (hxy : |upos a b n y - upos a b n x| < 1) :
    |slopeQ (fun i => c (J' + i)) (upos a b n y - J') - slopeQ (fun i => c (J + i)) (upos a b n x - J)|
      ≤ 6 * M * |upos a b n y - upos a b n x| := by
  have hn : 2 ≤ n := h.2
  have bd : ∀ {t : ℝ} {j : ℕ}, cell (.uniform a b n) t = j → ∀ i < 4, |c (j + i)| ≤ M := fun {t j} ht i hi => by
    have hb := (cell_bounds (.uniform a b n) (by rw [size_eq]; exact ValidAxis.two_le h) t).2
    rw [ht, size_eq] at hb
    refine hc _ ?_
    show _ < nNodes (.uniform a b n) + 2
    omega
  have hM : 0 ≤ M := (abs_nonneg _).trans (bd hJ 0 (by norm_num))
  have ce : ∀ t, cell (.uniform a b n) t = max (min ⌊upos a b n t⌋ (n - 2)) 0 := fun t => by
    rw [← pyMinZ_eq, ← pyMaxZ_eq]; rfl
  rcases Nat.eq_or_lt_of_le hle with rfl | hlt
  · refine (slopeQ_lip (bd hJ) _ _).trans (le_of_eq ?_)
    congr 2; ring
  · rw [ce] at hJ hJ'
    have f1 : ⌊upos a b n x⌋ ≤ (J : ℤ) := by omega
    have f2 : (J' : ℤ) ≤ ⌊upos a b n y⌋ := by omega
    have g1 : upos a b n x < J + 1 := by
      have := Int.lt_floor_add_one (upos a b n x)
      have h3 : ((⌊upos a b n x⌋ : ℤ) : ℝ) ≤ ((J : ℤ) : ℝ) := by exact_mod_cast f1
      push_cast at h3; linarith
    have g2 : (J' : ℝ) ≤ upos a b n y := by
      have := Int.floor_le (upos a b n y)
      have h3 : ((J' : ℤ) : ℝ) ≤ ((⌊upos a b n y⌋ : ℤ) : ℝ) := by exact_mod_cast f2
      push_cast at h3; linarith
    have hd := (abs_lt.1 hxy).2
    have hJ1 : J' = J + 1 := by
      have : (J' : ℝ) < J + 2 := by linarith
      have : J' < J + 2 := by exact_mod_cast this
      omega
    subst hJ1
    rw [← ce] at hJ hJ'
    push_cast at g2 ⊢
    have a1 := slopeQ_lip (bd hJ') (upos a b n y - ((J : ℝ) + 1)) 0
    have a2 := slopeQ_lip (bd hJ) 1 (upos a b n x - J)
    have em : slopeQ (fun i => c (J + 1 + i)) 0 = slopeQ (fun i => c (J + i)) 1 := by
      simp only [slopeQ, slopeP]
      norm_num
    rw [em] at a1
    rw [abs_of_nonneg (show 0 ≤ upos a b n y - ((J : ℝ) + 1) - 0 by linarith)] at a1
    rw [abs_of_nonneg (show 0 ≤ 1 - (upos a b n x - (J : ℝ)) by linarith)] at a2
    rw [abs_of_nonneg (show 0 ≤ upos a b n y - upos a b n x by linarith)]
    refine (abs_sub_le _ (slopeQ (fun i => c (J + i)) 1) _).trans ?_
    linarith

/-- Points closer than the spacing: the slope is Lipschitz. -/
theorem axisOp_slope_lip (h : ValidAxis (.uniform a b n)) {x y : ℝ} {c : ℕ → ℝ} {M : ℝ}
    (hc : ∀ j < nCoef 3 (.uniform a b n), |c j| ≤ M)
    (hxy : ((n : ℝ) - 1) / (b - a) * |y - x| < 1) :
    |axisOp 3 1 (.uniform a b n) y c - axisOp 3 1 (.uniform a b n) x c|
      ≤ 6 * M * (((n : ℝ) - 1) / (b - a)) * (((n : ℝ) - 1) / (b - a) * |y - x|) := by
  obtain ⟨hn, hb⟩ := uniform_pos h
  have hd : 0 ≤ ((n : ℝ) - 1) / (b - a) := (div_pos hn hb).le
  have bn : ∀ t, ((cell (.uniform a b n) t).toNat : ℤ) = cell (.uniform a b n) t := fun t =>
    Int.toNat_of_nonneg (cell_bounds (.uniform a b n) (by rw [size_eq]; exact ValidAxis.two_le h) t).1
  have eu : |upos a b n y - upos a b n x| = ((n : ℝ) - 1) / (b - a) * |y - x| := by
    rw [show upos a b n y - upos a b n x = ((n : ℝ) - 1) / (b - a) * (y - x) by unfold upos; ring,
      abs_mul, abs_of_nonneg hd]
  have hlt : |upos a b n y - upos a b n x| < 1 := by rw [eu]; exact hxy
  rw [axisOp_slopeQ x c _ (bn x).symm, axisOp_slopeQ y c _ (bn y).symm, ← sub_mul, abs_mul,
    abs_of_nonneg hd, ← eu]
  rcases le_total (cell (.uniform a b n) x).toNat (cell (.uniform a b n) y).toNat with hle | hle
  · have := mul_le_mul_of_nonneg_right (slope_lip_aux h hc (bn x).symm (bn y).symm hle hlt) hd
    linarith
  · rw [abs_sub_comm] at hlt
    have := mul_le_mul_of_nonneg_right (slope_lip_aux h hc (bn y).symm (bn x).symm hle hlt) hd
    rw [abs_sub_comm, abs_sub_comm (upos a b n y)]
    linarith

end

/-! ### The weights -/

/-- One weight of the slope, inside the cell. -/
theorem slope_poly_close (R : Rounding) (hu : R.u ≤ 1 / 360) {A0 A1 A2 A3 t d D : ℝ} (h0 : |A0| ≤ 1)
    (h1 : |A1| ≤ 1) (h2 : |A2| ≤ 1) (t0 : 0 ≤ t) (t1 : t ≤ 1) (hD : 0 ≤ D)
    (hd : |d - D| ≤ 3.1 * (R.u * D)) :
    |R.rnd (R.rnd (R.rnd (R.rnd (R.rnd A0 * R.rnd (R.rnd (R.rnd (3 * t) * t) * d))
        + R.rnd (R.rnd A1 * R.rnd (R.rnd (2 * t) * d))) + R.rnd (R.rnd A2 * d)) + R.rnd (R.rnd A3 * 0))
        - (A0 * (3 * t * t * D) + A1 * (2 * t * D) + A2 * D + A3 * 0)| ≤ 65 * (R.u * D) := by
  have hu0 := Rounding.u_nonneg R
  have v0 : 0 ≤ R.u * D := mul_nonneg hu0 hD
  have v1 : R.u * R.u * D ≤ 1 / 360 * (R.u * D) := by nlinarith
  have v2 : R.u * R.u * R.u * D ≤ 1 / 360 / 360 * (R.u * D) := by nlinarith
  have v3 : R.u * R.u * R.u * R.u * D ≤ 1 / 360 / 360 * (R.u * D) := by nlinarith
  have w1 : R.u * R.u ≤ 1 / 360 * R.u := by gcongr
  have lit : ∀ A : ℝ, |A| ≤ 1 → |R.rnd A - A| ≤ R.u := fun A hA => (R.err A).trans (by nlinarith)
  have ht : |t| ≤ 1 := by rw [abs_of_nonneg t0]; exact t1
  have hDD : |D| ≤ D := by rw [abs_of_nonneg hD]
  have b3 : |3 * t| ≤ 3 := by rw [abs_of_nonneg (by positivity)]; linarith
  have b33 : |3 * t * t| ≤ 3 := by rw [abs_of_nonneg (by positivity)]; nlinarith
  have b2 : |2 * t| ≤ 2 := by rw [abs_of_nonneg (by positivity)]; linarith
  have a1 : |R.rnd (3 * t) - 3 * t| ≤ 3 * R.u := (R.err _).trans (by nlinarith)
  have a2 : |R.rnd (R.rnd (3 * t) * t) - 3 * t * t| ≤ 6.1 * R.u := by
    have := mul_close hu0 a1 (exact_close t) b3 ht (rnd_of R _)
    linarith
  have bm0 : |3 * t * t * D| ≤ 3 * D := by
    rw [abs_mul]; exact mul_le_mul b33 hDD (abs_nonneg _) (by norm_num)
  have bm1 : |2 * t * D| ≤ 2 * D := by
    rw [abs_mul]; exact mul_le_mul b2 hDD (abs_nonneg _) (by norm_num)
  have a3 : |R.rnd (R.rnd (R.rnd (3 * t) * t) * d) - 3 * t * t * D| ≤ 18.7 * (R.u * D) := by
    have := mul_close hu0 a2 hd b33 hDD (rnd_of R _)
    linarith
  have a4 : |R.rnd (2 * t) - 2 * t| ≤ 2 * R.u := (R.err _).trans (by nlinarith)
  have a5 : |R.rnd (R.rnd (2 * t) * d) - 2 * t * D| ≤ 10.4 * (R.u * D) := by
    have := mul_close hu0 a4 hd b2 hDD (rnd_of R _)
    linarith
  have p0 : |R.rnd (R.rnd A0 * R.rnd (R.rnd (R.rnd (3 * t) * t) * d)) - A0 * (3 * t * t * D)|
      ≤ 25.1 * (R.u * D) := by
    have := mul_close hu0 (lit A0 h0) a3 h0 bm0 (rnd_of R _)
    linarith
  have p1 : |R.rnd (R.rnd A1 * R.rnd (R.rnd (2 * t) * d)) - A1 * (2 * t * D)| ≤ 14.6 * (R.u * D) := by
    have := mul_close hu0 (lit A1 h1) a5 h1 bm1 (rnd_of R _)
    linarith
  have p2 : |R.rnd (R.rnd A2 * d) - A2 * D| ≤ 5.3 * (R.u * D) := by
    have := mul_close hu0 (lit A2 h2) hd h2 hDD (rnd_of R _)
    linarith
  have p3 : |R.rnd (R.rnd A3 * 0) - A3 * 0| ≤ 0 := by simp [Rounding.rnd_zero]
  have q0 : |A0 * (3 * t * t * D)| ≤ 3 * D := by
    rw [abs_mul]
    have := mul_le_mul h0 bm0 (abs_nonneg _) zero_le_one
    linarith
  have q1 : |A1 * (2 * t * D)| ≤ 2 * D := by
    rw [abs_mul]
    have := mul_le_mul h1 bm1 (abs_nonneg _) zero_le_one
    linarith
  have q2 : |A2 * D| ≤ D := by
    rw [abs_mul]
    have := mul_le_mul h2 hDD (abs_nonneg _) zero_le_one
    linarith
  have q3 : |A3 * 0| ≤ 0 := by simp
  have d1 : |A0 * (3 * t * t * D) + A1 * (2 * t * D)| ≤ 5 * D := (abs_add_le _ _).trans (by linarith)
  have d2 : |A0 * (3 * t * t * D) + A1 * (2 * t * D) + A2 * D| ≤ 6 * D := (abs_add_le _ _).trans (by linarith)
  have d3 : |A0 * (3 * t * t * D) + A1 * (2 * t * D) + A2 * D + A3 * 0| ≤ 6 * D :=
    (abs_add_le _ _).trans (by linarith)
  have s1 := add_close hu0 p0 p1 d1 (rnd_of R _)
  have s2 := add_close hu0 s1 p2 d2 (rnd_of R _)
  have s3 := add_close hu0 s2 p3 d3 (rnd_of R _)
  refine s3.trans ?_
  linarith

/-- One weight of the slope, beyond the cell. -/
theorem slope_tangent_close (R : Rounding) (hu : R.u ≤ 1 / 360) {A0 A1 A2 d D : ℝ} (S : ℝ) (h0 : |A0| ≤ 1)
    (h1 : |A1| ≤ 1) (h2 : |A2| ≤ 1) (hD : 0 ≤ D) (hd : |d - D| ≤ 3.1 * (R.u * D)) :
    |R.rnd (R.rnd (R.rnd (R.rnd (R.rnd (3 * R.rnd A0) + R.rnd (2 * R.rnd A1)) + R.rnd A2) * R.rnd (d - 0))
        + R.rnd (S * 0)) - ((3 * A0 + 2 * A1 + A2) * D + 0)| ≤ 65 * (R.u * D) := by
  have hu0 := Rounding.u_nonneg R
  have v0 : 0 ≤ R.u * D := mul_nonneg hu0 hD
  have v1 : R.u * R.u * D ≤ 1 / 360 * (R.u * D) := by nlinarith
  have v2 : R.u * R.u * R.u * D ≤ 1 / 360 / 360 * (R.u * D) := by nlinarith
  have v3 : R.u * R.u * R.u * R.u * D ≤ 1 / 360 / 360 * (R.u * D) := by nlinarith
  have w1 : R.u * R.u ≤ 1 / 360 * R.u := by gcongr
  have w2 : R.u * R.u * R.u ≤ 1 / 360 / 360 * R.u := by nlinarith
  have hDD : |D| ≤ D := by rw [abs_of_nonneg hD]
  have lit : ∀ A : ℝ, |A| ≤ 1 → |R.rnd A - A| ≤ R.u := fun A hA => (R.err A).trans (by nlinarith)
  have a1 : |R.rnd (3 * R.rnd A0) - 3 * A0| ≤ 6.1 * R.u := by
    have := mul_close hu0 (exact_close 3) (lit A0 h0) (A := 3) (by norm_num) h0 (rnd_of R _)
    linarith
  have a2 : |R.rnd (2 * R.rnd A1) - 2 * A1| ≤ 4.1 * R.u := by
    have := mul_close hu0 (exact_close 2) (lit A1 h1) (A := 2) (by norm_num) h1 (rnd_of R _)
    linarith
  have b0 : |3 * A0| ≤ 3 := by rw [abs_mul]; norm_num; linarith
  have b1 : |2 * A1| ≤ 2 := by rw [abs_mul]; norm_num; linarith
  have b2 : |3 * A0 + 2 * A1| ≤ 5 := (abs_add_le _ _).trans (by linarith)
  have b3 : |3 * A0 + 2 * A1 + A2| ≤ 6 := (abs_add_le _ _).trans (by linarith)
  have a3 : |R.rnd (R.rnd (3 * R.rnd A0) + R.rnd (2 * R.rnd A1)) - (3 * A0 + 2 * A1)| ≤ 15.3 * R.u := by
    have := add_close hu0 a1 a2 b2 (rnd_of R _)
    linarith
  have a4 : |R.rnd (R.rnd (R.rnd (3 * R.rnd A0) + R.rnd (2 * R.rnd A1)) + R.rnd A2) - (3 * A0 + 2 * A1 + A2)|
      ≤ 22.4 * R.u := by
    have := add_close hu0 a3 (lit A2 h2) b3 (rnd_of R _)
    linarith
  have a5 : |R.rnd (d - 0) - D| ≤ 4.2 * (R.u * D) := by
    have := sub_close (b := 0) (D := D) hu0 hd (exact_close 0) (by rwa [sub_zero]) (rnd_of R _)
    rw [show D - 0 = D by ring] at this
    linarith
  have a6 : |R.rnd (R.rnd (R.rnd (R.rnd (3 * R.rnd A0) + R.rnd (2 * R.rnd A1)) + R.rnd A2) * R.rnd (d - 0))
      - (3 * A0 + 2 * A1 + A2) * D| ≤ 54.3 * (R.u * D) := by
    have := mul_close hu0 a4 a5 b3 hDD (rnd_of R _)
    linarith
  have e0 : |R.rnd (S * 0) - 0| ≤ 0 := by simp [Rounding.rnd_zero]
  have e1 : |(3 * A0 + 2 * A1 + A2) * D + 0| ≤ 6 * D := by
    rw [add_zero, abs_mul]
    exact mul_le_mul b3 hDD (abs_nonneg _) (by norm_num)
  have s := add_close hu0 a6 e0 e1 (rnd_of R _)
  refine s.trans ?_
  linarith

variable {R : Rounding}

/-- The exact weights of the slope to the right of the left end of the cell. -/
theorem slope_right (t D : ℝ) (j : ℕ) (ht : 0 ≤ t) : blend3Vals 1 t D j =
    if 1 < t then (3 * Ad j 0 + 2 * Ad j 1 + Ad j 2) * D + 0
    else Ad j 0 * (3 * t * t * D) + Ad j 1 * (2 * t * D) + Ad j 2 * D + Ad j 3 * 0 := by
  simp only [blend3Vals, if_neg (not_lt.2 ht), one_ne_zero, if_false]
  split_ifs <;> ring

theorem slope_close (hu : R.u ≤ 1 / 360) (t d : Fl R) {D : ℝ} (j : ℕ) (t0 : 0 ≤ t.val) (hD : 0 ≤ D)
    (hd : |d.val - D| ≤ 3.1 * (R.u * D)) :
    |(blend3Vals 1 t d j).val - blend3Vals 1 t.val D j| ≤ 65 * (R.u * D) := by
  rw [slope_right _ _ _ t0]
  have h0 : ¬ t < 0 := by rw [Fl.lt_iff, Fl.zero_val]; exact not_lt.2 t0
  have n3 : (3 : Fl R).val = 3 := show ((3 : ℕ) : ℝ) = 3 by norm_num
  have n2 : (2 : Fl R).val = 2 := show ((2 : ℕ) : ℝ) = 2 by norm_num
  by_cases h1 : 1 < t.val
  · have h1' : (1 : Fl R) < t := h1
    rw [if_pos h1]
    simp only [blend3Vals, one_ne_zero, if_false, if_neg h0, if_pos h1', Fl.add_val, Fl.mul_val, Fl.sub_val,
      Ad_val, Fl.zero_val, n3, n2]
    exact slope_tangent_close R hu _ (Ad_abs j 0) (Ad_abs j 1) (Ad_abs j 2) hD hd
  · have h1' : ¬ (1 : Fl R) < t := h1
    rw [if_neg h1]
    simp only [blend3Vals, one_ne_zero, if_false, if_neg h0, if_neg h1', Fl.add_val, Fl.mul_val, Fl.sub_val,
      Ad_val, Fl.zero_val, n3, n2]
    exact slope_poly_close R hu (Ad_abs j 0) (Ad_abs j 1) (Ad_abs j 2) t0 (not_lt.1 h1) hD hd

/-- One weight is the slope of a single coefficient. -/
theorem slope_single (s D : ℝ) {j : ℕ} (hj : j < 4) :
    blend3Vals 1 s D j = slopeQ (fun i => if i = j then 1 else 0) s * D := by
  rw [← slopeQ_eq]
  have : j = 0 ∨ j = 1 ∨ j = 2 ∨ j = 3 := by omega
  rcases this with rfl | rfl | rfl | rfl <;> simp

theorem slope_weight_lip {s t D : ℝ} (hD : 0 ≤ D) {j : ℕ} (hj : j < 4) :
    |blend3Vals 1 s D j - blend3Vals 1 t D j| ≤ 6 * |s - t| * D := by
  rw [slope_single s D hj, slope_single t D hj, ← sub_mul, abs_mul, abs_of_nonneg hD]
  refine mul_le_mul_of_nonneg_right ?_ hD
  have := slopeQ_lip (c := fun i => if i = j then 1 else 0) (M := 1)
    (fun i _ => by split_ifs <;> norm_num) s t
  linarith

theorem slope_weight_abs {s D : ℝ} (hD : 0 ≤ D) {j : ℕ} (hj : j < 4) : |blend3Vals 1 s D j| ≤ D := by
  rw [slope_single s D hj, abs_mul, abs_of_nonneg hD]
  have : |slopeQ (fun i => if i = j then 1 else 0) s| ≤ 1 := by
    unfold slopeQ
    have h0 : 0 ≤ max 0 (min s 1) := le_max_left _ _
    have h1 : max 0 (min s 1) ≤ 1 := max_le zero_le_one (min_le_right _ _)
    set w := max 0 (min s 1)
    have p : w ^ 2 ≤ w := by nlinarith
    have q : 0 ≤ w ^ 2 := by positivity
    have hj' : j = 0 ∨ j = 1 ∨ j = 2 ∨ j = 3 := by omega
    rw [abs_le]
    rcases hj' with rfl | rfl | rfl | rfl <;> norm_num [slopeP] <;> constructor <;> nlinarith
  nlinarith

/-- The weights of the slope computed at a rounded coordinate. -/
theorem slope_weight_close (hu : R.u ≤ 1 / 360) (t d : Fl R) {D μ : ℝ} {j : ℕ} (hj : j < 4) (m0 : 0 ≤ μ)
    (m1 : μ ≤ 9 / 8) (hn : Near R.u μ t.val) (hD : 0 ≤ D) (hd : |d.val - D| ≤ 3.1 * (R.u * D)) :
    |(blend3Vals 1 t d j).val - blend3Vals 1 μ D j| ≤ 72 * (R.u * D) := by
  have hu0 := Rounding.u_nonneg R
  have ht : |t.val - μ| ≤ R.u * μ := by
    have : |t.val - μ| ≤ R.u * |μ| := hn
    rwa [abs_of_nonneg m0] at this
  have ht' := abs_le.1 ht
  have t0 : 0 ≤ t.val := by nlinarith [ht'.1]
  have a1 := slope_close hu t d j t0 hD hd
  have a2 := slope_weight_lip (s := t.val) (t := μ) hD hj
  have a3 := abs_sub_le (blend3Vals 1 t d j).val (blend3Vals 1 t.val D j) (blend3Vals 1 μ D j)
  have a4 : |t.val - μ| ≤ 9 / 8 * R.u := ht.trans (by nlinarith)
  have a5 := mul_le_mul_of_nonneg_right (mul_le_mul_of_nonneg_left a4 (show (0 : ℝ) ≤ 6 by norm_num)) hD
  have v0 : 0 ≤ R.u * D := mul_nonneg hu0 hD
  linarith

/-- The sum of four products with large weights. -/
theorem four_close_scaled (R : Rounding) (hu : R.u ≤ 1 / 360) {W w h : ℕ → ℝ} {M D : ℝ} (hD : 0 ≤ D)
    (hw : ∀ j < 4, |w j - W j| ≤ 72 * (R.u * D)) (hW : ∀ j < 4, |W j| ≤ D) (hh : ∀ j < 4, |h j| ≤ M) :
    |R.rnd (R.rnd (R.rnd (R.rnd (w 0 * h 0) + R.rnd (w 1 * h 1)) + R.rnd (w 2 * h 2)) + R.rnd (w 3 * h 3))
      - (W 0 * h 0 + W 1 * h 1 + W 2 * h 2 + W 3 * h 3)| ≤ 310 * R.u * (D * M) := by
  have hu0 := Rounding.u_nonneg R
  have hM : 0 ≤ M := (abs_nonneg _).trans (hh 0 (by norm_num))
  have hDM : 0 ≤ D * M := mul_nonneg hD hM
  have p : ∀ j < 4, |R.rnd (w j * h j) - W j * h j| ≤ 73.4 * (R.u * (D * M)) := fun j hj => by
    have := mul_close hu0 (hw j hj) (exact_close (h j)) (hW j hj) (hh j hj) (rnd_of R _)
    have v1 : R.u * R.u * (D * M) ≤ 1 / 360 * (R.u * (D * M)) := by
      have : R.u * (D * M) * R.u ≤ R.u * (D * M) * (1 / 360) :=
        mul_le_mul_of_nonneg_left hu (mul_nonneg hu0 hDM)
      linarith
    have v0 : 0 ≤ R.u * (D * M) := mul_nonneg hu0 hDM
    linarith
  have q : ∀ j < 4, |W j * h j| ≤ D * M := fun j hj => by
    rw [abs_mul]; exact mul_le_mul (hW j hj) (hh j hj) (abs_nonneg _) hD
  generalize D * M = N at *
  have v0 : 0 ≤ R.u * N := mul_nonneg hu0 hDM
  have v1 : R.u * R.u * N ≤ 1 / 360 * (R.u * N) := by nlinarith
  have v2 : R.u * (R.u * R.u * N) ≤ 1 / 360 / 360 * (R.u * N) := by nlinarith
  have v3 : R.u * (R.u * (R.u * R.u * N)) ≤ 1 / 360 / 360 * (R.u * N) := by nlinarith
  have d1 : |W 0 * h 0 + W 1 * h 1| ≤ 2 * N :=
    (abs_add_le _ _).trans (by linarith [q 0 (by norm_num), q 1 (by norm_num)])
  have d2 : |W 0 * h 0 + W 1 * h 1 + W 2 * h 2| ≤ 3 * N :=
    (abs_add_le _ _).trans (by linarith [q 2 (by norm_num)])
  have d3 : |W 0 * h 0 + W 1 * h 1 + W 2 * h 2 + W 3 * h 3| ≤ 4 * N :=
    (abs_add_le _ _).trans (by linarith [q 3 (by norm_num)])
  have s1 := add_close hu0 (p 0 (by norm_num)) (p 1 (by norm_num)) d1 (rnd_of R _)
  have s2 := add_close hu0 s1 (p 2 (by norm_num)) d2 (rnd_of R _)
  have s3 := add_close hu0 s2 (p 3 (by norm_num)) d3 (rnd_of R _)
  refine s3.trans ?_
  linarith

/-- The number of cells per unit of length, computed with rounding. -/
theorem delta_close (hu : R.u ≤ 1 / 360) (a b x : Fl R) (n : ℤ) (hn : (0 : ℝ) < (n : ℝ) - 1)
    (hb : 0 < b.val - a.val) :
    |(delta (.uniform a b n) x).val - ((n : ℝ) - 1) / (b.val - a.val)|
      ≤ 3.1 * (R.u * (((n : ℝ) - 1) / (b.val - a.val))) := by
  have hu0 := Rounding.u_nonneg R
  have n1 : ∀ z : ℝ, Near R.u z (R.rnd z) := fun z => R.err z
  have n2 := ((n1 ((n : ℝ) - 1)).div (n1 (b.val - a.val)) hu0 hu0 (by linarith)).rnd (R := R)
  have hd : (R.u + R.u) / (1 - R.u) ≤ 2.02 * R.u := by
    rw [div_le_iff₀ (by linarith)]
    nlinarith
  have hd0 : 0 ≤ (R.u + R.u) / (1 - R.u) := div_nonneg (by linarith) (by linarith)
  have n3 := n2.mono (q := 3.1 * R.u) (by
    generalize (R.u + R.u) / (1 - R.u) = D at *
    nlinarith)
  have n4 : |(delta (.uniform a b n) x).val - ((n : ℝ) - 1) / (b.val - a.val)|
      ≤ 3.1 * R.u * |((n : ℝ) - 1) / (b.val - a.val)| := n3
  rwa [abs_of_nonneg (div_pos hn hb).le, mul_assoc] at n4

end Interp.Codegen

namespace Interp.Spec
open Interp.Codegen

/-- Size of a partial derivative of a cubic spline with coefficients bounded by one: a factor
`2 (n - 1) / (b - a)` for each axis along which the derivative is taken. -/
noncomputable def derivScale : List (GridDim ℝ) → List ℕ → ℝ
  | .uniform a b n :: G, l :: oo =>
    (if l = 0 then 1 else 2 * (((n : ℝ) - 1) / (b - a))) * derivScale G oo
  | _, _ => 1

end Interp.Spec

namespace Interp.Codegen
open Interp.Ref Interp.Spec Interp.Filter

theorem axisOp_deriv_abs {a b : ℝ} {n : ℤ} (h : ValidAxis (.uniform a b n)) {l : ℕ} (hl : l ≤ 1) {x : ℝ}
    (h1 : a ≤ x) (h2 : x ≤ b) {c : ℕ → ℝ} {M : ℝ}
    (hc : ∀ j < nCoef 3 (.uniform a b n), |c j| ≤ M) :
    |axisOp 3 l (.uniform a b n) x c|
      ≤ (if l = 0 then 1 else 2 * (((n : ℝ) - 1) / (b - a))) * M := by
  have : l = 0 ∨ l = 1 := by omega
  rcases this with rfl | rfl
  · simpa using axisOp_three_abs h h1 h2 hc
  · have := axisOp_three_slope h x hc
    simp only [one_ne_zero, if_false]
    linarith

theorem derivScale_nonneg : ∀ (G : List (GridDim ℝ)) (oo : List ℕ), (∀ g ∈ G, ValidAxis g) →
    0 ≤ derivScale G oo
  | [], oo, _ => by simp [derivScale]
  | .array _ :: G, oo, _ => by simp [derivScale]
  | .uniform a b n :: G, [], _ => by simp [derivScale]
  | .uniform a b n :: G, l :: oo, hG => by
    have ih := derivScale_nonneg G oo fun g hg => hG g (by simp [hg])
    obtain ⟨hn, hb⟩ := uniform_pos (hG (.uniform a b n) (by simp))
    have := (div_pos hn hb).le
    rw [derivScale]
    refine mul_nonneg ?_ ih
    split_ifs
    · norm_num
    · linarith

theorem deriv3_abs_le : ∀ (G : List (GridDim ℝ)) (oo : List ℕ) (x : List ℝ) (c : List ℕ → ℝ) (M : ℝ),
    (∀ g ∈ G, ValidAxis g) → (∀ g ∈ G, g.gtype = .uniform) → oo.length = G.length → (∀ l ∈ oo, l ≤ 1) →
    InBox G x → (∀ idx, InShape (coefShape 3 G) idx → |c idx| ≤ M) →
    |evalAt 3 G oo x c| ≤ derivScale G oo * M
  | [], oo, x, c, M, _, _, _, _, _, hc => by simpa [evalAt, derivScale] using hc [] trivial
  | g :: G, [], x, c, M, _, _, ho, _, _, _ => by simp at ho
  | g :: G, l :: oo, [], c, M, _, _, _, _, hx, _ => by cases hx
  | g :: G, l :: oo, x :: xs, c, M, hG, hu, ho, hl, hx, hc => by
    cases hx with
    | cons hx1 hx2 =>
    rw [evalAt_cons]
    have hg := hG g (by simp)
    have hgu := hu g (by simp)
    cases g with
    | array gc => simp [GridDim.gtype] at hgu
    | uniform a b n =>
      rw [derivScale, mul_assoc]
      refine axisOp_deriv_abs hg (hl l (by simp)) ?_ ?_ fun j hj => deriv3_abs_le G oo xs _ M
        (fun g' h' => hG g' (by simp [h'])) (fun g' h' => hu g' (by simp [h'])) (by simpa using ho)
        (fun l' h' => hl l' (by simp [h'])) hx2 fun idx hidx => hc (j :: idx) ⟨hj, hidx⟩
      · have := hx1.1
        rwa [← lo_eq] at this
      · have := hx1.2
        rwa [← hi_eq hg] at this

/-- One axis: the computed combination of computed inner values. -/
theorem axis_deriv_rounding (a b x : Fl R) (n : ℤ) (hgv : ValidAxis (.uniform a.val b.val n))
    (hsm : 90 * (n : ℝ) * R.u ≤ 1 / 2) (h1 : a.val ≤ x.val) (h2 : x.val ≤ b.val) {l : ℕ} (hl : l ≤ 1)
    (hat : ℕ → ℝ) {N : ℝ} (hhb : ∀ j < nCoef 3 (.uniform a.val b.val n), |hat j| ≤ N) :
    |R.rnd (R.rnd (R.rnd (
        R.rnd ((blend3Vals l (lam (.uniform a b n) x) (delta (.uniform a b n) x) 0).val
          * hat ((cell (.uniform a b n) x).toNat + 0))
        + R.rnd ((blend3Vals l (lam (.uniform a b n) x) (delta (.uniform a b n) x) 1).val
          * hat ((cell (.uniform a b n) x).toNat + 1)))
        + R.rnd ((blend3Vals l (lam (.uniform a b n) x) (delta (.uniform a b n) x) 2).val
          * hat ((cell (.uniform a b n) x).toNat + 2)))
        + R.rnd ((blend3Vals l (lam (.uniform a b n) x) (delta (.uniform a b n) x) 3).val
          * hat ((cell (.uniform a b n) x).toNat + 3)))
      - axisOp 3 l (.uniform a.val b.val n) x.val hat|
      ≤ 90 * (n : ℝ) * R.u * ((if l = 0 then 1 else 2 * (((n : ℝ) - 1) / (b.val - a.val))) * N) := by
  have hu0 := Rounding.u_nonneg R
  obtain ⟨hn, hb⟩ := uniform_pos hgv
  have hn2 : (2 : ℝ) ≤ n := by linarith [show (2 : ℝ) ≤ n from by exact_mod_cast hgv.2]
  have hu : R.u ≤ 1 / 360 := by nlinarith
  set g' : GridDim ℝ := .uniform a.val b.val n with hg'
  have hN : nCoef 3 g' = nNodes g' + 2 := rfl
  have hN0 : 0 ≤ N := (abs_nonneg _).trans (hhb 0 (by omega))
  have hD : 0 < ((n : ℝ) - 1) / (b.val - a.val) := div_pos hn hb
  set D := ((n : ℝ) - 1) / (b.val - a.val) with hDdef
  obtain ⟨y, hcell, hlam, hm0, hm1, hyx⟩ := uniform_near a b n x hgv (by nlinarith)
    (by rw [← lo_eq]; exact h1) (show _ ≤ last g' by rw [← hi_eq hgv]; exact h2)
  have hDyx : D * |y - x.val| ≤ 6 * R.u * ((n : ℝ) - 1) := by
    refine (mul_le_mul_of_nonneg_left hyx hD.le).trans (le_of_eq ?_)
    rw [hDdef]
    field_simp
  have hci := (inCell_cell hgv y).1
  have hcb := cell_bounds g' (by rw [size_eq]; exact ValidAxis.two_le hgv) y
  rw [hcell]
  set J := (cell g' y).toNat with hJ
  have hlamy : lam g' y = upos a.val b.val n y - (J : ℝ) := by
    have h3 : ((cell g' y : ℤ) : ℝ) = ((J : ℕ) : ℝ) := by
      rw [← Int.cast_natCast, Int.toNat_of_nonneg hcb.1]
    simp only [hg', lam, upos] at h3 ⊢
    rw [h3]
  have e3 : axisOp 3 l g' y hat = blend3Vals l (lam g' y) D 0 * hat (J + 0)
      + blend3Vals l (lam g' y) D 1 * hat (J + 1) + blend3Vals l (lam g' y) D 2 * hat (J + 2)
      + blend3Vals l (lam g' y) D 3 * hat (J + 3) := by
    rw [axisOp_three l a.val b.val n y hat J (Int.toNat_of_nonneg hcb.1).symm, hlamy]
    rfl
  have hv : 0 ≤ R.u * N := mul_nonneg hu0 hN0
  have hl' : l = 0 ∨ l = 1 := by omega
  rcases hl' with rfl | rfl
  · have s1 := four_close R hu (W := fun j => blend3Vals 0 (lam g' y) D j)
      (w := fun j => (blend3Vals 0 (lam (.uniform a b n) x) (delta (.uniform a b n) x) j).val)
      (h := fun j => hat (J + j)) (M := N)
      (fun j _ => weight_close hu _ _ _ _ j hm0 hm1 hlam)
      (fun j hj => blend_abs _ hj hm0 hm1) (fun j hj => hhb _ (by omega))
    simp only [← e3] at s1
    have s2 := axisOp_three_lip hgv x.val y hhb
    have s2' : 2 * N * D * |y - x.val| ≤ 12 * R.u * ((n : ℝ) - 1) * N := by
      have := mul_le_mul_of_nonneg_left hDyx (show 0 ≤ 2 * N by linarith)
      linarith
    refine (abs_sub_le _ _ _).trans ((add_le_add s1 (s2.trans s2')).trans ?_)
    simp only [if_true, one_mul]
    nlinarith
  · have s1 := four_close_scaled R hu (W := fun j => blend3Vals 1 (lam g' y) D j)
      (w := fun j => (blend3Vals 1 (lam (.uniform a b n) x) (delta (.uniform a b n) x) j).val)
      (h := fun j => hat (J + j)) (M := N) hD.le
      (fun j hj => slope_weight_close hu _ _ hj hm0 hm1 hlam hD.le (delta_close hu a b x n hn hb))
      (fun j hj => slope_weight_abs hD.le hj) (fun j hj => hhb _ (by omega))
    simp only [← e3] at s1
    have s2 := axisOp_slope_lip hgv (x := x.val) (y := y) hhb (by
      rw [← hDdef]; refine hDyx.trans_lt ?_; nlinarith)
    rw [← hDdef] at s2
    have hDN : 0 ≤ D * N := mul_nonneg hD.le hN0
    have s2' : 6 * N * D * (D * |y - x.val|) ≤ 36 * R.u * ((n : ℝ) - 1) * (D * N) := by
      have := mul_le_mul_of_nonneg_left hDyx (show 0 ≤ 6 * (D * N) by linarith)
      linarith
    refine (abs_sub_le _ _ _).trans ((add_le_add s1 (s2.trans s2')).trans ?_)
    simp only [one_ne_zero, if_false]
    have hk : 310 * R.u + 36 * R.u * ((n : ℝ) - 1) ≤ 180 * (n : ℝ) * R.u := by nlinarith
    have := mul_le_mul_of_nonneg_right hk hDN
    linarith

/-- All axes. -/
theorem deriv3_rounding : ∀ (G : List (GridDim (Fl R))) (oo : List ℕ) (x : List (Fl R))
    (c : List ℕ → Fl R) (M : ℝ),
    (∀ g ∈ G, ValidAxis (exactAxis g)) → (∀ g ∈ G, (exactAxis g).gtype = .uniform) →
    (∀ g ∈ G, cubicErr R (exactAxis g) ≤ 1 / 2) → oo.length = G.length → (∀ l ∈ oo, l ≤ 1) →
    InBox (G.map exactAxis) (x.map Fl.val) →
    (∀ idx, InShape (coefShape 3 (G.map exactAxis)) idx → |(c idx).val| ≤ M) →
    |(evalAt 3 G oo x c).val - evalAt 3 (G.map exactAxis) oo (x.map Fl.val) (fun r => (c r).val)|
      ≤ (errFactor3 R G - 1) * (derivScale (G.map exactAxis) oo * M)
  | [], oo, x, c, M, _, _, _, _, _, _, _ => by simp [evalAt, errFactor3]
  | g :: G, [], x, c, M, _, _, _, ho, _, _, _ => by simp at ho
  | g :: G, l :: oo, [], c, M, _, _, _, _, _, hx, _ => by cases hx
  | g :: G, l :: oo, x :: xs, c, M, hg, hun, hs, ho, hl, hx, hc => by
    simp only [List.map_cons] at hx
    cases hx with
    | cons hx1 hx2 =>
    have hgv := hg g (by simp)
    have hgu := hun g (by simp)
    have hG' : ∀ g' ∈ G, ValidAxis (exactAxis g') := fun g' hg' => hg g' (by simp [hg'])
    have hU' : ∀ g' ∈ G, (exactAxis g').gtype = .uniform := fun g' hg' => hun g' (by simp [hg'])
    have hGe : ∀ g' ∈ G.map exactAxis, ValidAxis g' := by
      intro g' hg'
      obtain ⟨g'', h1, rfl⟩ := List.mem_map.1 hg'
      exact hG' g'' h1
    have hUe : ∀ g' ∈ G.map exactAxis, g'.gtype = .uniform := by
      intro g' hg'
      obtain ⟨g'', h1, rfl⟩ := List.mem_map.1 hg'
      exact hU' g'' h1
    have hsm := hs g (by simp)
    have ho' : oo.length = G.length := by simpa using ho
    have hl1 : l ≤ 1 := hl l (by simp)
    have hl' : ∀ l' ∈ oo, l' ≤ 1 := fun l' h' => hl l' (by simp [h'])
    cases g with
    | array gc => simp [exactAxis, GridDim.gtype] at hgu
    | uniform a b n =>
    have hgv' : ValidAxis (.uniform a.val b.val n) := hgv
    have hnn : ((nNodes (exactAxis (.uniform a b n)) : ℕ) : ℝ) = n := by
      show ((n.toNat : ℕ) : ℝ) = n
      rw [← Int.cast_natCast, Int.toNat_of_nonneg (by have : 2 ≤ n := hgv.2; omega)]
    have hce : cubicErr R (exactAxis (.uniform a b n)) = 90 * (n : ℝ) * R.u := by
      rw [cubicErr, hnn]
    rw [hce] at hsm
    have h1 : a.val ≤ x.val := by
      have := hx1.1
      rw [← lo_eq] at this
      exact this
    have h2 : x.val ≤ b.val := by
      have := hx1.2
      rw [← hi_eq hgv] at this
      exact this
    set P := errFactor3 R G with hP
    have hP1 : 1 ≤ P := errFactor3_one_le G
    set N := derivScale (G.map exactAxis) oo * M with hNdef
    set hat : ℕ → ℝ := fun j => (evalAt 3 G oo xs (fun r => c (j :: r))).val with hhat
    set ex : ℕ → ℝ := fun j =>
      evalAt 3 (G.map exactAxis) oo (xs.map Fl.val) (fun r => (c (j :: r)).val) with hex
    set g' : GridDim ℝ := .uniform a.val b.val n with hg'
    have hN : nCoef 3 g' = nNodes g' + 2 := rfl
    have ih : ∀ j < nCoef 3 g', |hat j - ex j| ≤ (P - 1) * N := fun j hj =>
      deriv3_rounding G oo xs (fun r => c (j :: r)) M hG' hU' (fun g' hg' => hs g' (by simp [hg'])) ho' hl'
        hx2 (fun idx hidx => hc (j :: idx) ⟨hj, hidx⟩)
    have hexb : ∀ j < nCoef 3 g', |ex j| ≤ N := fun j hj =>
      deriv3_abs_le _ _ _ _ M hGe hUe (by simpa using ho') hl' hx2 fun idx hidx => hc (j :: idx) ⟨hj, hidx⟩
    have hN0 : 0 ≤ N := (abs_nonneg _).trans (hexb 0 (by omega))
    have hhb : ∀ j < nCoef 3 g', |hat j| ≤ P * N := fun j hj => by
      have := close_abs (ih j hj) (hexb j hj)
      linarith
    have key := axis_deriv_rounding a b x n hgv' hsm h1 h2 hl1 hat hhb
    have e1 : (evalAt 3 (GridDim.uniform a b n :: G) (l :: oo) (x :: xs) c).val
        = R.rnd (R.rnd (R.rnd (
        R.rnd ((blend3Vals l (lam (.uniform a b n) x) (delta (.uniform a b n) x) 0).val
          * hat ((cell (.uniform a b n) x).toNat + 0))
        + R.rnd ((blend3Vals l (lam (.uniform a b n) x) (delta (.uniform a b n) x) 1).val
          * hat ((cell (.uniform a b n) x).toNat + 1)))
        + R.rnd ((blend3Vals l (lam (.uniform a b n) x) (delta (.uniform a b n) x) 2).val
          * hat ((cell (.uniform a b n) x).toNat + 2)))
        + R.rnd ((blend3Vals l (lam (.uniform a b n) x) (delta (.uniform a b n) x) 3).val
          * hat ((cell (.uniform a b n) x).toNat + 3))) := rfl
    have e2 : evalAt 3 ((GridDim.uniform a b n :: G).map exactAxis) (l :: oo) ((x :: xs).map Fl.val)
        (fun r => (c r).val) = axisOp 3 l g' x.val ex := by
      rw [List.map_cons, List.map_cons, evalAt_cons]
      rfl
    have e4 : errFactor3 R (GridDim.uniform a b n :: G) = (1 + 90 * (n : ℝ) * R.u) * P := by
      rw [hP, ← hce]; simp [errFactor3]
    have e5 : derivScale ((GridDim.uniform a b n :: G).map exactAxis) (l :: oo) * M
        = (if l = 0 then 1 else 2 * (((n : ℝ) - 1) / (b.val - a.val))) * N := by
      rw [List.map_cons, hNdef, ← mul_assoc]
      rfl
    have s3 : |axisOp 3 l g' x.val hat - axisOp 3 l g' x.val ex|
        ≤ (if l = 0 then 1 else 2 * (((n : ℝ) - 1) / (b.val - a.val))) * ((P - 1) * N) := by
      have hli := axisOp_lin 3 l g' x.val hat ex 1 (-1)
      have e5 : axisOp 3 l g' x.val hat - axisOp 3 l g' x.val ex
          = axisOp 3 l g' x.val (fun j => 1 * hat j + -1 * ex j) := by rw [hli]; ring
      rw [e5]
      refine axisOp_deriv_abs hgv' hl1 h1 h2 fun j hj => ?_
      have := ih j hj
      rwa [show 1 * hat j + -1 * ex j = hat j - ex j by ring]
    rw [e1, e2, e4, e5]
    refine (abs_sub_le _ _ _).trans ((add_le_add key s3).trans (le_of_eq ?_))
    ring

end Interp.Codegen
