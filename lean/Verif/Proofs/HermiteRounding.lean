import Verif.Proofs.Hermite
import Verif.Spec.RoundingOrder
import Verif.Proofs.CubicRounding

/-! Propagation of rounding errors through the Hermite interpolation. -/

set_option linter.unusedSectionVars false

namespace Interp.Hermite
open Interp.Codegen Interp.Spec Interp.Filter

variable {R : Rounding}

theorem u_powers (hu : R.u ≤ 1 / 1000) : 0 ≤ R.u ∧ R.u ^ 2 ≤ 1 / 1000 * R.u ∧ R.u ^ 3 ≤ 1 / 1000000 * R.u ∧
    0 ≤ R.u ^ 2 ∧ 0 ≤ R.u ^ 3 := by
  have h0 := Rounding.u_nonneg R
  obtain ⟨a, b, c, d, -⟩ := powers1 h0 hu
  exact ⟨h0, b, d, a, c⟩

/-- The local coordinate. -/
theorem t_close (hu : R.u ≤ 1 / 1000) {x0 xk xkn : Fl R} (h : xk.val < xkn.val) (h0 : xk.val ≤ x0.val)
    (h1 : x0.val ≤ xkn.val) :
    |((x0 - xk) / (xkn - xk)).val - (x0.val - xk.val) / (xkn.val - xk.val)| ≤ 3.1 * R.u := by
  obtain ⟨u0, u2, u3, v2, v3⟩ := u_powers hu
  have hb : 0 < xkn.val - xk.val := by linarith
  have hT : |(x0.val - xk.val) / (xkn.val - xk.val)| ≤ 1 := by
    rw [abs_of_nonneg (div_nonneg (by linarith) hb.le), div_le_one hb]; linarith
  have ea : |(x0 - xk).val - (x0.val - xk.val) / (xkn.val - xk.val) * (xkn.val - xk.val)|
      ≤ R.u * (xkn.val - xk.val) := by
    rw [div_mul_cancel₀ _ hb.ne']
    refine (R.err _).trans ?_
    rw [abs_of_nonneg (by linarith : 0 ≤ x0.val - xk.val)]
    gcongr
  have eb : |(xkn - xk).val - (xkn.val - xk.val)| ≤ R.u * (xkn.val - xk.val) := by
    refine (R.err _).trans ?_
    rw [abs_of_pos hb]
  have hlt : R.u * (xkn.val - xk.val) < xkn.val - xk.val := by nlinarith
  have := div_close u0 ea eb hT (le_abs_self (xkn.val - xk.val)) hlt (rnd_of R _)
  refine this.trans ?_
  have e : (R.u * (xkn.val - xk.val) + 1 * (R.u * (xkn.val - xk.val))) / (xkn.val - xk.val - R.u * (xkn.val - xk.val))
      ≤ 2.01 * R.u := by
    rw [div_le_iff₀ (by linarith)]
    nlinarith [mul_nonneg u0 hb.le, mul_le_mul_of_nonneg_right u2 hb.le]
  have e' := mul_le_mul_of_nonneg_left e u0
  nlinarith

theorem basis_abs {t : ℝ} (t0 : 0 ≤ t) (t1 : t ≤ 1) :
    |2 * (t * t * t) - 3 * (t * t) + 1| ≤ 1 ∧ |t * t * t - 2 * (t * t) + t| ≤ 1 ∧
    |-2 * (t * t * t) + 3 * (t * t)| ≤ 1 ∧ |t * t * t - t * t| ≤ 1 ∧
    |2 * (t * t * t) - 3 * (t * t)| ≤ 1 ∧ |t * t * t - 2 * (t * t)| ≤ 1 := by
  have q2 : 0 ≤ t * t := by positivity
  have r2 : t * t ≤ t := by nlinarith
  have q3 : 0 ≤ t * t * t := by positivity
  have r3 : t * t * t ≤ t * t := by nlinarith
  have k0 : 0 ≤ t * t * (3 - 2 * t) := mul_nonneg q2 (by linarith)
  have k1 : 0 ≤ (1 - t) * (1 - t) * (1 + 2 * t) := mul_nonneg (mul_self_nonneg _) (by linarith)
  have k2 : 0 ≤ (1 - t) * (1 + t - t * t) := mul_nonneg (by linarith) (by linarith)
  refine ⟨?_, ?_, ?_, ?_, ?_, ?_⟩ <;> (rw [abs_le]; constructor <;> linarith)

/-- The four basis polynomials. -/
theorem basis_close (hu : R.u ≤ 1 / 1000) {t' : Fl R} {t : ℝ} (t0 : 0 ≤ t) (t1 : t ≤ 1) (h : |t'.val - t| ≤ 3.1 * R.u) :
    |(hermiteSplines t').1.val - (2 * (t * t * t) - 3 * (t * t) + 1)| ≤ 53 * R.u ∧
    |(hermiteSplines t').2.1.val - (t * t * t - 2 * (t * t) + t)| ≤ 34 * R.u ∧
    |(hermiteSplines t').2.2.1.val - (-2 * (t * t * t) + 3 * (t * t))| ≤ 52 * R.u ∧
    |(hermiteSplines t').2.2.2.val - (t * t * t - t * t)| ≤ 20 * R.u := by
  obtain ⟨u0, u2, u3, v2, v3⟩ := u_powers hu
  have ht : |t| ≤ 1 := by rw [abs_of_nonneg t0]; exact t1
  have q2 : 0 ≤ t * t := by positivity
  have r2 : t * t ≤ t := by nlinarith
  have q3 : 0 ≤ t * t * t := by positivity
  have r3 : t * t * t ≤ t * t := by nlinarith
  have htt : |t * t| ≤ 1 := by rw [abs_of_nonneg q2]; linarith
  have httt : |t * t * t| ≤ 1 := by rw [abs_of_nonneg q3]; linarith
  have e2 : |(t' * t').val - t * t| ≤ 7.3 * R.u := by
    have := mul_close u0 h h ht ht (rnd_of R _)
    refine this.trans ?_
    linarith
  have e3 : |(t' * t' * t').val - t * t * t| ≤ 11.5 * R.u := by
    have := mul_close u0 e2 h htt ht (rnd_of R _)
    refine this.trans ?_
    linarith
  have two : |(((2 : ℕ) : Fl R)).val - 2| ≤ 0 := by rw [Fl.natCast_val]; norm_num
  have three : |(((3 : ℕ) : Fl R)).val - 3| ≤ 0 := by rw [Fl.natCast_val]; norm_num
  have mtwo : |(-((2 : ℕ) : Fl R)).val - (-2)| ≤ 0 := by rw [Fl.neg_val, Fl.natCast_val]; norm_num
  have a2 : |(((2 : ℕ) : Fl R) * (t' * t')).val - 2 * (t * t)| ≤ 16.7 * R.u := by
    have := mul_close u0 two e2 (by norm_num : |(2 : ℝ)| ≤ 2) htt (rnd_of R _)
    refine this.trans ?_
    linarith
  have a3 : |(((3 : ℕ) : Fl R) * (t' * t')).val - 3 * (t * t)| ≤ 25 * R.u := by
    have := mul_close u0 three e2 (by norm_num : |(3 : ℝ)| ≤ 3) htt (rnd_of R _)
    refine this.trans ?_
    linarith
  have b2 : |(((2 : ℕ) : Fl R) * (t' * t' * t')).val - 2 * (t * t * t)| ≤ 25.1 * R.u := by
    have := mul_close u0 two e3 (by norm_num : |(2 : ℝ)| ≤ 2) httt (rnd_of R _)
    refine this.trans ?_
    linarith
  have c2 : |(-((2 : ℕ) : Fl R) * (t' * t' * t')).val - -2 * (t * t * t)| ≤ 25.1 * R.u := by
    have := mul_close u0 mtwo e3 (by norm_num : |(-2 : ℝ)| ≤ 2) httt (rnd_of R _)
    refine this.trans ?_
    linarith
  obtain ⟨d1', d2', d3, d4, d1, d2⟩ := basis_abs t0 t1
  have one : |(1 : Fl R).val - 1| ≤ 0 := by rw [Fl.one_val]; norm_num
  refine ⟨?_, ?_, ?_, ?_⟩
  · have s1 := sub_close u0 b2 a3 d1 (rnd_of R _)
    have s2 := add_close u0 s1 one d1' (rnd_of R _)
    refine s2.trans ?_
    linarith
  · have s1 := sub_close u0 e3 a2 d2 (rnd_of R _)
    have s2 := add_close u0 s1 h d2' (rnd_of R _)
    refine s2.trans ?_
    linarith
  · have s1 := add_close u0 c2 a3 d3 (rnd_of R _)
    refine s1.trans ?_
    linarith
  · have s1 := sub_close u0 e3 e2 d4 (rnd_of R _)
    refine s1.trans ?_
    linarith

theorem bd {a b A : ℝ} (ha : |a| ≤ A) (hb : |b| ≤ 1) : |a * b| ≤ A := by
  rw [abs_mul]
  exact (mul_le_of_le_one_right (abs_nonneg a) hb).trans ha

/-- The value of the cubic of one cell. -/
theorem interp_close (hu : R.u ≤ 1 / 1000) {x0 xk xkn pk pkn mk mkn : Fl R} (h : xk.val < xkn.val)
    (h0 : xk.val ≤ x0.val) (h1 : x0.val ≤ xkn.val) {P M : ℝ} (p1 : |pk.val| ≤ P) (p2 : |pkn.val| ≤ P)
    (m1 : |mk.val| * (xkn.val - xk.val) ≤ M) (m2 : |mkn.val| * (xkn.val - xk.val) ≤ M) :
    ∃ v, hermiteInterp x0 xk xkn pk pkn mk mkn = .ok v ∧
      |v.val - herm xk.val xkn.val pk.val pkn.val mk.val mkn.val x0.val| ≤ R.u * (120 * P + 70 * M) := by
  obtain ⟨u0, u2, u3, v2, v3⟩ := u_powers hu
  have hb : 0 < xkn.val - xk.val := by linarith
  have hP : 0 ≤ P := (abs_nonneg _).trans p1
  have hM : 0 ≤ M := (mul_nonneg (abs_nonneg _) hb.le).trans m1
  have hne : ((xkn - xk : Fl R) == 0) = false := by
    rw [Fl.beq_false_iff, Fl.sub_val, Fl.zero_val]
    exact rnd_ne_zero (by linarith) hb.ne'
  have hv : hermiteInterp x0 xk xkn pk pkn mk mkn
      = .ok (pk * (hermiteSplines ((x0 - xk) / (xkn - xk))).1
        + mk * (xkn - xk) * (hermiteSplines ((x0 - xk) / (xkn - xk))).2.1
        + pkn * (hermiteSplines ((x0 - xk) / (xkn - xk))).2.2.1
        + mkn * (xkn - xk) * (hermiteSplines ((x0 - xk) / (xkn - xk))).2.2.2) := by
    simp only [hermiteInterp, pyDiv, hne, Bool.false_eq_true, if_false, pure_eq_ok, ok_bind]
  refine ⟨_, hv, ?_⟩
  have ht := t_close hu h h0 h1
  have t0 : 0 ≤ (x0.val - xk.val) / (xkn.val - xk.val) := div_nonneg (by linarith) hb.le
  have t1 : (x0.val - xk.val) / (xkn.val - xk.val) ≤ 1 := by rw [div_le_one hb]; linarith
  have he : herm xk.val xkn.val pk.val pkn.val mk.val mkn.val x0.val
      = (let t := (x0.val - xk.val) / (xkn.val - xk.val)
         pk.val * (2 * (t * t * t) - 3 * (t * t) + 1) + mk.val * (xkn.val - xk.val) * (t * t * t - 2 * (t * t) + t)
          + pkn.val * (-2 * (t * t * t) + 3 * (t * t)) + mkn.val * (xkn.val - xk.val) * (t * t * t - t * t)) := by
    simp only [herm]; ring
  rw [he]
  simp only []
  generalize (x0.val - xk.val) / (xkn.val - xk.val) = t at *
  obtain ⟨b1, b2, b3, b4⟩ := basis_close hu t0 t1 ht
  obtain ⟨a1, a2, a3, a4, -, -⟩ := basis_abs t0 t1
  generalize hermiteSplines ((x0 - xk) / (xkn - xk)) = H at *
  generalize 2 * (t * t * t) - 3 * (t * t) + 1 = H1 at *
  generalize t * t * t - 2 * (t * t) + t = H2 at *
  generalize -2 * (t * t * t) + 3 * (t * t) = H3 at *
  generalize t * t * t - t * t = H4 at *
  obtain ⟨x1, x2, x3, x4, x5, x6, x7, -⟩ := powers u0 hu hP
  obtain ⟨y1, y2, y3, y4, y5, y6, y7, -⟩ := powers u0 hu hM
  have eb : |(xkn - xk).val - (xkn.val - xk.val)| ≤ R.u * (xkn.val - xk.val) := by
    refine (R.err _).trans ?_
    rw [abs_of_pos hb]
  -- the tangents times the width of the cell
  have tang : ∀ m : Fl R, |m.val| * (xkn.val - xk.val) ≤ M →
      |(m * (xkn - xk)).val - m.val * (xkn.val - xk.val)| ≤ 2.1 * R.u * M ∧ |m.val * (xkn.val - xk.val)| ≤ M := by
    intro m hm
    refine ⟨?_, by rw [abs_mul, abs_of_pos hb]; exact hm⟩
    have := mul_close u0 (exact_close m.val) eb le_rfl (le_of_eq (abs_of_pos hb)) (rnd_of R _)
    refine this.trans ?_
    have k1 := mul_le_mul_of_nonneg_left hm u0
    have k2 := mul_le_mul_of_nonneg_left hm v2
    nlinarith
  obtain ⟨g1, g1'⟩ := tang mk m1
  obtain ⟨g2, g2'⟩ := tang mkn m2
  have w1 : |(pk * H.1).val - pk.val * H1| ≤ 54.2 * (R.u * P) := by
    refine (mul_close u0 (exact_close pk.val) b1 p1 a1 (rnd_of R _)).trans ?_
    linarith only [u0, x1, x2, x3, x4, x5, x6, x7, y1, y2, y3, y4, y5, y6, y7]
  have w2 : |(mk * (xkn - xk) * H.2.1).val - mk.val * (xkn.val - xk.val) * H2| ≤ 37.4 * (R.u * M) := by
    refine (mul_close u0 g1 b2 g1' a2 (rnd_of R _)).trans ?_
    linarith only [u0, x1, x2, x3, x4, x5, x6, x7, y1, y2, y3, y4, y5, y6, y7]
  have w3 : |(pkn * H.2.2.1).val - pkn.val * H3| ≤ 53.2 * (R.u * P) := by
    refine (mul_close u0 (exact_close pkn.val) b3 p2 a3 (rnd_of R _)).trans ?_
    linarith only [u0, x1, x2, x3, x4, x5, x6, x7, y1, y2, y3, y4, y5, y6, y7]
  have w4 : |(mkn * (xkn - xk) * H.2.2.2).val - mkn.val * (xkn.val - xk.val) * H4| ≤ 23.4 * (R.u * M) := by
    refine (mul_close u0 g2 b4 g2' a4 (rnd_of R _)).trans ?_
    linarith only [u0, x1, x2, x3, x4, x5, x6, x7, y1, y2, y3, y4, y5, y6, y7]
  have c1 : |pk.val * H1 + mk.val * (xkn.val - xk.val) * H2| ≤ P + M :=
    (abs_add_le _ _).trans (add_le_add (bd p1 a1) (bd g1' a2))
  have c2 : |pk.val * H1 + mk.val * (xkn.val - xk.val) * H2 + pkn.val * H3| ≤ P + M + P :=
    (abs_add_le _ _).trans (add_le_add c1 (bd p2 a3))
  have c3 : |pk.val * H1 + mk.val * (xkn.val - xk.val) * H2 + pkn.val * H3 + mkn.val * (xkn.val - xk.val) * H4|
      ≤ P + M + P + M := (abs_add_le _ _).trans (add_le_add c2 (bd g2' a4))
  have s1 := add_close u0 w1 w2 c1 (rnd_of R _)
  have s2 := add_close u0 s1 w3 c2 (rnd_of R _)
  have s3 := add_close u0 s2 w4 c3 (rnd_of R _)
  refine s3.trans ?_
  linarith only [u0, x1, x2, x3, x4, x5, x6, x7, y1, y2, y3, y4, y5, y6, y7]

/-! ### The comparisons take the same branches as in exact arithmetic -/

theorem foldl_pyMin_fl (v : Fl R) (l : List (Fl R)) (h : ∀ w ∈ l, v < w) : l.foldl pyMin v = v := by
  induction l with
  | nil => rfl
  | cons w l ih =>
    have h1 : v.val < w.val := h w (by simp)
    have h2 : ¬ w < v := fun h3 => absurd (show w.val < v.val from h3) (not_lt.2 h1.le)
    rw [List.foldl_cons, pyMin, if_neg h2]
    exact ih fun w hw => h w (by simp [hw])

theorem foldl_pyMax_fl (v : Fl R) (l : List (Fl R)) (h : (v :: l).Pairwise (· < ·)) :
    l.foldl pyMax v = (v :: l).getLast (by simp) := by
  induction l generalizing v with
  | nil => rfl
  | cons w l ih =>
    have h1 : v < w := (List.pairwise_cons.mp h).1 w (by simp)
    rw [List.foldl_cons, pyMax, if_pos h1, ih w (List.pairwise_cons.mp h).2]
    simp

variable {x y yp : List (Fl R)}

theorem data_val (h : HermiteData x y yp) : HermiteData (x.map Fl.val) (y.map Fl.val) (yp.map Fl.val) where
  two := by rw [List.length_map]; exact h.two
  sorted := by
    rw [List.pairwise_map]
    exact h.sorted.imp fun h => h
  values := by rw [List.length_map, List.length_map]; exact h.values
  tangents := by rw [List.length_map, List.length_map]; exact h.tangents

theorem npMin_fl (h : HermiteData x y yp) : npMin x = .ok (x.getD 0 0) := by
  obtain ⟨h2, hs, -, -⟩ := h
  cases x with
  | nil => simp at h2
  | cons v l =>
    simp only [npMin, pure_eq_ok]
    rw [foldl_pyMin_fl v l fun w hw => (List.pairwise_cons.mp hs).1 w hw]
    simp

theorem npMax_fl (h : HermiteData x y yp) : npMax x = .ok (x.getD (x.length - 1) 0) := by
  obtain ⟨h2, hs, -, -⟩ := h
  cases x with
  | nil => simp at h2
  | cons v l =>
    simp only [npMax, pure_eq_ok]
    rw [foldl_pyMax_fl v l hs, List.getLast_eq_getElem]
    simp [List.getD_eq_getElem?_getD]

theorem left_fl (h : HermiteData x y yp) {t : Fl R} (ht : t.val ≤ (x.getD 0 0).val) :
    hermiteInterpolation t x y yp = .ok (y.getD 0 0) := by
  have h2 := h.two
  have hy := h.values
  simp only [hermiteInterpolation, npMin_fl h, ok_bind]
  rw [if_pos (show t ≤ x.getD 0 0 from ht), listRead_getD y 0 0 le_rfl (by omega)]; rfl

theorem listRead_last_fl (l : List (Fl R)) (h : 0 < l.length) :
    listRead l (-1) = .ok (l.getD (l.length - 1) 0) := by
  have e : wrapIndex l.length (-1) = some (l.length - 1) := by
    rw [wrapIndex, if_neg (by omega), if_pos (by omega)]
    congr 1; omega
  have hl : l.length - 1 < l.length := by omega
  simp [listRead, e, hl, List.getD_eq_getElem?_getD]

theorem right_fl (h : HermiteData x y yp) {t : Fl R} (ht : (x.getD (x.length - 1) 0).val ≤ t.val) :
    hermiteInterpolation t x y yp = .ok (y.getD (x.length - 1) 0) := by
  have h2 := h.two
  have hy := h.values
  have h1 := x_lt (data_val h) (i := 0) (j := x.length - 1) (by omega) (by rw [List.length_map]; omega)
  rw [← getD_val, ← getD_val] at h1
  simp only [hermiteInterpolation, npMin_fl h, npMax_fl h, ok_bind]
  rw [if_neg (show ¬ t ≤ x.getD 0 0 from fun h3 => absurd (show t.val ≤ _ from h3) (not_le.2 (by linarith))),
    if_pos (show x.getD (x.length - 1) 0 ≤ t from ht), listRead_last_fl y (by omega), hy]

theorem inside_fl (h : HermiteData x y yp) {t : Fl R} {j : ℕ} (hj : j + 1 < x.length)
    (h1 : (x.getD j 0).val < t.val) (h2 : t.val ≤ (x.getD (j + 1) 0).val)
    (h3 : t.val < (x.getD (x.length - 1) 0).val) :
    hermiteInterpolation t x y yp = hermiteInterp t (x.getD j 0) (x.getD (j + 1) 0) (y.getD j 0) (y.getD (j + 1) 0)
      (yp.getD j 0) (yp.getD (j + 1) 0) := by
  have hx0 := x_le (data_val h) (i := 0) (j := j) (by omega) (by rw [List.length_map]; omega)
  have hl : (x.map Fl.val).length = x.length := List.length_map _
  have hs : searchsorted x t = j + 1 := by
    have e0 : searchsorted x t = searchsorted (x.map Fl.val) t.val := by
      rw [searchsorted, searchsorted, bsearch_val, hl]
    rw [e0]
    rw [getD_val] at h1 h2
    obtain ⟨hle, hlt, hge⟩ := searchsorted_spec _ (data_val h).sorted t.val
    have hle' : searchsorted (x.map Fl.val) t.val ≤ j + 1 := by
      by_contra hc
      have := hlt (j + 1) (by omega) (by omega)
      rw [← getD_of_lt _ (j + 1) (by omega)] at this
      exact absurd h2 (not_le.mpr this)
    have hge' : j + 1 ≤ searchsorted (x.map Fl.val) t.val := by
      by_contra hc
      have := hge j (by omega) (by omega)
      rw [← getD_of_lt _ j (by omega)] at this
      exact absurd h1 (not_lt.mpr this)
    omega
  rw [← getD_val, ← getD_val] at hx0
  have hy := h.values
  have hyp := h.tangents
  simp only [hermiteInterpolation, npMin_fl h, npMax_fl h, ok_bind]
  rw [if_neg (show ¬ t ≤ x.getD 0 0 from fun h4 => absurd (show t.val ≤ _ from h4) (not_le.2 (by linarith))),
    if_neg (show ¬ x.getD (x.length - 1) 0 ≤ t from fun h4 => absurd (show _ ≤ t.val from h4) (not_le.2 h3)), hs]
  have e : ((j + 1 : ℕ) : ℤ) - 1 = (j : ℤ) := by push_cast; ring
  rw [e]
  simp only [listRead_getD x (j : ℤ) 0 (by omega) (by omega),
    listRead_getD x ((j + 1 : ℕ) : ℤ) 0 (by omega) (by omega),
    listRead_getD y (j : ℤ) 0 (by omega) (by omega),
    listRead_getD y ((j + 1 : ℕ) : ℤ) 0 (by omega) (by omega),
    listRead_getD yp (j : ℤ) 0 (by omega) (by omega),
    listRead_getD yp ((j + 1 : ℕ) : ℤ) 0 (by omega) (by omega), ok_bind, Int.toNat_natCast]

end Interp.Hermite
