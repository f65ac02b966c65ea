import Verif.Proofs.Hermite
import Verif.Spec.Curvature
import Mathlib.Analysis.Calculus.LocalExtr.Rolle
import Mathlib.Analysis.Calculus.Deriv.Pow
import Mathlib.Analysis.Calculus.Deriv.Add
import Mathlib.Analysis.Calculus.Deriv.Mul

/-! Error of the cubic Hermite polynomial of a function with four derivatives. -/

namespace Interp.Hermite
open Set Interp.Spec

/-- Rolle's theorem inside an interval. -/
theorem rolle {A B a b : ℝ} {f f' : ℝ → ℝ} (hf : ∀ t ∈ Icc A B, HasDerivWithinAt f (f' t) (Icc A B) t) (h1 : A ≤ a) (h2 : b ≤ B)
    (hab : a < b) (he : f a = f b) : ∃ c ∈ Ioo a b, f' c = 0 := by
  have hs : Icc a b ⊆ Icc A B := Icc_subset_Icc h1 h2
  refine exists_hasDerivAt_eq_zero hab (fun t ht => ((hf t (hs ht)).mono hs).continuousWithinAt) he fun t ht => ?_
  exact (hf t (hs (Ioo_subset_Icc_self ht))).hasDerivAt (Icc_mem_nhds (h1.trans_lt ht.1) (ht.2.trans_le h2))

theorem four_mono {a b c d : ℝ} {f f1 f2 f3 f4 : ℝ → ℝ} (h : Four a b f f1 f2 f3 f4) (h1 : a ≤ c) (h2 : d ≤ b) :
    Four c d f f1 f2 f3 f4 :=
  have hs : Icc c d ⊆ Icc a b := Icc_subset_Icc h1 h2
  ⟨fun t ht => (h.d1 t (hs ht)).mono hs, fun t ht => (h.d2 t (hs ht)).mono hs, fun t ht => (h.d3 t (hs ht)).mono hs,
    fun t ht => (h.d4 t (hs ht)).mono hs⟩

/-- A function that vanishes with its derivative at both ends and once between: the fourth derivative vanishes somewhere. -/
theorem four_zero {a b t : ℝ} {f f1 f2 f3 f4 : ℝ → ℝ} (h : Four a b f f1 f2 f3 f4) (h1 : a < t) (h2 : t < b) (ha : f a = 0) (hb : f b = 0)
    (ht : f t = 0) (ha' : f1 a = 0) (hb' : f1 b = 0) : ∃ ξ ∈ Ioo a b, f4 ξ = 0 := by
  obtain ⟨u, hu, hu'⟩ := rolle h.d1 le_rfl h2.le h1 (by rw [ha, ht])
  obtain ⟨v, hv, hv'⟩ := rolle h.d1 h1.le le_rfl h2 (by rw [hb, ht])
  have huv : u < v := hu.2.trans hv.1
  obtain ⟨p, hp, hp'⟩ := rolle h.d2 le_rfl (huv.trans hv.2).le hu.1 (by rw [ha', hu'])
  obtain ⟨q, hq, hq'⟩ := rolle h.d2 hu.1.le hv.2.le huv (by rw [hv', hu'])
  obtain ⟨r, hr, hr'⟩ := rolle h.d2 (hu.1.trans huv).le le_rfl hv.2 (by rw [hv', hb'])
  have hpq : p < q := hp.2.trans hq.1
  have hqr : q < r := hq.2.trans hr.1
  obtain ⟨x, hx, hx'⟩ := rolle h.d3 hp.1.le (hqr.trans hr.2).le hpq (by rw [hp', hq'])
  obtain ⟨y, hy, hy'⟩ := rolle h.d3 (hp.1.trans hpq).le hr.2.le hqr (by rw [hr', hq'])
  have hxy : x < y := hx.2.trans hy.1
  obtain ⟨z, hz, hz'⟩ := rolle h.d4 (hp.1.trans hx.1).le (hy.2.trans hr.2).le hxy (by rw [hx', hy'])
  exact ⟨z, ⟨(hp.1.trans hx.1).trans hz.1, hz.2.trans (hy.2.trans hr.2)⟩, hz'⟩

/-- The derivatives of a polynomial of degree four. -/
theorem four_quartic (a b c0 c1 c2 c3 c4 : ℝ) :
    Four a b (fun t => c0 + c1 * t + c2 * t ^ 2 + c3 * t ^ 3 + c4 * t ^ 4) (fun t => c1 + 2 * c2 * t + 3 * c3 * t ^ 2 + 4 * c4 * t ^ 3)
      (fun t => 2 * c2 + 6 * c3 * t + 12 * c4 * t ^ 2) (fun t => 6 * c3 + 24 * c4 * t) (fun _ => 24 * c4) := by
  have p1 : ∀ (c t : ℝ), HasDerivAt (fun t => c * t) c t := fun c t => by simpa using (hasDerivAt_id t).const_mul c
  have pn : ∀ (c : ℝ) (n : ℕ) (t : ℝ), HasDerivAt (fun t => c * t ^ n) (c * (n * t ^ (n - 1))) t := fun c n t =>
    (hasDerivAt_pow n t).const_mul c
  refine ⟨fun t _ => ?_, fun t _ => ?_, fun t _ => ?_, fun t _ => ?_⟩
  · refine (((((p1 c1 t).const_add c0).add (pn c2 2 t)).add (pn c3 3 t)).add (pn c4 4 t)).hasDerivWithinAt.congr_deriv ?_
    push_cast; simp; ring
  · refine ((((p1 (2 * c2) t).const_add c1).add (pn (3 * c3) 2 t)).add (pn (4 * c4) 3 t)).hasDerivWithinAt.congr_deriv ?_
    push_cast; simp; ring
  · refine (((p1 (6 * c3) t).const_add (2 * c2)).add (pn (12 * c4) 2 t)).hasDerivWithinAt.congr_deriv ?_
    push_cast; simp; ring
  · exact ((p1 (24 * c4) t).const_add (6 * c3)).hasDerivWithinAt

theorem four_sub {a b : ℝ} {f f1 f2 f3 f4 g g1 g2 g3 g4 : ℝ → ℝ} (hf : Four a b f f1 f2 f3 f4) (hg : Four a b g g1 g2 g3 g4) :
    Four a b (fun t => f t - g t) (fun t => f1 t - g1 t) (fun t => f2 t - g2 t) (fun t => f3 t - g3 t) (fun t => f4 t - g4 t) :=
  ⟨fun t ht => (hf.d1 t ht).sub (hg.d1 t ht), fun t ht => (hf.d2 t ht).sub (hg.d2 t ht), fun t ht => (hf.d3 t ht).sub (hg.d3 t ht),
    fun t ht => (hf.d4 t ht).sub (hg.d4 t ht)⟩

/-- The Hermite polynomial of a cell as a polynomial, with its values and slopes at the ends. -/
theorem herm_poly {a b : ℝ} (hab : a < b) (p q m n : ℝ) : ∃ c0 c1 c2 c3 : ℝ,
    (∀ t, herm a b p q m n t = c0 + c1 * t + c2 * t ^ 2 + c3 * t ^ 3) ∧
    c1 + 2 * c2 * a + 3 * c3 * a ^ 2 = m ∧ c1 + 2 * c2 * b + 3 * c3 * b ^ 2 = n := by
  have h0 : b - a ≠ 0 := sub_ne_zero.mpr (ne_of_gt hab)
  set D := (q - p) / (b - a) with hD
  have hq : q = p + D * (b - a) := by rw [hD]; field_simp; ring
  -- coefficients of powers of `t - a`
  set e2 := (3 * D - 2 * m - n) / (b - a) with he2
  set e3 := (m + n - 2 * D) / (b - a) ^ 2 with he3
  refine ⟨p - m * a + e2 * a ^ 2 - e3 * a ^ 3, m - 2 * e2 * a + 3 * e3 * a ^ 2, e2 - 3 * e3 * a, e3, fun t => ?_, by ring, ?_⟩
  · rw [hq, he2, he3]
    simp only [herm]
    field_simp
    ring
  · rw [he2, he3]
    field_simp
    ring

/-- The error in one cell. -/
theorem herm_error {a b t M : ℝ} (hab : a < b) {f f1 f2 f3 f4 : ℝ → ℝ} (h : Four a b f f1 f2 f3 f4) (hM : ∀ t ∈ Icc a b, |f4 t| ≤ M)
    (h1 : a ≤ t) (h2 : t ≤ b) : |herm a b (f a) (f b) (f1 a) (f1 b) t - f t| ≤ M * (b - a) ^ 4 / 384 := by
  have hM0 : 0 ≤ M := (abs_nonneg _).trans (hM a (left_mem_Icc.mpr hab.le))
  have hba : 0 < b - a := sub_pos.mpr hab
  rcases h1.eq_or_lt with rfl | h1
  · rw [herm_left, sub_self, abs_zero]; positivity
  rcases h2.eq_or_lt with rfl | h2
  · rw [herm_right hab, sub_self, abs_zero]; positivity
  obtain ⟨c0, c1, c2, c3, hp, ha', hb'⟩ := herm_poly hab (f a) (f b) (f1 a) (f1 b)
  have hw : 0 < (t - a) ^ 2 * (t - b) ^ 2 := by
    have h3 := (sub_pos.mpr h1).ne'; have h4 := (sub_neg.mpr h2).ne; positivity
  set k := (f t - herm a b (f a) (f b) (f1 a) (f1 b) t) / ((t - a) ^ 2 * (t - b) ^ 2) with hk
  have hkw : k * ((t - a) ^ 2 * (t - b) ^ 2) = f t - herm a b (f a) (f b) (f1 a) (f1 b) t := by
    rw [hk]; exact div_mul_cancel₀ _ hw.ne'
  -- the quartic with the additional value at `t`
  have hQ : ∀ u, c0 + k * a ^ 2 * b ^ 2 + (c1 - 2 * k * a * b * (a + b)) * u + (c2 + k * (a ^ 2 + 4 * a * b + b ^ 2)) * u ^ 2
      + (c3 - 2 * k * (a + b)) * u ^ 3 + k * u ^ 4 = herm a b (f a) (f b) (f1 a) (f1 b) u + k * ((u - a) ^ 2 * (u - b) ^ 2) := by
    intro u; rw [hp]; ring
  obtain ⟨ξ, hξ, hz⟩ := four_zero (four_sub h (four_quartic a b (c0 + k * a ^ 2 * b ^ 2) (c1 - 2 * k * a * b * (a + b))
      (c2 + k * (a ^ 2 + 4 * a * b + b ^ 2)) (c3 - 2 * k * (a + b)) k)) h1 h2
    (by rw [hQ, herm_left]; ring) (by rw [hQ, herm_right hab]; ring) (by rw [hQ, hkw]; ring)
    (by rw [← ha']; ring) (by rw [← hb']; ring)
  have hkM : |24 * k| ≤ M := by
    rw [← sub_eq_zero.mp hz]; exact hM ξ (Ioo_subset_Icc_self hξ)
  have hw2 : (t - a) ^ 2 * (t - b) ^ 2 ≤ (b - a) ^ 4 / 16 := by
    have e : (t - a) ^ 2 * (t - b) ^ 2 = ((t - a) * (b - t)) ^ 2 := by ring
    have h3 : (t - a) * (b - t) ≤ (b - a) ^ 2 / 4 := by nlinarith [sq_nonneg (2 * t - a - b)]
    have h4 : 0 ≤ (t - a) * (b - t) := mul_nonneg (by linarith) (by linarith)
    rw [e]
    calc ((t - a) * (b - t)) ^ 2 ≤ ((b - a) ^ 2 / 4) ^ 2 := pow_le_pow_left₀ h4 h3 2
      _ = (b - a) ^ 4 / 16 := by ring
  rw [abs_sub_comm, ← hkw, abs_mul, abs_of_pos hw]
  rw [abs_mul, abs_of_pos (by norm_num : (0 : ℝ) < 24)] at hkM
  have : |k| ≤ M / 24 := by linarith
  calc |k| * ((t - a) ^ 2 * (t - b) ^ 2) ≤ M / 24 * ((b - a) ^ 4 / 16) :=
        mul_le_mul this hw2 hw.le (by positivity)
    _ = M * (b - a) ^ 4 / 384 := by ring

end Interp.Hermite
