import Verif.Proofs.Calculus
import Verif.Spec.Curvature
import Mathlib.MeasureTheory.Integral.IntervalIntegral.FundThmCalculus
import Mathlib.Analysis.Calculus.MeanValue

/-! A function that is linear in each cell and zero at the ends is orthogonal to the second derivatives of the functions
that vanish at the nodes. -/

namespace Interp.Curvature
open MeasureTheory Set Interp.Spec

theorem c2On_sub {a b : ℝ} {f f' f'' g g' g'' : ℝ → ℝ} (hf : C2On a b f f' f'') (hg : C2On a b g g' g'') :
    C2On a b (fun t => f t - g t) (fun t => f' t - g' t) (fun t => f'' t - g'' t) where
  first := fun t ht => (hf.first t ht).sub (hg.first t ht)
  second := fun t ht => (hf.second t ht).sub (hg.second t ht)
  cont := hf.cont.sub hg.cont

theorem c2On_mono {a b c d : ℝ} {f f' f'' : ℝ → ℝ} (h : C2On a b f f' f'') (h1 : a ≤ c) (h2 : d ≤ b) : C2On c d f f' f'' :=
  have hs : Icc c d ⊆ Icc a b := Icc_subset_Icc h1 h2
  ⟨fun t ht => (h.first t (hs ht)).mono hs, fun t ht => (h.second t (hs ht)).mono hs, h.cont.mono hs⟩

theorem cell_orthogonal {c d p q : ℝ} (hcd : c ≤ d) {L e e' e'' : ℝ → ℝ} (h : C2On c d e e' e'')
    (hL : ∀ t ∈ Icc c d, L t = p + q * t) (h0 : e c = 0) (h1 : e d = 0) :
    ∫ t in c..d, L t * e'' t = L d * e' d - L c * e' c := by
  have hF : ∀ t ∈ Icc c d, HasDerivWithinAt (fun t => (p + q * t) * e' t - q * e t) ((p + q * t) * e'' t) (Icc c d) t := by
    intro t ht
    have hl : HasDerivWithinAt (fun t => p + q * t) q (Icc c d) t := by
      have := ((hasDerivWithinAt_id t (Icc c d)).const_mul q).const_add p
      simpa using this
    have := (hl.mul (h.second t ht)).sub ((h.first t ht).const_mul q)
    refine this.congr_deriv ?_
    ring
  have hc : ContinuousOn (fun t => (p + q * t) * e'' t) (Icc c d) :=
    (continuous_const.add (continuous_const.mul continuous_id)).continuousOn.mul h.cont
  have := intervalIntegral.integral_eq_sub_of_hasDerivAt_of_le hcd (fun t ht => (hF t ht).continuousWithinAt)
    (fun t ht => (hF t (Ioo_subset_Icc_self ht)).hasDerivAt (Icc_mem_nhds ht.1 ht.2)) (hc.intervalIntegrable_of_Icc hcd)
  rw [h0, h1, mul_zero, sub_zero, sub_zero] at this
  rw [hL c (left_mem_Icc.mpr hcd), hL d (right_mem_Icc.mpr hcd), ← this]
  refine intervalIntegral.integral_congr fun t ht => ?_
  rw [uIcc_of_le hcd] at ht
  simp only [hL t ht]

/-- A continuous function that is linear in every cell and zero at the ends. -/
structure PiecewiseLinear (N : ℕ) (x : ℕ → ℝ) (L : ℝ → ℝ) : Prop where
  cont : Continuous L
  cell : ∀ j < N, ∃ p q, ∀ t ∈ Icc (x j) (x (j + 1)), L t = p + q * t
  left : L (x 0) = 0
  right : L (x N) = 0

theorem x_mono {N : ℕ} {x : ℕ → ℝ} (hx : ∀ j < N, x j ≤ x (j + 1)) {i j : ℕ} (hij : i ≤ j) (hj : j ≤ N) : x i ≤ x j := by
  induction j, hij using Nat.le_induction with
  | base => exact le_rfl
  | succ j _ ih => exact (ih (by omega)).trans (hx j (by omega))

theorem orthogonal {N : ℕ} {x : ℕ → ℝ} (hx : ∀ j < N, x j ≤ x (j + 1)) {L e e' e'' : ℝ → ℝ} (hL : PiecewiseLinear N x L)
    (h : C2On (x 0) (x N) e e' e'') (h0 : ∀ j ≤ N, e (x j) = 0) : ∫ t in (x 0)..(x N), L t * e'' t = 0 := by
  have hsub : ∀ j < N, C2On (x j) (x (j + 1)) e e' e'' := fun j hj =>
    c2On_mono h (x_mono hx (Nat.zero_le j) (by omega)) (x_mono hx (by omega) le_rfl)
  rw [← intervalIntegral.sum_integral_adjacent_intervals (f := fun t => L t * e'' t) (a := x) (n := N)
    (fun j hj => (hL.cont.continuousOn.mul (hsub j hj).cont).intervalIntegrable_of_Icc (hx j hj))]
  have : ∀ j ∈ Finset.range N, (∫ t in (x j)..(x (j + 1)), L t * e'' t)
      = (fun j => L (x j) * e' (x j)) (j + 1) - (fun j => L (x j) * e' (x j)) j := by
    intro j hj
    rw [Finset.mem_range] at hj
    obtain ⟨p, q, hpq⟩ := hL.cell j hj
    exact cell_orthogonal (hx j hj) (hsub j hj) hpq (h0 j (by omega)) (h0 (j + 1) (by omega))
  rw [Finset.sum_congr rfl this, Finset.sum_range_sub (fun j => L (x j) * e' (x j)), hL.left, hL.right]
  ring

theorem const_of_deriv {a b : ℝ} {f : ℝ → ℝ} (h : ∀ t ∈ Icc a b, HasDerivWithinAt f 0 (Icc a b) t) : ∀ t ∈ Icc a b, f t = f a :=
  constant_of_has_deriv_right_zero (fun t ht => (h t ht).continuousWithinAt) fun t ht =>
    (h t (Ico_subset_Icc_self ht)).mono_of_mem_nhdsWithin (Icc_mem_nhdsGE_of_mem ht)

/-- Of all functions with given values at the nodes, one with a piecewise linear second derivative that is zero at the ends has the
least square integral of the second derivative, and no other function has the same. -/
theorem least {N : ℕ} (hN : 1 ≤ N) {x : ℕ → ℝ} (hx : ∀ j < N, x j < x (j + 1)) {s s' L g g' g'' : ℝ → ℝ} (hL : PiecewiseLinear N x L)
    (hs : C2On (x 0) (x N) s s' L) (hg : C2On (x 0) (x N) g g' g'') (h : ∀ j ≤ N, g (x j) = s (x j)) :
    (∫ t in (x 0)..(x N), L t ^ 2) ≤ (∫ t in (x 0)..(x N), g'' t ^ 2) ∧
    ((∫ t in (x 0)..(x N), g'' t ^ 2) = (∫ t in (x 0)..(x N), L t ^ 2) → ∀ t ∈ Icc (x 0) (x N), g t = s t) := by
  have hx' : ∀ j < N, x j ≤ x (j + 1) := fun j hj => (hx j hj).le
  have h01 : x 0 < x N := (hx 0 (by omega)).trans_le (x_mono hx' hN le_rfl)
  have he := c2On_sub hg hs
  have hort := orthogonal hx' hL he (fun j hj => sub_eq_zero.mpr (h j hj))
  have i1 : IntervalIntegrable (fun t => L t ^ 2) volume (x 0) (x N) := (hL.cont.pow 2).intervalIntegrable _ _
  have i2 : IntervalIntegrable (fun t => 2 * (L t * (g'' t - L t))) volume (x 0) (x N) :=
    (continuousOn_const.mul (hL.cont.continuousOn.mul he.cont)).intervalIntegrable_of_Icc h01.le
  have c3 : ContinuousOn (fun t => (g'' t - L t) ^ 2) (Icc (x 0) (x N)) := he.cont.pow 2
  have i3 : IntervalIntegrable (fun t => (g'' t - L t) ^ 2) volume (x 0) (x N) := c3.intervalIntegrable_of_Icc h01.le
  have key : (∫ t in (x 0)..(x N), g'' t ^ 2) = (∫ t in (x 0)..(x N), L t ^ 2) + ∫ t in (x 0)..(x N), (g'' t - L t) ^ 2 := by
    have e1 : (fun t => g'' t ^ 2) = fun t => L t ^ 2 + 2 * (L t * (g'' t - L t)) + (g'' t - L t) ^ 2 := by
      funext t; ring
    rw [e1, intervalIntegral.integral_add (i1.add i2) i3, intervalIntegral.integral_add i1 i2, intervalIntegral.integral_const_mul,
      hort, mul_zero, add_zero]
  have hnn : 0 ≤ ∫ t in (x 0)..(x N), (g'' t - L t) ^ 2 :=
    intervalIntegral.integral_nonneg h01.le fun t _ => sq_nonneg _
  refine ⟨by linarith, fun heq t ht => ?_⟩
  have hz : (∫ t in (x 0)..(x N), (g'' t - L t) ^ 2) = 0 := by linarith
  have hzero : ∀ t ∈ Icc (x 0) (x N), g'' t - L t = 0 := by
    intro t ht
    by_contra hne
    exact absurd hz (intervalIntegral.integral_pos h01 c3 (fun t _ => sq_nonneg _) ⟨t, ht, by positivity⟩).ne'
  have hk := const_of_deriv (f := fun t => g' t - s' t) (fun t ht => by rw [← hzero t ht]; exact he.second t ht)
  set k := g' (x 0) - s' (x 0) with hkd
  have hlin := const_of_deriv (f := fun t => g t - s t - k * t) (a := x 0) (b := x N) (fun t ht => by
    have := (he.first t ht).sub ((hasDerivWithinAt_id t (Icc (x 0) (x N))).const_mul k)
    refine this.congr_deriv ?_
    have := hk t ht

    rw [this]; simp)
  have a1 := hlin (x 1) ⟨x_mono hx' (by omega) hN, x_mono hx' hN le_rfl⟩
  have a2 := hlin t ht
  simp only [h 0 (by omega), h 1 hN, sub_self] at a1 a2
  have hk0 : k = 0 := by
    have h1 := hx 0 (by omega)
    have : k * (x (0 + 1) - x 0) = 0 := by rw [Nat.zero_add]; linarith
    rcases mul_eq_zero.mp this with h' | h'
    · exact h'
    · linarith
  rw [hk0] at a2
  linarith

/-! ### Slopes -/

theorem c1On_mono {a b c d : ℝ} {f f' : ℝ → ℝ} (h : C1On a b f f') (h1 : a ≤ c) (h2 : d ≤ b) : C1On c d f f' :=
  have hs : Icc c d ⊆ Icc a b := Icc_subset_Icc h1 h2
  ⟨fun t ht => (h.first t (hs ht)).mono hs, h.cont.mono hs⟩

theorem cell_slope {c d p : ℝ} (hcd : c ≤ d) {f f' : ℝ → ℝ} (h : C1On c d f f') (hp : f d - f c = p * (d - c)) :
    ∫ t in c..d, f' t ^ 2 = (∫ t in c..d, (f' t - p) ^ 2) + p ^ 2 * (d - c) := by
  have hi : ∫ t in c..d, f' t = f d - f c :=
    intervalIntegral.integral_eq_sub_of_hasDerivAt_of_le hcd (fun t ht => (h.first t ht).continuousWithinAt)
      (fun t ht => (h.first t (Ioo_subset_Icc_self ht)).hasDerivAt (Icc_mem_nhds ht.1 ht.2)) (h.cont.intervalIntegrable_of_Icc hcd)
  have i1 : IntervalIntegrable (fun t => (f' t - p) ^ 2) volume c d :=
    ((h.cont.sub continuousOn_const).pow 2).intervalIntegrable_of_Icc hcd
  have i2 : IntervalIntegrable (fun t => 2 * p * f' t) volume c d :=
    (continuousOn_const.mul h.cont).intervalIntegrable_of_Icc hcd
  have e : (fun t => f' t ^ 2) = fun t => (f' t - p) ^ 2 + 2 * p * f' t - p ^ 2 := by funext t; ring
  rw [e, intervalIntegral.integral_sub (i1.add i2) (by simp), intervalIntegral.integral_add i1 i2, intervalIntegral.integral_const_mul, hi, hp]
  simp
  ring

/-- A function that is affine in every cell. -/
def PiecewiseAffine (N : ℕ) (x : ℕ → ℝ) (s : ℝ → ℝ) : Prop :=
  ∀ j < N, ∃ q p, ∀ t ∈ Icc (x j) (x (j + 1)), s t = q + p * t

/-- Of all functions with given values at the nodes, the one that is affine in every cell has the least square integral of the
slope, and no other function has the same. -/
theorem least_slope {N : ℕ} {x : ℕ → ℝ} (hx : ∀ j < N, x j < x (j + 1)) {s g g' : ℝ → ℝ} (hs : PiecewiseAffine N x s)
    (hg : C1On (x 0) (x N) g g') (h : ∀ j ≤ N, g (x j) = s (x j)) :
    (∫ t in (x 0)..(x N), deriv s t ^ 2) ≤ (∫ t in (x 0)..(x N), g' t ^ 2) ∧
    ((∫ t in (x 0)..(x N), g' t ^ 2) = (∫ t in (x 0)..(x N), deriv s t ^ 2) → ∀ j < N, ∀ t ∈ Icc (x j) (x (j + 1)), g t = s t) := by
  have hx' : ∀ j < N, x j ≤ x (j + 1) := fun j hj => (hx j hj).le
  choose! q p hpq using hs
  have hsub : ∀ j < N, C1On (x j) (x (j + 1)) g g' := fun j hj =>
    c1On_mono hg (x_mono hx' (Nat.zero_le j) (by omega)) (x_mono hx' (by omega) le_rfl)
  have hder : ∀ j < N, EqOn (fun t => deriv s t ^ 2) (fun _ => p j ^ 2) (Ioo (x j) (x (j + 1))) := by
    intro j hj t ht
    have : HasDerivAt s (p j) t := by
      have h1 : HasDerivAt (fun t => q j + p j * t) (p j) t := by
        simpa using ((hasDerivAt_id t).const_mul (p j)).const_add (q j)
      refine h1.congr_of_eventuallyEq ?_
      filter_upwards [Icc_mem_nhds ht.1 ht.2] with u hu using hpq j hj u hu
    simp only [this.deriv]
  have hp : ∀ j < N, g (x (j + 1)) - g (x j) = p j * (x (j + 1) - x j) := by
    intro j hj
    rw [h _ (by omega), h _ (by omega), hpq j hj _ (right_mem_Icc.mpr (hx' j hj)), hpq j hj _ (left_mem_Icc.mpr (hx' j hj))]
    ring
  have c3 : ∀ j < N, ContinuousOn (fun t => (g' t - p j) ^ 2) (Icc (x j) (x (j + 1))) := fun j hj =>
    ((hsub j hj).cont.sub continuousOn_const).pow 2
  have hcell : ∀ j < N, ∫ t in (x j)..(x (j + 1)), g' t ^ 2
      = (∫ t in (x j)..(x (j + 1)), (g' t - p j) ^ 2) + ∫ t in (x j)..(x (j + 1)), deriv s t ^ 2 := by
    intro j hj
    rw [cell_slope (hx' j hj) (hsub j hj) (hp j hj), intervalIntegral.integral_congr_Ioo_of_le (hx' j hj) (hder j hj)]
    simp
    ring
  have hnn : ∀ j < N, 0 ≤ ∫ t in (x j)..(x (j + 1)), (g' t - p j) ^ 2 := fun j hj =>
    intervalIntegral.integral_nonneg (hx' j hj) fun t _ => sq_nonneg _
  have key : (∫ t in (x 0)..(x N), g' t ^ 2)
      = (∑ j ∈ Finset.range N, ∫ t in (x j)..(x (j + 1)), (g' t - p j) ^ 2) + ∫ t in (x 0)..(x N), deriv s t ^ 2 := by
    rw [← intervalIntegral.sum_integral_adjacent_intervals (f := fun t => g' t ^ 2) (a := x) (n := N)
        (fun j hj => ((hsub j hj).cont.pow 2).intervalIntegrable_of_Icc (hx' j hj)),
      ← intervalIntegral.sum_integral_adjacent_intervals (f := fun t => deriv s t ^ 2) (a := x) (n := N)
        (fun j hj => (intervalIntegrable_congr_uIoo (by rw [uIoo_of_le (hx' j hj)]; exact hder j hj)).mpr (by simp)),
      ← Finset.sum_add_distrib]
    exact Finset.sum_congr rfl fun j hj => hcell j (Finset.mem_range.mp hj)
  have hsum : 0 ≤ ∑ j ∈ Finset.range N, ∫ t in (x j)..(x (j + 1)), (g' t - p j) ^ 2 :=
    Finset.sum_nonneg fun j hj => hnn j (Finset.mem_range.mp hj)
  refine ⟨by linarith, fun heq j hj t ht => ?_⟩
  have hz := (Finset.sum_eq_zero_iff_of_nonneg fun j hj => hnn j (Finset.mem_range.mp hj)).mp
    (show ∑ j ∈ Finset.range N, ∫ t in (x j)..(x (j + 1)), (g' t - p j) ^ 2 = 0 by linarith) j (Finset.mem_range.mpr hj)
  have hzero : ∀ t ∈ Icc (x j) (x (j + 1)), g' t - p j = 0 := by
    intro t ht
    by_contra hne
    exact absurd hz (intervalIntegral.integral_pos (hx j hj) (c3 j hj) (fun t _ => sq_nonneg _) ⟨t, ht, by positivity⟩).ne'
  have hlin := const_of_deriv (f := fun t => g t - p j * t) (a := x j) (b := x (j + 1)) (fun t ht => by
    have := ((hsub j hj).first t ht).sub ((hasDerivWithinAt_id t (Icc (x j) (x (j + 1)))).const_mul (p j))
    refine this.congr_deriv ?_
    rw [mul_one]; exact hzero t ht) t ht
  simp only [h j (by omega), hpq j hj _ (left_mem_Icc.mpr (hx' j hj))] at hlin
  rw [hpq j hj t ht]
  linarith

end Interp.Curvature
