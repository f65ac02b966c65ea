import Verif.Props.BSplines
import Verif.Proofs.BSplineRounding

/-!
# B-splines in rounded arithmetic: C124

The numbers are computed with rounding rule `R` (`Verif/Spec/Rounding.lean`); comparisons are exact.
-/

set_option linter.unusedSectionVars false

namespace Interp.Props
open Interp.BSplines Interp.Spec Interp.Codegen

/-- C124: for strictly increasing knots, the B-spline computed with rounding has a relative error of at most
`(1 + 6 u)^p - 1` at every point: there is no cancellation, however close the knots and wherever the point. -/
theorem C124_bspline (R : Rounding) (hu : R.u ≤ 1 / 100) (p : ℕ) (u : List (Fl R))
    (hs : u.Pairwise fun a b => a.val < b.val) (i : ℕ) (hi : i + p + 1 < u.length) (x : Fl R) :
    ∃ (v : Fl R) (w : ℝ), B p u i x = .ok v ∧ B p (u.map Fl.val) i x.val = .ok w ∧
      |v.val - w| ≤ ((1 + 6 * R.u) ^ p - 1) * w := by
  have hs' : (u.map Fl.val).Pairwise (· < ·) := by rw [List.pairwise_map]; exact hs
  obtain ⟨v, h1, h2⟩ := B_fl hu hs x p i hi
  refine ⟨v, _, h1, B_ok hs' x.val p i (by simpa using hi), ?_⟩
  have := b_nonneg (ext_strictMono hs') x.val p i
  unfold Near at h2
  rwa [abs_of_nonneg this] at h2

/-- C124: the computed B-spline is exactly zero outside its support. -/
theorem C124_support (R : Rounding) (hu : R.u ≤ 1 / 100) (p : ℕ) (u : List (Fl R))
    (hs : u.Pairwise fun a b => a.val < b.val) (i : ℕ) (hi : i + p + 1 < u.length) (x : Fl R)
    (hx : x.val < u[i].val ∨ u[i + p + 1].val ≤ x.val) : ∃ v : Fl R, B p u i x = .ok v ∧ v.val = 0 := by
  have hs' : (u.map Fl.val).Pairwise (· < ·) := by rw [List.pairwise_map]; exact hs
  obtain ⟨v, w, h1, h2, h3⟩ := C124_bspline R hu p u hs i hi x
  obtain ⟨w', h4, -, h5⟩ := C44_bspline_nonneg_support p (u.map Fl.val) hs' i (by simpa using hi) x.val
  obtain rfl : w = w' := by rw [h2] at h4; exact Except.ok.inj h4
  rw [h5 (by simpa using hx), mul_zero, sub_zero] at h3
  exact ⟨v, h1, abs_eq_zero.1 (le_antisymm h3 (abs_nonneg _))⟩

/-- C124: inside, the computed B-splines of degree `p` sum up to one with an error of at most `(1 + 6 u)^p - 1`
(sum in exact arithmetic), and they are not negative if this error is at most one. -/
theorem C124_partition (R : Rounding) (hu : R.u ≤ 1 / 100) (p m : ℕ) (u : List (Fl R))
    (hs : u.Pairwise fun a b => a.val < b.val) (hm : u.length = m + p + 1) (x : Fl R) (h1 : u[p].val ≤ x.val)
    (h2 : x.val < u[m].val) :
    ∃ v : ℕ → Fl R, (∀ i < m, B p u i x = .ok (v i)) ∧
      |∑ i ∈ Finset.range m, (v i).val - 1| ≤ (1 + 6 * R.u) ^ p - 1 ∧
      ((1 + 6 * R.u) ^ p ≤ 2 → ∀ i < m, 0 ≤ (v i).val) := by
  have hs' : (u.map Fl.val).Pairwise (· < ·) := by rw [List.pairwise_map]; exact hs
  have hex : ∀ i, ∃ (v : Fl R) (w : ℝ), i < m → B p u i x = .ok v ∧ B p (u.map Fl.val) i x.val = .ok w ∧
      |v.val - w| ≤ ((1 + 6 * R.u) ^ p - 1) * w ∧ 0 ≤ w := by
    intro i
    by_cases hi : i < m
    · obtain ⟨v, w, a1, a2, a3⟩ := C124_bspline R hu p u hs i (by omega) x
      obtain ⟨w', a4, a5, -⟩ := C44_bspline_nonneg_support p (u.map Fl.val) hs' i (by rw [List.length_map]; omega) x.val
      obtain rfl : w = w' := by rw [a2] at a4; exact Except.ok.inj a4
      exact ⟨v, w, fun _ => ⟨a1, a2, a3, a5⟩⟩
    · exact ⟨0, 0, fun h => absurd h hi⟩
  choose v w h using hex
  obtain ⟨w', b1, b2⟩ := C45_bspline_partition p m (u.map Fl.val) hs' (by simpa using hm) x.val
    (by simpa using h1) (by simpa using h2)
  have hw : ∀ i < m, w i = w' i := fun i hi => by
    have := (h i hi).2.1
    rw [b1 i hi] at this
    exact (Except.ok.inj this).symm
  refine ⟨v, fun i hi => (h i hi).1, ?_, fun hle i hi => ?_⟩
  · have e : ∑ i ∈ Finset.range m, (v i).val - 1 = ∑ i ∈ Finset.range m, ((v i).val - w' i) := by
      rw [Finset.sum_sub_distrib, b2]
    rw [e]
    refine (Finset.abs_sum_le_sum_abs _ _).trans ?_
    calc _ ≤ ∑ i ∈ Finset.range m, ((1 + 6 * R.u) ^ p - 1) * w' i := by
          refine Finset.sum_le_sum fun i hi => ?_
          rw [← hw i (Finset.mem_range.1 hi)]
          exact (h i (Finset.mem_range.1 hi)).2.2.1
      _ = (1 + 6 * R.u) ^ p - 1 := by rw [← Finset.mul_sum, b2, mul_one]
  · obtain ⟨-, -, a3, a4⟩ := h i hi
    have := (abs_le.1 a3).1
    nlinarith

/-- Five knots and degree 3, in doubles: a relative error below `2^-48`. -/
example (x : Fl (.ofDigits 52)) : ∃ (v : Fl (.ofDigits 52)) (w : ℝ),
    B 3 [⟨0⟩, ⟨1⟩, ⟨2⟩, ⟨3⟩, ⟨4⟩] 0 x = .ok v ∧ B 3 [0, 1, 2, 3, 4] 0 x.val = .ok w ∧ |v.val - w| ≤ 2⁻¹ ^ 48 * w := by
  have hu : (Rounding.ofDigits 52).u = (2 : ℝ) ^ (-((52 : ℤ) + 1)) := rfl
  have hs : List.Pairwise (fun a b : Fl (.ofDigits 52) => a.val < b.val) [⟨0⟩, ⟨1⟩, ⟨2⟩, ⟨3⟩, ⟨4⟩] := by
    simp; norm_num
  obtain ⟨v, w, h1, h2, h3⟩ := C124_bspline (.ofDigits 52) (by rw [hu]; norm_num) 3 _ hs 0 (by simp) x
  obtain ⟨w', h4, h5, -⟩ := C44_bspline_nonneg_support 3 ([0, 1, 2, 3, 4] : List ℝ) (by simp; norm_num) 0 (by simp) x.val
  obtain rfl : w = w' := Except.ok.inj (h2.symm.trans h4)
  refine ⟨v, w, h1, h2, h3.trans (mul_le_mul_of_nonneg_right ?_ h5)⟩
  rw [hu]; norm_num

end Interp.Props
