import Verif.Proofs.SmolReproRounding

/-!
# The grid in the domain, in rounded arithmetic
-/

set_option linter.unusedSectionVars false

namespace Interp.Smolyak
open Interp.Spec Interp.Codegen

variable {d M : ℕ} {mu : Mu} {inds : List (List ℤ)}

/-- The coordinates of the exact grid are extrema of a Chebyshev polynomial. -/
theorem gridRows_node (hi : IndsOK d mu M inds) (hM : M ≤ 46) {x : List ℝ} (hx : x ∈ gridRows inds) (i : ℕ) (hix : i < x.length) :
    ∃ j : ℕ, j ≤ 2 ^ M ∧ x[i] = -Real.cos (Real.pi * j / 2 ^ M) := by
  have hM1 := hi.pos
  obtain ⟨el, hel, hf⟩ := (mem_gridRows x).1 hx
  rw [List.forall₂_iff_get] at hf
  have hile : i < el.length := by rw [← hf.1]; exact hix
  have hb := (hi.entry hel).2 (el.get ⟨i, hile⟩) (List.get_mem _ _)
  have := (aLevel_sNode (M + 1) (el.get ⟨i, hile⟩).toNat (by omega) (by omega) (by omega) (by omega) _).1 (hf.2 i hix hile)
  obtain ⟨j, hj, hxj, -⟩ := this
  refine ⟨j, by simpa using hj, ?_⟩
  rw [sNode_exact (M + 1) j (by omega) (by omega) hj] at hxj
  simpa using hxj

theorem gridRows_le (hi : IndsOK d mu M inds) (hM : M ≤ 46) (r i : ℕ) : |((gridRows inds).getD r []).getD i 0| ≤ 1 := by
  by_cases hr : r < (gridRows inds).length
  · rw [List.getD_eq_getElem _ _ hr]
    by_cases h : i < (gridRows inds)[r].length
    · rw [List.getD_eq_getElem _ _ h]
      obtain ⟨j, -, e⟩ := gridRows_node hi hM (List.getElem_mem hr) i h
      rw [e, abs_neg]
      exact Real.abs_cos_le_one _
    · rw [List.getD_eq_default _ _ (by omega)]; simp
  · rw [List.getD_eq_default (gridRows inds) _ (by omega)]; simp

/-- Two points of the exact grid differ by `2 / 4^M` in one of their coordinates. -/
theorem gridRows_sep (hi : IndsOK d mu M inds) (hM : M ≤ 46) (r r' : ℕ) (hr : r < (gridRows inds).length)
    (hr' : r' < (gridRows inds).length)
    (h : ∀ i < d, |((gridRows inds).getD r []).getD i 0 - ((gridRows inds).getD r' []).getD i 0| < 2 / 4 ^ M) : r = r' := by
  have hrow : (gridRows inds)[r] = (gridRows inds)[r'] := by
    have m1 := List.getElem_mem hr
    have m2 := List.getElem_mem hr'
    have l1 := gridRows_length_row hi m1
    have l2 := gridRows_length_row hi m2
    refine List.ext_getElem (by rw [l1, l2]) fun i hi1 hi2 => ?_
    have hd' := h i (by omega)
    rw [List.getD_eq_getElem (gridRows inds) _ hr, List.getD_eq_getElem (gridRows inds) _ hr', List.getD_eq_getElem _ _ hi1,
      List.getD_eq_getElem _ _ hi2] at hd'
    obtain ⟨j, hj, ej⟩ := gridRows_node hi hM m1 i hi1
    obtain ⟨k, hk, ek⟩ := gridRows_node hi hM m2 i hi2
    rw [ej, ek] at hd' ⊢
    have far : ∀ a b : ℕ, a < b → b ≤ 2 ^ M →
        2 / 4 ^ M ≤ Real.cos (Real.pi * a / 2 ^ M) - Real.cos (Real.pi * b / 2 ^ M) := by
      intro a b hab hb
      have h3 := extrema_apart (2 ^ M) a b hab hb
      push_cast at h3
      rwa [← pow_mul, mul_comm M 2, pow_mul, show (2:ℝ) ^ 2 = 4 by norm_num] at h3
    rcases lt_trichotomy j k with h | h | h
    · have := far j k h hk
      have := (abs_lt.1 hd').1
      linarith
    · rw [h]
    · have := far k j h hj
      have := (abs_lt.1 hd').2
      linarith
  exact (hi.gridRows_nodup (by omega)).getElem_inj_iff.1 hrow

theorem cube2dom_mem (x l h : ℝ) (hlh : l ≤ h) (hx : |x| ≤ 1) : l ≤ x * radius l h + center l h ∧ x * radius l h + center l h ≤ h := by
  have er : radius l h = (h - l) / 2 := by rw [radius]; push_cast; ring
  have ec : center l h = (l + h) / 2 := by rw [center]; push_cast; ring
  obtain ⟨h1, h2⟩ := abs_le.1 hx
  have r0 : 0 ≤ (h - l) / 2 := by linarith
  have h3 := mul_le_mul_of_nonneg_right h1 r0
  have h4 := mul_le_mul_of_nonneg_right h2 r0
  rw [er, ec]
  constructor <;> linarith

variable {R : Rounding}

/-- A point of the cube with an error is mapped to the domain. -/
theorem cube2dom_close (hu : R.u ≤ 1 / 2 ^ 52) (x l h : Fl R) (x' : ℝ) (hlh : l.val < h.val) (hx' : |x'| ≤ 1)
    (hx : |x.val - x'| ≤ 21 * R.u) :
    |(x * radius l h + center l h).val - (x' * radius l.val h.val + center l.val h.val)| ≤
      R.u * (14 * (h.val - l.val) + 2 * |l.val + h.val|) := by
  have u0 := Rounding.u_nonneg R
  have u1 : R.u ≤ 1 / 10 ^ 6 := hu.trans (by norm_num)
  have er : radius l.val h.val = (h.val - l.val) / 2 := by rw [radius]; push_cast; ring
  have ec : center l.val h.val = (l.val + h.val) / 2 := by rw [center]; push_cast; ring
  set r : ℝ := radius l.val h.val with hr
  set c : ℝ := center l.val h.val with hcd
  have r0 : 0 < r := by rw [er]; linarith
  have b1 := radius_close (u1.trans (by norm_num)) l h er r0
  set r' : ℝ := (radius l h).val with hr'
  have ur : 0 ≤ R.u * r := mul_nonneg u0 r0.le
  have uur : R.u * (R.u * r) ≤ R.u * r / 10 ^ 6 := by
    have := mul_le_mul_of_nonneg_right u1 ur; linarith
  have uc : 0 ≤ R.u * |c| := mul_nonneg u0 (abs_nonneg _)
  have uuc : R.u * (R.u * |c|) ≤ R.u * |c| / 10 ^ 6 := by
    have := mul_le_mul_of_nonneg_right u1 uc; linarith
  -- the centre
  set c' : ℝ := (center l h).val with hc'
  have b2 : |c' - c| ≤ R.u * |c| + 2.02 * (R.u * r) := by
    have h1 : c' = R.rnd (l.val + r') := rfl
    have h2 : l.val + r' - c = r' - r := by rw [ec, er]; ring
    have h3 : |l.val + r'| ≤ |c| + 2.01 * (R.u * r) := by
      have := abs_add_le (l.val + r' - c) c
      rw [sub_add_cancel, h2] at this; linarith
    have h4 := (R.err (l.val + r')).trans (mul_le_mul_of_nonneg_left h3 u0)
    have h5 := abs_add_le (R.rnd (l.val + r') - (l.val + r')) (l.val + r' - c)
    rw [sub_add_sub_cancel, h2] at h5
    rw [h1]; linarith
  -- the product
  have hx1 : |x.val| ≤ 1.01 := by
    have := abs_add_le (x.val - x') x'
    rw [sub_add_cancel] at this; linarith
  have b3 : |x.val * r' - x' * r| ≤ 23.1 * (R.u * r) := by
    have e : x.val * r' - x' * r = x.val * (r' - r) + (x.val - x') * r := by ring
    rw [e]
    refine (abs_add_le _ _).trans ?_
    rw [abs_mul, abs_mul, abs_of_pos r0]
    have h1 := mul_le_mul hx1 b1 (abs_nonneg _) (by norm_num)
    have h2 := mul_le_mul_of_nonneg_right hx r0.le
    linarith
  set p : ℝ := (x * radius l h).val with hp
  have xr : |x' * r| ≤ r := by
    rw [abs_mul, abs_of_pos r0]
    have := mul_le_mul_of_nonneg_right hx' r0.le; linarith
  have b4 : |p - x' * r| ≤ 24.2 * (R.u * r) := by
    have h1 : |x.val * r'| ≤ r + 23.1 * (R.u * r) := by
      have := abs_add_le (x.val * r' - x' * r) (x' * r)
      rw [sub_add_cancel] at this; linarith
    have h2 := (R.err (x.val * r')).trans (mul_le_mul_of_nonneg_left h1 u0)
    have h3 := abs_add_le (R.rnd (x.val * r') - x.val * r') (x.val * r' - x' * r)
    rw [sub_add_sub_cancel] at h3
    show |R.rnd (x.val * r') - x' * r| ≤ _
    linarith
  -- the sum
  have b5 : |p + c' - (x' * r + c)| ≤ 26.3 * (R.u * r) + R.u * |c| := by
    have := abs_add_le (p - x' * r) (c' - c)
    rw [show p - x' * r + (c' - c) = p + c' - (x' * r + c) by ring] at this
    linarith
  have b6 : |p + c'| ≤ r + |c| + (26.3 * (R.u * r) + R.u * |c|) := by
    have h1 := abs_add_le (p + c' - (x' * r + c)) (x' * r + c)
    rw [sub_add_cancel] at h1
    have h2 := abs_add_le (x' * r) c
    linarith
  have b7 := (R.err (p + c')).trans (mul_le_mul_of_nonneg_left b6 u0)
  have b8 := abs_add_le (R.rnd (p + c') - (p + c')) (p + c' - (x' * r + c))
  rw [sub_add_sub_cancel] at b8
  show |R.rnd (p + c') - (x' * r + c)| ≤ _
  have e1 : h.val - l.val = 2 * r := by rw [er]; ring
  have e2 : |l.val + h.val| = 2 * |c| := by rw [ec, abs_div, abs_two]; ring
  rw [e1, e2]
  linarith

end Interp.Smolyak
