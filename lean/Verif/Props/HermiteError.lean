import Verif.Props.Hermite
import Verif.Proofs.HermiteError
import Verif.Proofs.Calculus
import Verif.Spec.Curvature
import Mathlib.Analysis.Calculus.Deriv.MeanValue

/-!
# Smoothness, accuracy and monotonicity of Hermite splines: C100, C101
-/

namespace Interp.Props
open Interp.Hermite Interp.Spec Interp.Codegen Set

variable {x y yp : List ℝ}

/-- The slope of the Hermite polynomial of a cell. -/
noncomputable def hermSlope (xk xkn pk pkn mk mkn t : ℝ) : ℝ :=
  let s := (t - xk) / (xkn - xk)
  (pk * (6 * s ^ 2 - 6 * s) + mk * (xkn - xk) * (3 * s ^ 2 - 4 * s + 1)
    + pkn * (-6 * s ^ 2 + 6 * s) + mkn * (xkn - xk) * (3 * s ^ 2 - 2 * s)) / (xkn - xk)

theorem hermSlope_left {xk xkn pk pkn mk mkn : ℝ} (h : xk < xkn) : hermSlope xk xkn pk pkn mk mkn xk = mk :=
  (hasDerivAt_herm xk xkn pk pkn mk mkn xk).unique (hasDerivAt_herm_left h)

theorem hermSlope_right {xk xkn pk pkn mk mkn : ℝ} (h : xk < xkn) : hermSlope xk xkn pk pkn mk mkn xkn = mkn :=
  (hasDerivAt_herm xk xkn pk pkn mk mkn xkn).unique (hasDerivAt_herm_right h)

noncomputable def cellSlope (x y yp : List ℝ) (j : ℕ) (t : ℝ) : ℝ :=
  hermSlope (x.getD j 0) (x.getD (j + 1) 0) (y.getD j 0) (y.getD (j + 1) 0) (yp.getD j 0) (yp.getD (j + 1) 0) t

theorem cellSlope_unique (h : HermiteData x y yp) {t : ℝ} {i j : ℕ} (hi : i + 1 < x.length) (hj : j + 1 < x.length)
    (h1 : x.getD i 0 ≤ t) (h2 : t ≤ x.getD (i + 1) 0) (h3 : x.getD j 0 ≤ t) (h4 : t ≤ x.getD (j + 1) 0) :
    cellSlope x y yp i t = cellSlope x y yp j t := by
  wlog hij : i ≤ j generalizing i j
  · exact (this hj hi h3 h4 h1 h2 (by omega)).symm
  rcases hij.eq_or_lt with rfl | hij
  · rfl
  have h5 := x_le h (i := i + 1) (j := j) (by omega) (by omega)
  have ht : t = x.getD (i + 1) 0 := le_antisymm h2 (h5.trans h3)
  have hji : j = i + 1 := by
    by_contra hne
    have := x_lt h (i := i + 1) (j := j) (by omega) (by omega)
    linarith
  subst hji
  rw [cellSlope, cellSlope, ht, hermSlope_right (x_lt h (by omega) hi), hermSlope_left (x_lt h (by omega) hj)]

/-- The interpolant and its slope, cell by cell. -/
theorem hermite_cells (h : HermiteData x y yp) : ∃ H H' : ℝ → ℝ,
    (∀ t, hermiteInterpolation t x y yp = .ok (H t)) ∧ Continuous H ∧
    C1On (x.getD 0 0) (x.getD (x.length - 1) 0) H H' ∧
    (∀ j, j + 1 < x.length → ∀ t, x.getD j 0 ≤ t → t ≤ x.getD (j + 1) 0 → H t = cellVal x y yp j t ∧ H' t = cellSlope x y yp j t) ∧
    (∀ t, t ≤ x.getD 0 0 → H t = y.getD 0 0) ∧ (∀ t, x.getD (x.length - 1) 0 ≤ t → H t = y.getD (x.length - 1) 0) := by
  have h2 := h.two
  choose H hH using fun t => hermite_total h t
  have hval : ∀ j, j + 1 < x.length → ∀ t, x.getD j 0 ≤ t → t ≤ x.getD (j + 1) 0 → H t = cellVal x y yp j t := by
    intro j hj t h3 h4
    have := hermite_closed h hj h3 h4
    rw [hH] at this
    injection this
  have hl : ∀ t, t ≤ x.getD 0 0 → H t = y.getD 0 0 := by
    intro t ht
    have := hermite_outside_left h ht
    rw [hH] at this; injection this
  have hr : ∀ t, x.getD (x.length - 1) 0 ≤ t → H t = y.getD (x.length - 1) 0 := by
    intro t ht
    have := hermite_outside_right h ht
    rw [hH] at this; injection this
  have hslope : ∀ t, ∃ d, ∀ j, j + 1 < x.length → x.getD j 0 ≤ t → t ≤ x.getD (j + 1) 0 → d = cellSlope x y yp j t := by
    intro t
    by_cases hc : ∃ i, i + 1 < x.length ∧ x.getD i 0 ≤ t ∧ t ≤ x.getD (i + 1) 0
    · obtain ⟨i, h3, h4, h5⟩ := hc
      exact ⟨cellSlope x y yp i t, fun j h6 h7 h8 => cellSlope_unique h h3 h6 h4 h5 h7 h8⟩
    · exact ⟨0, fun j h6 h7 h8 => absurd ⟨j, h6, h7, h8⟩ hc⟩
  choose H' hH' using hslope
  have hd : ∀ j t, HasDerivAt (cellVal x y yp j) (cellSlope x y yp j t) t := fun j t => hasDerivAt_herm _ _ _ _ _ _ t
  have hsc : ∀ j, Continuous (cellSlope x y yp j) := by
    intro j
    unfold cellSlope hermSlope
    fun_prop
  have hx01 := x_lt h (i := 0) (j := x.length - 1) (by omega) (by omega)
  have hcover : ∀ t ∈ Icc (x.getD 0 0) (x.getD (x.length - 1) 0), ∃ i < x.length - 1,
      t ∈ (fun j => Icc (x.getD j 0) (x.getD (j + 1) 0)) i := by
    intro t ht
    obtain ⟨j, h3, h4, h5⟩ := exists_cell h ht.1 ht.2
    exact ⟨j, by omega, h4, h5⟩
  have hder : ∀ t, HasDerivWithinAt H (H' t) (Icc (x.getD 0 0) (x.getD (x.length - 1) 0)) t :=
    hasDerivWithinAt_glue (N := x.length - 1) (A := fun j => Icc (x.getD j 0) (x.getD (j + 1) 0)) (fun _ _ => isClosed_Icc)
      (fun j _ t _ => hd j t) (fun j hj t ht => hval j (by omega) t ht.1 ht.2) (fun j hj t ht => hH' t j (by omega) ht.1 ht.2) hcover
  -- continuity, with the two outer parts
  have glue : ∀ (g : ℝ → ℝ) (p : ℕ → ℝ → ℝ), (∀ j, Continuous (p j)) →
      (∀ j, j + 1 < x.length → ∀ t, x.getD j 0 ≤ t → t ≤ x.getD (j + 1) 0 → g t = p j t) →
      ContinuousOn g (Icc (x.getD 0 0) (x.getD (x.length - 1) 0)) := by
    intro g p hp hg
    have hc : Continuous fun t => g (max (x.getD 0 0) (min t (x.getD (x.length - 1) 0))) := by
      refine continuous_glue (N := x.length - 1)
        (A := fun j => (fun t => max (x.getD 0 0) (min t (x.getD (x.length - 1) 0))) ⁻¹' Icc (x.getD j 0) (x.getD (j + 1) 0))
        (fun _ _ => isClosed_Icc.preimage (by fun_prop)) (p := fun j t => p j (max (x.getD 0 0) (min t (x.getD (x.length - 1) 0))))
        (fun j _ => (hp j).comp (by fun_prop)) (fun j hj t ht => hg j (by omega) _ ht.1 ht.2) fun t => ?_
      exact hcover _ ⟨le_max_left _ _, max_le hx01.le (min_le_right _ _)⟩
    refine hc.continuousOn.congr fun t ht => ?_
    simp only [min_eq_left ht.2, max_eq_right ht.1]
  have hcH : Continuous H := by
    have hc := glue H (cellVal x y yp) (fun j => continuous_iff_continuousAt.mpr fun t => (hd j t).continuousAt) hval
    have : Continuous fun t => H (max (x.getD 0 0) (min t (x.getD (x.length - 1) 0))) :=
      hc.comp_continuous (by fun_prop) fun t => ⟨le_max_left _ _, max_le hx01.le (min_le_right _ _)⟩
    refine this.congr fun t => ?_
    rcases le_total t (x.getD 0 0) with h3 | h3
    · rw [min_eq_left (h3.trans hx01.le), max_eq_left h3, hl t h3, hl _ le_rfl]
    · rcases le_total (x.getD (x.length - 1) 0) t with h4 | h4
      · rw [min_eq_right h4, max_eq_right hx01.le, hr t h4, hr _ le_rfl]
      · rw [min_eq_left h4, max_eq_right h3]
  exact ⟨H, H', hH, hcH, ⟨fun t _ => hder t, glue H' (cellSlope x y yp) hsc fun j h3 t h4 h5 => hH' t j h3 h4 h5⟩,
    fun j h3 t h4 h5 => ⟨hval j h3 t h4 h5, hH' t j h3 h4 h5⟩, hl, hr⟩

/-- C100. The interpolant is continuous everywhere and has a continuous slope between the first and the last abscissa. -/
theorem C100_hermite_smooth (h : HermiteData x y yp) (out : Option (NdArray ℝ)) : ∃ H H' : ℝ → ℝ,
    (∀ t, hermite (.scalar t) x y yp out = .ok (.scalar (H t))) ∧ Continuous H ∧
    ∀ a b, x.head? = some a → x.getLast? = some b → C1On a b H H' := by
  obtain ⟨H, H', h1, h2, h3, -⟩ := hermite_cells h
  refine ⟨H, H', fun t => by simp only [hermite, h1, ok_bind, pure_eq_ok], h2, fun a b ha hb => ?_⟩
  have h2 := h.two
  have ea : x.getD 0 0 = a := by
    rw [List.head?_eq_getElem?] at ha
    rw [List.getD_eq_getElem?_getD, ha]; rfl
  have eb : x.getD (x.length - 1) 0 = b := by
    rw [List.getLast?_eq_getElem?] at hb
    rw [List.getD_eq_getElem?_getD, hb]; rfl
  rw [ea, eb] at h3
  exact h3

/-- C100. If the values and tangents are those of a function with a fourth derivative bounded by `M`, and the abscissae are at most `δ`
apart, the error is at most `M δ ^ 4 / 384`. -/
theorem C100_hermite_error (h : HermiteData x y yp) (out : Option (NdArray ℝ)) {a b M δ : ℝ} (ha : x.head? = some a)
    (hb : x.getLast? = some b) {f f1 f2 f3 f4 : ℝ → ℝ} (hf : Four a b f f1 f2 f3 f4) (hM : ∀ t ∈ Icc a b, |f4 t| ≤ M)
    (hy : y = x.map f) (hyp : yp = x.map f1) (hδ : ∀ j (hj : j + 1 < x.length), x[j + 1] - x[j] ≤ δ) (t : ℝ) (ht : t ∈ Icc a b) :
    ∃ v, hermite (.scalar t) x y yp out = .ok (.scalar v) ∧ |v - f t| ≤ M * δ ^ 4 / 384 := by
  have h2 := h.two
  have ea : x.getD 0 0 = a := by
    rw [List.head?_eq_getElem?] at ha
    rw [List.getD_eq_getElem?_getD, ha]; rfl
  have eb : x.getD (x.length - 1) 0 = b := by
    rw [List.getLast?_eq_getElem?] at hb
    rw [List.getD_eq_getElem?_getD, hb]; rfl
  obtain ⟨j, hj, h3, h4⟩ := exists_cell h (t := t) (by rw [ea]; exact ht.1) (by rw [eb]; exact ht.2)
  refine ⟨cellVal x y yp j t, by simp only [hermite, hermite_closed h hj h3 h4, ok_bind, pure_eq_ok], ?_⟩
  have hlt := x_lt h (i := j) (j := j + 1) (by omega) hj
  have hm : ∀ (g : ℝ → ℝ) i, i < x.length → (x.map g).getD i 0 = g (x.getD i 0) := by
    intro g i hi
    simp [List.getD_eq_getElem?_getD, hi]
  have hja : a ≤ x.getD j 0 := by rw [← ea]; exact x_le h (by omega) (by omega)
  have hjb : x.getD (j + 1) 0 ≤ b := by rw [← eb]; exact x_le h (by omega) (by omega)
  have hM0 : 0 ≤ M := (abs_nonneg _).trans (hM t ht)
  have he := herm_error hlt (four_mono hf hja hjb) (fun t ht => hM t ⟨hja.trans ht.1, ht.2.trans hjb⟩) h3 h4
  have hcell : cellVal x y yp j t = herm (x.getD j 0) (x.getD (j + 1) 0) (f (x.getD j 0)) (f (x.getD (j + 1) 0)) (f1 (x.getD j 0))
      (f1 (x.getD (j + 1) 0)) t := by
    rw [cellVal, hy, hyp, hm f j (by omega), hm f (j + 1) hj, hm f1 j (by omega), hm f1 (j + 1) hj]
  rw [hcell]
  refine he.trans ?_
  have hd := hδ j hj
  rw [← getD_of_lt x j (by omega), ← getD_of_lt x (j + 1) hj] at hd
  have h5 : 0 ≤ x.getD (j + 1) 0 - x.getD j 0 := by linarith
  have := pow_le_pow_left₀ h5 hd 4
  have := mul_le_mul_of_nonneg_left this hM0
  linarith

private theorem affine_nonneg {P Q A B : ℝ} (hA : 0 ≤ A) (hB : A ≤ B) (h0 : 0 ≤ P) (h1 : 0 ≤ P + B * Q) : 0 ≤ P + A * Q := by
  rcases le_total 0 Q with h | h
  · have := mul_nonneg hA h; linarith
  · have := mul_le_mul_of_nonpos_right hB h; linarith

theorem hermSlope_nonneg {a b p q m n t : ℝ} (hab : a < b) (h1 : a ≤ t) (h2 : t ≤ b) (hm : 0 ≤ m) (hn : 0 ≤ n)
    (hm' : m * (b - a) ≤ 3 * (q - p)) (hn' : n * (b - a) ≤ 3 * (q - p)) : 0 ≤ hermSlope a b p q m n t := by
  have hba : 0 < b - a := sub_pos.mpr hab
  have s0 : 0 ≤ (t - a) / (b - a) := div_nonneg (by linarith) hba.le
  have s1 : (t - a) / (b - a) ≤ 1 := by rw [div_le_one hba]; linarith
  simp only [hermSlope]
  set s := (t - a) / (b - a)
  refine div_nonneg ?_ hba.le
  set A := m * (b - a) with hA
  set B := n * (b - a) with hB
  have A0 : 0 ≤ A := mul_nonneg hm hba.le
  have B0 : 0 ≤ B := mul_nonneg hn hba.le
  have D0 : 0 ≤ q - p := by linarith
  have key : 0 ≤ ((q - p) * (6 * s - 6 * s ^ 2) + A * (3 * s ^ 2 - 4 * s + 1)) + B * (3 * s ^ 2 - 2 * s) := by
    have e1 : 0 ≤ (q - p) * (6 * s - 6 * s ^ 2) := mul_nonneg D0 (by nlinarith)
    refine affine_nonneg B0 hn' ?_ ?_
    · refine affine_nonneg A0 hm' e1 ?_
      have : 0 ≤ (q - p) * (3 * (1 - s) ^ 2) := mul_nonneg D0 (by positivity)
      linarith
    · have : 0 ≤ ((q - p) * (6 * s - 6 * s ^ 2) + 3 * (q - p) * (3 * s ^ 2 - 2 * s)) + A * (3 * s ^ 2 - 4 * s + 1) := by
        refine affine_nonneg A0 hm' ?_ ?_
        · have : 0 ≤ (q - p) * (3 * s ^ 2) := mul_nonneg D0 (by positivity)
          linarith
        · have : 0 ≤ (q - p) * (3 * (2 * s - 1) ^ 2) := mul_nonneg D0 (by positivity)
          linarith
      linarith
  linarith

/-- C101. If the tangents are nonnegative and at most three times the slopes of the chords on both sides, the interpolant is
nondecreasing, on the whole line. -/
theorem C101_hermite_monotone (h : HermiteData x y yp) (out : Option (NdArray ℝ)) (hp : ∀ m ∈ yp, 0 ≤ m)
    (hm : ∀ j (hj : j + 1 < x.length),
      yp[j]'(by rw [h.tangents]; omega) * (x[j + 1] - x[j]) ≤ 3 * (y[j + 1]'(by rw [h.values]; omega) - y[j]'(by rw [h.values]; omega)) ∧
      yp[j + 1]'(by rw [h.tangents]; omega) * (x[j + 1] - x[j])
        ≤ 3 * (y[j + 1]'(by rw [h.values]; omega) - y[j]'(by rw [h.values]; omega))) :
    ∃ H : ℝ → ℝ, (∀ t, hermite (.scalar t) x y yp out = .ok (.scalar (H t))) ∧ Monotone H := by
  have h2 := h.two
  obtain ⟨H, H', h1, hc, hC, hcell, hl, hr⟩ := hermite_cells h
  refine ⟨H, fun t => by simp only [hermite, h1, ok_bind, pure_eq_ok], ?_⟩
  have hx01 := x_lt h (i := 0) (j := x.length - 1) (by omega) (by omega)
  set a := x.getD 0 0
  set b := x.getD (x.length - 1) 0
  have hpos : ∀ t ∈ Icc a b, 0 ≤ H' t := by
    intro t ht
    obtain ⟨j, hj, h3, h4⟩ := exists_cell h ht.1 ht.2
    rw [(hcell j hj t h3 h4).2, cellSlope]
    obtain ⟨h5, h6⟩ := hm j hj
    rw [← getD_of_lt x j (by omega), ← getD_of_lt x (j + 1) hj, ← getD_of_lt y j (by rw [h.values]; omega),
      ← getD_of_lt y (j + 1) (by rw [h.values]; omega)] at h5 h6
    rw [← getD_of_lt yp j (by rw [h.tangents]; omega)] at h5
    rw [← getD_of_lt yp (j + 1) (by rw [h.tangents]; omega)] at h6
    have hq : ∀ i, i < x.length → 0 ≤ yp.getD i 0 := by
      intro i hi
      rw [getD_of_lt yp i (by rw [h.tangents]; exact hi)]
      exact hp _ (List.getElem_mem _)
    exact hermSlope_nonneg (x_lt h (by omega) hj) h3 h4 (hq j (by omega)) (hq (j + 1) hj) h5 h6
  have hmono : MonotoneOn H (Icc a b) := by
    refine monotoneOn_of_deriv_nonneg (convex_Icc a b) hc.continuousOn ?_ ?_
    · intro t ht
      rw [interior_Icc] at ht ⊢
      exact ((hC.first t (Ioo_subset_Icc_self ht)).hasDerivAt (Icc_mem_nhds ht.1 ht.2)).differentiableAt.differentiableWithinAt
    · intro t ht
      rw [interior_Icc] at ht
      rw [((hC.first t (Ioo_subset_Icc_self ht)).hasDerivAt (Icc_mem_nhds ht.1 ht.2)).deriv]
      exact hpos t (Ioo_subset_Icc_self ht)
  have hclamp : ∀ t, H t = H (max a (min t b)) := by
    intro t
    rcases le_total t a with h3 | h3
    · rw [min_eq_left (h3.trans hx01.le), max_eq_left h3, hl t h3, hl _ le_rfl]
    · rcases le_total b t with h4 | h4
      · rw [min_eq_right h4, max_eq_right hx01.le, hr t h4, hr _ le_rfl]
      · rw [min_eq_left h4, max_eq_right h3]
  intro s t hst
  rw [hclamp s, hclamp t]
  exact hmono ⟨le_max_left _ _, max_le hx01.le (min_le_right _ _)⟩ ⟨le_max_left _ _, max_le hx01.le (min_le_right _ _)⟩
    (max_le_max le_rfl (min_le_min hst le_rfl))

/-! ### Concrete cases -/

/-- Three increasing values on a nonuniform grid, with admissible tangents. -/
example : ∃ H : ℝ → ℝ, (∀ t, hermite (.scalar t) [0, 1, 3] [0, 1, 2] [3, 1, 0] none = .ok (.scalar (H t))) ∧ Monotone H := by
  refine C101_hermite_monotone (x := [0, 1, 3]) (y := [0, 1, 2]) (yp := [3, 1, 0]) ⟨by simp, by norm_num, rfl, rfl⟩ none (by simp) ?_
  intro j hj
  have : j < 2 := Nat.lt_of_succ_lt_succ hj
  interval_cases j <;> norm_num

/-- The quartic `t ^ 4` between 0 and 1 with one more abscissa: the error is at most 1/256. -/
example (t : ℝ) (ht : t ∈ Icc (0 : ℝ) 1) :
    ∃ v, hermite (.scalar t) [0, 1 / 2, 1] [0, 1 / 16, 1] [0, 1 / 2, 4] none = .ok (.scalar v) ∧ |v - t ^ 4| ≤ 1 / 256 := by
  have hf := four_quartic 0 1 0 0 0 0 1
  obtain ⟨v, h1, h2⟩ := C100_hermite_error (x := [0, 1 / 2, 1]) (y := [0, 1 / 16, 1]) (yp := [0, 1 / 2, 4]) (δ := 1 / 2) (M := 24)
    ⟨by simp, by norm_num, rfl, rfl⟩ none rfl rfl hf (by norm_num) (by norm_num) (by norm_num)
    (by intro j hj
        have : j < 2 := Nat.lt_of_succ_lt_succ hj
        interval_cases j <;> norm_num) t ht
  refine ⟨v, h1, ?_⟩
  norm_num at h2 ⊢
  exact h2

end Interp.Props
