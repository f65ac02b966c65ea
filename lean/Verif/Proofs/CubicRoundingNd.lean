import Verif.Proofs.CubicRounding
import Verif.Proofs.FilterExact

/-! Rounding errors of the evaluation of cubic splines: one axis, then several. -/

set_option linter.unusedSectionVars false
set_option linter.unusedSimpArgs false

namespace Interp.Spec
open Interp.Codegen

/-- Bound of the relative error made along one axis by the evaluation of cubic splines: `90 n u` for
`n` nodes. -/
noncomputable def cubicErr (R : Rounding) (g : GridDim ℝ) : ℝ := 90 * (nNodes g : ℝ) * R.u

end Interp.Spec

namespace Interp.Codegen
open Interp.Ref Interp.Spec Interp.Filter

section
variable {a b : ℝ} {n : ℤ}

/-- The slope of a cubic spline. -/
theorem axisOp_three_slope (h : ValidAxis (.uniform a b n)) (t : ℝ) {c : ℕ → ℝ} {M : ℝ}
    (hc : ∀ j < nCoef 3 (.uniform a b n), |c j| ≤ M) :
    |axisOp 3 1 (.uniform a b n) t c| ≤ 2 * M * (((n : ℝ) - 1) / (b - a)) := by
  obtain ⟨hn, hb⟩ := uniform_pos h
  have hcell := cell_bounds (.uniform a b n) (by rw [size_eq]; exact ValidAxis.two_le h) t
  have hin := (inCell_cell h t).1
  have hd : 0 ≤ ((n : ℝ) - 1) / (b - a) := (div_pos hn hb).le
  rw [axisOp_three 1 a b n t _ _ (Int.toNat_of_nonneg hcell.1).symm, (three_ops _ _ _ _ _ _).2,
    abs_mul, abs_of_nonneg hd]
  refine mul_le_mul_of_nonneg_right ?_ hd
  have hN : nCoef 3 (.uniform a b n) = nNodes (.uniform a b n) + 2 := rfl
  set j := (cell (.uniform a b n) t).toNat
  have c0 := abs_le.1 (hc j (by omega))
  have c1 := abs_le.1 (hc (j + 1) (by omega))
  have c2 := abs_le.1 (hc (j + 2) (by omega))
  have c3 := abs_le.1 (hc (j + 3) (by omega))
  have b0 := hc j (by omega)
  have b1 := hc (j + 1) (by omega)
  have b2 := hc (j + 2) (by omega)
  have b3 := hc (j + 3) (by omega)
  have hM : 0 ≤ M := (abs_nonneg _).trans b0
  set s := upos a b n t - (j : ℝ)
  split_ifs with h1 h2
  · rw [abs_le]; constructor <;> linarith [c0.1, c0.2, c2.1, c2.2]
  · rw [abs_le]; constructor <;> linarith [c1.1, c1.2, c3.1, c3.2]
  · have h1 := not_lt.1 h1
    have h2 := not_lt.1 h2
    have w0 : |-(1 - s) ^ 2 / 2| ≤ (1 - s) / 2 := by rw [abs_le]; constructor <;> nlinarith
    have w1 : |(3 * s ^ 2 - 4 * s) / 2| ≤ 2 / 3 := by
      rw [abs_le]; constructor <;> nlinarith [sq_nonneg (3 * s - 2)]
    have w2 : |(-3 * s ^ 2 + 2 * s + 1) / 2| ≤ 2 / 3 := by
      rw [abs_le]; constructor <;> nlinarith [sq_nonneg (3 * s - 1)]
    have w3 : |s ^ 2 / 2| ≤ s / 2 := by rw [abs_le]; constructor <;> nlinarith
    have m0 := mul_le_mul w0 b0 (abs_nonneg _) (by linarith)
    have m1 := mul_le_mul w1 b1 (abs_nonneg _) (by norm_num)
    have m2 := mul_le_mul w2 b2 (abs_nonneg _) (by norm_num)
    have m3 := mul_le_mul w3 b3 (abs_nonneg _) (by linarith)
    rw [← abs_mul] at m0 m1 m2 m3
    refine (abs_add_le _ _).trans ?_
    refine (add_le_add (abs_add_le _ _) le_rfl).trans ?_
    refine (add_le_add (add_le_add (abs_add_le _ _) le_rfl) le_rfl).trans ?_
    nlinarith

theorem axisOp_three_lip (h : ValidAxis (.uniform a b n)) (x y : ℝ) {c : ℕ → ℝ} {M : ℝ}
    (hc : ∀ j < nCoef 3 (.uniform a b n), |c j| ≤ M) :
    |axisOp 3 0 (.uniform a b n) y c - axisOp 3 0 (.uniform a b n) x c|
      ≤ 2 * M * (((n : ℝ) - 1) / (b - a)) * |y - x| := by
  have := Convex.norm_image_sub_le_of_norm_hasDerivWithin_le (s := Set.univ) (x := x) (y := y)
    (f := fun t => axisOp 3 0 (.uniform a b n) t c) (f' := fun t => axisOp 3 1 (.uniform a b n) t c)
    (C := 2 * M * (((n : ℝ) - 1) / (b - a)))
    (fun t _ => (hasDerivAt_axisOp_three h c t).hasDerivWithinAt)
    (fun t _ => axisOp_three_slope h t hc) convex_univ trivial trivial
  simpa [Real.norm_eq_abs] using this

/-- On the axis the weights are nonnegative with sum one. -/
theorem axisOp_three_abs (h : ValidAxis (.uniform a b n)) {x : ℝ} (h1 : a ≤ x) (h2 : x ≤ b)
    {c : ℕ → ℝ} {M : ℝ} (hc : ∀ j < nCoef 3 (.uniform a b n), |c j| ≤ M) :
    |axisOp 3 0 (.uniform a b n) x c| ≤ M := by
  set c' : ℕ → ℝ := fun j => if j < nCoef 3 (.uniform a b n) then c j else 0 with hc'
  have e : axisOp 3 0 (.uniform a b n) x c = axisOp 3 0 (.uniform a b n) x c' :=
    axisOp_congr 3 0 (Or.inr rfl) h x fun j hj => by rw [hc']; simp [hj]
  have hN : 0 < nCoef 3 (.uniform a b n) := Nat.lt_of_lt_of_le (by norm_num) (Nat.le_add_left 2 _)
  have hM : 0 ≤ M := (abs_nonneg _).trans (hc 0 hN)
  have hb : ∀ j, |c' j| ≤ M := fun j => by
    by_cases hj : j < nCoef 3 (.uniform a b n)
    · simp only [hc', hj, if_true]; exact hc j hj
    · simp only [hc', hj, if_false, abs_zero]; exact hM
  have p := axisOp_three_nonneg h h1 h2 (c := fun j => M + (-1) * c' j)
    (fun j => by have := (abs_le.1 (hb j)).2; linarith)
  have q := axisOp_three_nonneg h h1 h2 (c := fun j => M + 1 * c' j)
    (fun j => by have := (abs_le.1 (hb j)).1; linarith)
  have lin : ∀ r : ℝ, axisOp 3 0 (.uniform a b n) x (fun j => M + r * c' j)
      = M + r * axisOp 3 0 (.uniform a b n) x c' := fun r => by
    have := axisOp_lin 3 0 (.uniform a b n) x (fun _ => M) c' 1 r
    rw [axisOp_three_const h] at this
    simpa using this
  rw [lin] at p q
  rw [e, abs_le]
  constructor <;> linarith

end

theorem plain3_cons (g : GridDim ℝ) (G : List (GridDim ℝ)) (x : ℝ) (xs : List ℝ) (c : List ℕ → ℝ) :
    plain 3 (g :: G) (x :: xs) c = axisOp 3 0 g x (fun j => plain 3 G xs (fun r => c (j :: r))) := by
  simp only [plain, List.length_cons, List.replicate_succ]
  rw [evalAt_cons]

theorem plain3_abs_le : ∀ (G : List (GridDim ℝ)) (x : List ℝ) (c : List ℕ → ℝ) (M : ℝ),
    (∀ g ∈ G, ValidAxis g) → (∀ g ∈ G, g.gtype = .uniform) → InBox G x →
    (∀ idx, InShape (coefShape 3 G) idx → |c idx| ≤ M) → |plain 3 G x c| ≤ M
  | [], x, c, M, _, _, _, hc => by rw [plain_nil]; exact hc [] trivial
  | g :: G, [], c, M, _, _, hx, _ => by cases hx
  | g :: G, x :: xs, c, M, hG, hu, hx, hc => by
    cases hx with
    | cons hx1 hx2 =>
    rw [plain3_cons]
    have hg := hG g (by simp)
    have hgu := hu g (by simp)
    cases g with
    | array gc => simp [GridDim.gtype] at hgu
    | uniform a b n =>
      refine axisOp_three_abs hg ?_ ?_ fun j hj => plain3_abs_le G xs _ M
        (fun g' h' => hG g' (by simp [h'])) (fun g' h' => hu g' (by simp [h'])) hx2
        fun idx hidx => hc (j :: idx) ⟨hj, hidx⟩
      · have := hx1.1
        rwa [← lo_eq] at this
      · have := hx1.2
        rwa [← hi_eq hg] at this

variable {R : Rounding}

/-- The product of the error factors of the axes. -/
noncomputable def errFactor3 (R : Rounding) (G : List (GridDim (Fl R))) : ℝ :=
  (G.map fun g => 1 + cubicErr R (exactAxis g)).prod

theorem cubicErr_nonneg (g : GridDim ℝ) : 0 ≤ cubicErr R g := by
  have := Rounding.u_nonneg R
  unfold cubicErr; positivity

theorem errFactor3_one_le : ∀ (G : List (GridDim (Fl R))), 1 ≤ errFactor3 R G
  | [] => by simp [errFactor3]
  | g :: G => by
    have h1 := errFactor3_one_le G
    have h2 := cubicErr_nonneg (R := R) (exactAxis g)
    simp only [errFactor3, List.map_cons, List.prod_cons] at h1 ⊢
    nlinarith

theorem plain3_rounding : ∀ (G : List (GridDim (Fl R))) (x : List (Fl R)) (c : List ℕ → Fl R) (M : ℝ),
    (∀ g ∈ G, ValidAxis (exactAxis g)) → (∀ g ∈ G, (exactAxis g).gtype = .uniform) →
    (∀ g ∈ G, cubicErr R (exactAxis g) ≤ 1 / 2) →
    InBox (G.map exactAxis) (x.map Fl.val) →
    (∀ idx, InShape (coefShape 3 (G.map exactAxis)) idx → |(c idx).val| ≤ M) →
    |(evalAt 3 G (List.replicate G.length 0) x c).val
      - plain 3 (G.map exactAxis) (x.map Fl.val) (fun r => (c r).val)| ≤ (errFactor3 R G - 1) * M
  | [], x, c, M, _, _, _, _, _ => by
    rw [List.map_nil, plain_nil]
    simp [evalAt, errFactor3]
  | g :: G, [], c, M, _, _, _, hx, _ => by cases hx
  | g :: G, x :: xs, c, M, hg, hun, hs, hx, hc => by
    simp only [List.map_cons] at hx
    cases hx with
    | cons hx1 hx2 =>
    have hu0 := Rounding.u_nonneg R
    have hgv := hg g (by simp)
    have hgu := hun g (by simp)
    have hG' : ∀ g' ∈ G, ValidAxis (exactAxis g') := fun g' hg' => hg g' (by simp [hg'])
    have hU' : ∀ g' ∈ G, (exactAxis g').gtype = .uniform := fun g' hg' => hun g' (by simp [hg'])
    have hGe : ∀ g' ∈ G.map exactAxis, ValidAxis g' := by
      intro g' hg'
      obtain ⟨g'', h1, rfl⟩ := List.mem_map.1 hg'
      exact hG' g'' h1
    have hUe : ∀ g' ∈ G.map exactAxis, g'.gtype = .uniform := by
      intro g' hg'
      obtain ⟨g'', h1, rfl⟩ := List.mem_map.1 hg'
      exact hU' g'' h1
    have hsm := hs g (by simp)
    cases g with
    | array gc => simp [exactAxis, GridDim.gtype] at hgu
    | uniform a b n =>
    obtain ⟨hn, hb⟩ := uniform_pos (show ValidAxis (.uniform a.val b.val n) from hgv)
    have hn2 : (2 : ℝ) ≤ n := by linarith [show (2 : ℝ) ≤ n from by exact_mod_cast hgv.2]
    have hnn : ((nNodes (exactAxis (.uniform a b n)) : ℕ) : ℝ) = n := by
      show ((n.toNat : ℕ) : ℝ) = n
      rw [← Int.cast_natCast, Int.toNat_of_nonneg (by have : 2 ≤ n := hgv.2; omega)]
    have hce : cubicErr R (exactAxis (.uniform a b n)) = 90 * (n : ℝ) * R.u := by
      rw [cubicErr, hnn]
    rw [hce] at hsm
    have hu : R.u ≤ 1 / 360 := by nlinarith
    set P := errFactor3 R G with hP
    have hP1 : 1 ≤ P := errFactor3_one_le G
    set hat : ℕ → ℝ := fun j =>
      (evalAt 3 G (List.replicate G.length 0) xs (fun r => c (j :: r))).val with hhat
    set ex : ℕ → ℝ := fun j =>
      plain 3 (G.map exactAxis) (xs.map Fl.val) (fun r => (c (j :: r)).val) with hex
    set g' : GridDim ℝ := .uniform a.val b.val n with hg'
    have hN : nCoef 3 g' = nNodes g' + 2 := rfl
    have ih : ∀ j < nCoef 3 g', |hat j - ex j| ≤ (P - 1) * M := fun j hj =>
      plain3_rounding G xs (fun r => c (j :: r)) M hG' hU' (fun g' hg' => hs g' (by simp [hg'])) hx2
        (fun idx hidx => hc (j :: idx) ⟨hj, hidx⟩)
    have hexb : ∀ j < nCoef 3 g', |ex j| ≤ M := fun j hj =>
      plain3_abs_le _ _ _ M hGe hUe hx2 fun idx hidx => hc (j :: idx) ⟨hj, hidx⟩
    have hM : 0 ≤ M := (abs_nonneg _).trans (hexb 0 (by omega))
    have hhb : ∀ j < nCoef 3 g', |hat j| ≤ P * M := fun j hj => by
      have := abs_sub_abs_le_abs_sub (hat j) (ex j)
      have := ih j hj
      have := hexb j hj
      linarith
    obtain ⟨y, hcell, hlam, hm0, hm1, hyx⟩ := uniform_near a b n x hgv (by nlinarith) hx1.1 hx1.2
    have hgv' : ValidAxis g' := hgv
    have hci := (inCell_cell hgv' y).1
    have hcb := cell_bounds g' (by rw [size_eq]; exact ValidAxis.two_le hgv') y
    set J := (cell g' y).toNat with hJ
    have hJx : (cell (.uniform a b n) x).toNat = J := by rw [hcell]
    set W : ℕ → ℝ := blend3Vals 0 (lam g' y) (((n : ℝ) - 1) / (b.val - a.val)) with hW
    set w : ℕ → ℝ := fun j => (blend3Vals 0 (lam (.uniform a b n) x) (delta (.uniform a b n) x) j).val
      with hw
    have e1 : (evalAt 3 (GridDim.uniform a b n :: G) (List.replicate (GridDim.uniform a b n :: G).length 0) (x :: xs) c).val
        = R.rnd (R.rnd (R.rnd (R.rnd (w 0 * hat (J + 0)) + R.rnd (w 1 * hat (J + 1)))
          + R.rnd (w 2 * hat (J + 2))) + R.rnd (w 3 * hat (J + 3))) := by
      simp only [List.length_cons, List.replicate_succ, evalAt, hJx]
      rfl
    have e2 : plain 3 ((GridDim.uniform a b n :: G).map exactAxis) ((x :: xs).map Fl.val) (fun r => (c r).val)
        = axisOp 3 0 g' x.val ex := by
      rw [List.map_cons, List.map_cons, plain3_cons]
      rfl
    rw [e1, e2]
    have s1 := four_close R hu (W := W) (w := w) (h := fun j => hat (J + j)) (M := P * M)
      (fun j _ => weight_close hu _ _ _ _ j hm0 hm1 hlam)
      (fun j hj => blend_abs _ hj hm0 hm1) (fun j hj => hhb _ (by omega))
    have e3 : axisOp 3 0 g' y hat = W 0 * hat (J + 0) + W 1 * hat (J + 1) + W 2 * hat (J + 2)
        + W 3 * hat (J + 3) := by
      rw [axisOp_three 0 a.val b.val n y hat J (Int.toNat_of_nonneg hcb.1).symm]
      have : lam g' y = upos a.val b.val n y - (J : ℝ) := by
        have h3 : ((cell g' y : ℤ) : ℝ) = ((J : ℕ) : ℝ) := by
          rw [← Int.cast_natCast, Int.toNat_of_nonneg hcb.1]
        simp only [hg', lam, upos] at h3 ⊢
        rw [h3]
      rw [hW, this]
      rfl
    rw [← e3] at s1
    have s2 := axisOp_three_lip hgv' x.val y hhb
    have s2' : |axisOp 3 0 g' y hat - axisOp 3 0 g' x.val hat| ≤ 12 * R.u * ((n : ℝ) - 1) * (P * M) := by
      refine s2.trans ?_
      have hP0 : 0 ≤ 2 * (P * M) * (((n : ℝ) - 1) / (b.val - a.val)) := by
        have := (div_pos hn hb).le
        have : 0 ≤ P * M := mul_nonneg (by linarith) hM
        positivity
      refine (mul_le_mul_of_nonneg_left hyx hP0).trans (le_of_eq ?_)
      field_simp
      ring
    have s3 : |axisOp 3 0 g' x.val hat - axisOp 3 0 g' x.val ex| ≤ (P - 1) * M := by
      have hl := axisOp_lin 3 0 g' x.val hat ex 1 (-1)
      have e5 : axisOp 3 0 g' x.val hat - axisOp 3 0 g' x.val ex
          = axisOp 3 0 g' x.val (fun j => 1 * hat j + -1 * ex j) := by rw [hl]; ring
      rw [e5]
      refine axisOp_three_abs hgv' ?_ ?_ fun j hj => ?_
      · have := hx1.1
        rw [← lo_eq] at this
        exact this
      · have := hx1.2
        rw [← hi_eq hgv] at this
        exact this
      · have := ih j hj
        rwa [show 1 * hat j + -1 * ex j = hat j - ex j by ring]
    have e4 : errFactor3 R (GridDim.uniform a b n :: G) = (1 + 90 * (n : ℝ) * R.u) * P := by
      rw [hP, ← hce]; simp [errFactor3]
    rw [e4]
    set v := R.rnd (R.rnd (R.rnd (R.rnd (w 0 * hat (J + 0)) + R.rnd (w 1 * hat (J + 1)))
          + R.rnd (w 2 * hat (J + 2))) + R.rnd (w 3 * hat (J + 3)))
    have t1 := abs_sub_le v (axisOp 3 0 g' y hat) (axisOp 3 0 g' x.val ex)
    have t2 := abs_sub_le (axisOp 3 0 g' y hat) (axisOp 3 0 g' x.val hat) (axisOp 3 0 g' x.val ex)
    have hk : 165 * R.u + 12 * R.u * ((n : ℝ) - 1) ≤ 90 * (n : ℝ) * R.u := by nlinarith
    have hk2 := mul_le_mul_of_nonneg_right hk (mul_nonneg (show 0 ≤ P by linarith) hM)
    linarith

end Interp.Codegen
