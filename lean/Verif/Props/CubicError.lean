import Verif.Proofs.CubicError
import Verif.Props.LinearError
import Verif.Props.CubicFilter
import Mathlib.Analysis.Calculus.Deriv.Shift
import Mathlib.Analysis.Calculus.Deriv.Add
import Mathlib.Analysis.SpecialFunctions.Trigonometric.Basic

/-!
# Stability and error of filtered cubic splines: C87, C88, C89, C90
-/

set_option linter.unusedSectionVars false

namespace Interp.Props
open Interp.Codegen Interp.Spec Interp.Ref Interp.Filter Interp.FilterRef

section
variable {F : Type} [Field F] [LinearOrder F] [IsStrictOrderedRing F] [FloorRing F]
  {G : List (GridDim F)} {D D' C C' : NdArray F} {vec : Bool} {m : ℕ}

/-- What evaluating the filtered spline in the box returns. -/
theorem returns_spl (h : FilterRequest G D vec m) (hC : FilterOutcome G D vec m C) (mode : String)
    (x : List F) (hx : InBox G x) :
    Returns 3 G C vec m none mode x (fun tail => spl G (fun idx => D.get (idx ++ tail)) x) := by
  obtain ⟨hs, hv⟩ := filterOutcome_spec h hC
  have hxl : x.length = G.length := hx.length_eq.symm
  refine ((h.request hs).good.returns mode x hxl).congr fun tail ht => ?_
  have ht' : InShape (if vec then [m] else []) tail := by simpa [tailShape] using ht
  rw [rowEntry_plain 3 _ G C vec m _ tail ht, evalMode_inBox 3 mode G _ _ _ h.grid.2 hx,
    h.eval_eq hv _ _ tail (by simp) hxl ht']
  rfl

/-- C87. Changing the data by at most `ε` at the nodes changes the filtered spline by at most
`(5/2)^d ε` everywhere in the box of the grid. The constant depends neither on the number of nodes nor on
the spacing. -/
theorem C87_cubic_stability (h : FilterRequest G D vec m) (hC : FilterOutcome G D vec m C)
    (h' : FilterRequest G D' vec m) (hC' : FilterOutcome G D' vec m C') (ε : F)
    (hε : ∀ idx tail, InShape (gridShape G) idx → InShape (tailShape vec m none) tail →
      |D.get (idx ++ tail) - D'.get (idx ++ tail)| ≤ ε)
    (mode : String) (x : List F) (hx : InBox G x) :
    ∃ E E', Returns 3 G C vec m none mode x E ∧ Returns 3 G C' vec m none mode x E' ∧
      ∀ tail, InShape (tailShape vec m none) tail → |E tail - E' tail| ≤ (5 / 2) ^ G.length * ε := by
  refine ⟨_, _, returns_spl h hC mode x hx, returns_spl h' hC' mode x hx, fun tail ht => ?_⟩
  have e : spl G (fun idx => D.get (idx ++ tail)) x - spl G (fun idx => D'.get (idx ++ tail)) x
      = spl G (fun idx => 1 * D.get (idx ++ tail) + (-1) * D'.get (idx ++ tail)) x := by
    rw [spl_linear h.grid.2 h.uniform _ _ _ _ hx.length_eq.symm]; ring
  rw [e]
  refine spl_le G _ x ε h.grid.2 h.uniform hx fun idx hi => ?_
  rw [show (1 : F) * D.get (idx ++ tail) + (-1) * D'.get (idx ++ tail)
    = D.get (idx ++ tail) - D'.get (idx ++ tail) by ring]
  exact hε idx tail hi ht

/-- C87, bound. Data bounded by `B` give a spline bounded by `(5/2)^d B` in the box. -/
theorem C87_cubic_bound (h : FilterRequest G D vec m) (hC : FilterOutcome G D vec m C) (B : F)
    (hB : ∀ idx tail, InShape (gridShape G) idx → InShape (tailShape vec m none) tail →
      |D.get (idx ++ tail)| ≤ B) (mode : String) (x : List F) (hx : InBox G x) :
    ∃ E, Returns 3 G C vec m none mode x E ∧
      ∀ tail, InShape (tailShape vec m none) tail → |E tail| ≤ (5 / 2) ^ G.length * B :=
  ⟨_, returns_spl h hC mode x hx, fun tail ht =>
    spl_le G _ x B h.grid.2 h.uniform hx fun idx hi => hB idx tail hi ht⟩

/-- The error is controlled axis by axis; the errors on one axis may depend on the coordinate. -/
theorem cubic_error_axes_at (h : FilterRequest G D vec m) (hC : FilterOutcome G D vec m C)
    (f : List ℕ → List F → F) (hD : Samples G D vec m f) (e : ℕ → F)
    (mode : String) (x : List F) (hx : InBox G x)
    (he : ∀ tail (i : ℕ) (g : GridDim F) (t : F), InShape (tailShape vec m none) tail → G[i]? = some g →
      x[i]? = some t → first g ≤ t → t ≤ last g → ∀ y, InBox G y →
      |cub g t (fun j => f tail (y.set i (node g j))) - f tail (y.set i t)| ≤ e i) :
    ∃ E, Returns 3 G C vec m none mode x E ∧ ∀ tail, InShape (tailShape vec m none) tail →
      |E tail - f tail x| ≤ ∑ i ∈ Finset.range G.length, (5 / 2) ^ i * e i := by
  refine ⟨_, returns_spl h hC mode x hx, fun tail ht => ?_⟩
  rw [spl_congr h.grid.2 h.uniform hx (D' := fun idx => f tail (nodeAt G idx))
    (fun idx hi => hD idx tail hi ht)]
  exact spl_error G x (f tail) e h.grid.2 h.uniform hx fun i g t hg hxt h1 h2 y hy =>
    he tail i g t ht hg hxt h1 h2 y hy

/-- The error is controlled axis by axis. -/
theorem cubic_error_axes (h : FilterRequest G D vec m) (hC : FilterOutcome G D vec m C)
    (f : List ℕ → List F → F) (hD : Samples G D vec m f) (e : ℕ → F)
    (mode : String) (x : List F) (hx : InBox G x)
    (he : ∀ tail i g, InShape (tailShape vec m none) tail → G[i]? = some g → ∀ y t, InBox G y →
      first g ≤ t → t ≤ last g →
      |cub g t (fun j => f tail (y.set i (node g j))) - f tail (y.set i t)| ≤ e i) :
    ∃ E, Returns 3 G C vec m none mode x E ∧ ∀ tail, InShape (tailShape vec m none) tail →
      |E tail - f tail x| ≤ ∑ i ∈ Finset.range G.length, (5 / 2) ^ i * e i :=
  cubic_error_axes_at h hC f hD e mode x hx fun tail i g t ht hg _ h1 h2 y hy =>
    he tail i g ht hg y t hy h1 h2

/-- C88, Lipschitz functions. -/
theorem C88_cubic_error_lipschitz (h : FilterRequest G D vec m) (hC : FilterOutcome G D vec m C)
    (f : List ℕ → List F → F) (hD : Samples G D vec m f) (L H : ℕ → F)
    (hH : ∀ i g, G[i]? = some g → MeshLe g (H i))
    (hL : ∀ tail i g, InShape (tailShape vec m none) tail → G[i]? = some g → ∀ y s t, InBox G y →
      first g ≤ s → s ≤ last g → first g ≤ t → t ≤ last g →
      |f tail (y.set i s) - f tail (y.set i t)| ≤ L i * |s - t|)
    (mode : String) (x : List F) (hx : InBox G x) :
    ∃ E, Returns 3 G C vec m none mode x E ∧ ∀ tail, InShape (tailShape vec m none) tail →
      |E tail - f tail x| ≤ ∑ i ∈ Finset.range G.length, (5 / 2) ^ i * (5 / 4 * (L i * H i)) :=
  cubic_error_axes h hC f hD _ mode x hx fun tail i g ht hg y t hy h1 h2 =>
    cub_error_lipschitz (h.grid.2 g (List.mem_of_getElem? hg)) (h.uniform g (List.mem_of_getElem? hg))
      h1 h2 (fun t => f tail (y.set i t)) (L i) (H i) (hH i g hg)
      (fun s t a1 a2 a3 a4 => hL tail i g ht hg y s t hy a1 a2 a3 a4)

end

section
variable {G : List (GridDim ℝ)} {D C : NdArray ℝ} {vec : Bool} {m : ℕ}

/-- C88. If along axis `i` the second derivative of `f` is bounded by `M i` and the spacing is at most
`H i`, the error of the filtered spline in the box of the grid is at most
`∑ (5/2)^i M i (H i)² / 2`. -/
theorem C88_cubic_error_smooth (h : FilterRequest G D vec m) (hC : FilterOutcome G D vec m C)
    (f : List ℕ → List ℝ → ℝ) (hD : Samples G D vec m f) (M H : ℕ → ℝ)
    (hH : ∀ i g, G[i]? = some g → MeshLe g (H i)) (hM : ∀ i, 0 ≤ M i)
    (hf : ∀ tail i g, InShape (tailShape vec m none) tail → G[i]? = some g → ∀ y, InBox G y →
      SecondDerivLe (fun t => f tail (y.set i t)) (first g) (last g) (M i))
    (mode : String) (x : List ℝ) (hx : InBox G x) :
    ∃ E, Returns 3 G C vec m none mode x E ∧ ∀ tail, InShape (tailShape vec m none) tail →
      |E tail - f tail x| ≤ ∑ i ∈ Finset.range G.length, (5 / 2) ^ i * (M i * H i ^ 2 / 2) :=
  cubic_error_axes h hC f hD _ mode x hx fun tail i g ht hg y t hy h1 h2 =>
    cub_error_convex (h.grid.2 g (List.mem_of_getElem? hg)) (h.uniform g (List.mem_of_getElem? hg))
      h1 h2 (fun t => f tail (y.set i t)) (M i) (H i) (hM i) (hH i g hg)
      (fun s t r a1 a2 a3 a4 a5 a6 => (hf tail i g ht hg y hy).jensen ⟨a1, a2⟩ ⟨a3, a4⟩ a5 a6)

/-- C89. Filtered splines of a continuous function converge to it uniformly when the grid is refined. -/
theorem C89_cubic_convergence {d : ℕ} (a b : Fin d → ℝ) (f : (Fin d → ℝ) → ℝ)
    (hf : ContinuousOn f (Set.Icc a b)) (ε : ℝ) (hε : 0 < ε) :
    ∃ δ > 0, ∀ (G : List (GridDim ℝ)) (D C : NdArray ℝ), FilterRequest G D false 0 →
      FilterOutcome G D false 0 C →
      G.length = d → (∀ i g, G[(i : Fin d).val]? = some g → first g = a i ∧ last g = b i ∧ MeshLe g δ) →
      Samples G D false 0 (fun _ y => f fun i => y.getD i 0) →
      ∀ (mode : String) (x : Fin d → ℝ), x ∈ Set.Icc a b →
        ∃ E, Returns 3 G C false 0 none mode (List.ofFn x) E ∧ |E [] - f x| ≤ ε := by
  have huc := isCompact_Icc.uniformContinuousOn_of_continuous hf
  rw [Metric.uniformContinuousOn_iff_le] at huc
  set S : ℝ := ∑ i ∈ Finset.range d, (5 / 2 : ℝ) ^ i
  have hS : 0 ≤ S := Finset.sum_nonneg fun i _ => by positivity
  obtain ⟨δ, hδ, hu⟩ := huc (ε / (7 / 4 * S + 1)) (by positivity)
  refine ⟨δ, hδ, fun G D C h hC hd hG hD mode x hx => ?_⟩
  subst hd
  have hx' : ∀ x : Fin G.length → ℝ, (fun i : Fin G.length => (List.ofFn x).getD i 0) = x := by
    intro x; funext i; simp
  have hbox : ∀ y : List ℝ, InBox G y ↔ y.length = G.length ∧
      (fun i : Fin G.length => y.getD i 0) ∈ Set.Icc a b := by
    intro y
    rw [InBox, List.forall₂_iff_get]
    constructor
    · rintro ⟨h1, h2⟩
      refine ⟨h1.symm, fun i => ?_, fun i => ?_⟩ <;>
      · have := h2 i i.2 (by omega)
        have e := hG i _ (List.getElem?_eq_getElem i.2)
        simp only [List.get_eq_getElem] at this
        simp only [List.getD_eq_getElem y 0 (show (i : ℕ) < y.length by omega)]
        linarith [e.1, e.2.1, this.1, this.2]
    · rintro ⟨h1, h2, h3⟩
      refine ⟨h1.symm, fun i hi1 hi2 => ?_⟩
      have e := hG ⟨i, hi1⟩ _ (List.getElem?_eq_getElem hi1)
      have a1 := h2 ⟨i, hi1⟩
      have a2 := h3 ⟨i, hi1⟩
      simp only [List.getD_eq_getElem y 0 (show i < y.length by omega)] at a1 a2
      simp only [List.get_eq_getElem]
      constructor <;> linarith [e.1, e.2.1]
  obtain ⟨E, h1, h2⟩ := cubic_error_axes h hC _ hD (fun _ => 7 / 4 * (ε / (7 / 4 * S + 1))) mode (List.ofFn x)
    ((hbox _).2 ⟨by simp, by rw [hx']; exact hx⟩)
    (by
      intro tail i g ht hg y t hy t1 t2
      have hi := (List.getElem?_eq_some_iff.1 hg).1
      refine cub_error_modulus (h.grid.2 g (List.mem_of_getElem? hg))
        (h.uniform g (List.mem_of_getElem? hg)) t1 t2
        (fun t => f fun k : Fin G.length => (y.set i t).getD k 0) (hG ⟨i, hi⟩ g hg).2.2 ?_
      intro s t s1 s2 t1 t2 hst
      have mem : ∀ s, first g ≤ s → s ≤ last g →
          (fun k : Fin G.length => (y.set i s).getD k 0) ∈ Set.Icc a b := fun s s1 s2 =>
        ((hbox _).1 (inBox_set G y i s hy fun g' hg' => by
          rw [hg] at hg'; injection hg' with e; subst e; exact ⟨s1, s2⟩)).2
      rw [← Real.dist_eq]
      apply hu _ (mem s s1 s2) _ (mem t t1 t2)
      rw [dist_pi_le_iff hδ.le]
      intro k
      rw [Real.dist_eq]
      have hyl := hy.length_eq
      by_cases hk : (k : ℕ) = i
      · rw [List.getD_eq_getElem _ _ (by rw [List.length_set, ← hyl]; exact k.2),
          List.getD_eq_getElem _ _ (by rw [List.length_set, ← hyl]; exact k.2)]
        simp only [hk, List.getElem_set_self]
        exact hst
      · rw [List.getD_eq_getElem _ _ (by rw [List.length_set, ← hyl]; exact k.2),
          List.getD_eq_getElem _ _ (by rw [List.length_set, ← hyl]; exact k.2),
          List.getElem_set_ne (by omega), List.getElem_set_ne (by omega), sub_self, abs_zero]
        exact hδ.le)
  refine ⟨E, h1, ?_⟩
  have := h2 [] trivial
  simp only [hx'] at this
  refine this.trans ?_
  rw [← Finset.sum_mul]
  show S * _ ≤ _
  have hp : 0 < 7 / 4 * S + 1 := by positivity
  rw [show S * (7 / 4 * (ε / (7 / 4 * S + 1))) = (7 / 4 * S) * ε / (7 / 4 * S + 1) by ring, div_le_iff₀ hp]
  nlinarith

/-! ### Fourth order -/

/-- `φ` has two derivatives in the interior of `[a, b]`; the second one extends continuously to the ends,
where it vanishes, and has itself a second derivative bounded by `M`. -/
def NaturalFourth (φ : ℝ → ℝ) (a b M : ℝ) : Prop :=
  ContinuousOn φ (Set.Icc a b) ∧ ∃ φ' φ'' : ℝ → ℝ,
    (∀ t ∈ Set.Ioo a b, HasDerivAt φ (φ' t) t ∧ HasDerivAt φ' (φ'' t) t) ∧
    SecondDerivLe φ'' a b M ∧ φ'' a = 0 ∧ φ'' b = 0

theorem SecondDerivLe.mono {φ : ℝ → ℝ} {a b M a' b' : ℝ} (h : SecondDerivLe φ a b M) (ha : a ≤ a')
    (hb : b' ≤ b) : SecondDerivLe φ a' b' M := by
  obtain ⟨hc, φ', φ'', hd⟩ := h
  exact ⟨hc.mono (Set.Icc_subset_Icc ha hb), φ', φ'', fun t ht => hd t (Set.Ioo_subset_Ioo ha hb ht)⟩

theorem SecondDerivLe.diff2 {φ : ℝ → ℝ} {a b M c u : ℝ} (h : SecondDerivLe φ a b M)
    (h1 : c - u ∈ Set.Icc a b) (h2 : c + u ∈ Set.Icc a b) :
    |φ (c - u) - 2 * φ c + φ (c + u)| ≤ M * u ^ 2 := by
  have := h.jensen h1 h2 (r := 1 / 2) (by norm_num) (by norm_num)
  rw [show (1 - 1 / 2) * (c - u) + 1 / 2 * (c + u) = c by ring,
    show (1 - 1 / 2) * (c - u) ^ 2 + 1 / 2 * (c + u) ^ 2 - c ^ 2 = u ^ 2 by ring] at this
  rw [abs_le] at this ⊢
  constructor <;> linarith [this.1, this.2]

/-- The second difference and the second derivative. -/
theorem diff2_deriv {φ φ' φ'' : ℝ → ℝ} {a b M c h : ℝ} (hc : ContinuousOn φ (Set.Icc a b))
    (hd : ∀ t ∈ Set.Ioo a b, HasDerivAt φ (φ' t) t ∧ HasDerivAt φ' (φ'' t) t)
    (h4 : SecondDerivLe φ'' a b M) (h0 : 0 < h) (h1 : a ≤ c - h) (h2 : c + h ≤ b) :
    |φ (c - h) - 2 * φ c + φ (c + h) - h ^ 2 * φ'' c| ≤ M * h ^ 4 / 12 := by
  have key : ∀ σ : ℝ, σ = 1 ∨ σ = -1 → ConvexOn ℝ (Set.Icc (-h) h)
      (fun u => M / 12 * u ^ 4 + σ * (φ (c + u) + φ (c - u) - φ'' c * u ^ 2)) := by
    intro σ hσ
    apply convexOn_of_hasDerivWithinAt2_nonneg (convex_Icc (-h) h)
      (f' := fun u => M / 3 * u ^ 3 + σ * (φ' (c + u) - φ' (c - u) - 2 * φ'' c * u))
      (f'' := fun u => M * u ^ 2 + σ * (φ'' (c + u) + φ'' (c - u) - 2 * φ'' c))
    · have k1 : ContinuousOn (fun u => φ (c + u)) (Set.Icc (-h) h) :=
        hc.comp (by fun_prop) fun u hu => ⟨by linarith [hu.1], by linarith [hu.2]⟩
      have k2 : ContinuousOn (fun u => φ (c - u)) (Set.Icc (-h) h) :=
        hc.comp (by fun_prop) fun u hu => ⟨by linarith [hu.2], by linarith [hu.1]⟩
      have k3 : ContinuousOn (fun u : ℝ => φ'' c * u ^ 2) (Set.Icc (-h) h) := by fun_prop
      have k4 : ContinuousOn (fun u : ℝ => M / 12 * u ^ 4) (Set.Icc (-h) h) := by fun_prop
      exact k4.add (continuousOn_const.mul ((k1.add k2).sub k3))
    · intro u hu
      rw [interior_Icc] at hu
      have d1 := (hd (c + u) ⟨by linarith [hu.1], by linarith [hu.2]⟩).1.comp_const_add c u
      have d2 := (hd (c - u) ⟨by linarith [hu.2], by linarith [hu.1]⟩).1.comp_const_sub c u
      have := (((hasDerivAt_pow 4 u).const_mul (M / 12)).add
        (((d1.add d2).sub ((hasDerivAt_pow 2 u).const_mul (φ'' c))).const_mul σ))
      refine (this.congr_deriv ?_).hasDerivWithinAt
      simp; ring
    · intro u hu
      rw [interior_Icc] at hu
      have d1 := (hd (c + u) ⟨by linarith [hu.1], by linarith [hu.2]⟩).2.comp_const_add c u
      have d2 := (hd (c - u) ⟨by linarith [hu.2], by linarith [hu.1]⟩).2.comp_const_sub c u
      have := (((hasDerivAt_pow 3 u).const_mul (M / 3)).add
        (((d1.sub d2).sub ((hasDerivAt_id u).const_mul (2 * φ'' c))).const_mul σ))
      refine (this.congr_deriv ?_).hasDerivWithinAt
      simp; ring
    · intro u hu
      rw [interior_Icc] at hu
      have := abs_le.1 (h4.diff2 (c := c) (u := u) ⟨by linarith [hu.2], by linarith [hu.1]⟩
        ⟨by linarith [hu.1], by linarith [hu.2]⟩)
      rcases hσ with rfl | rfl <;> linarith [this.1, this.2]
  have hm : -h ∈ Set.Icc (-h) h := ⟨le_refl _, by linarith⟩
  have hm' : h ∈ Set.Icc (-h) h := ⟨by linarith, le_refl _⟩
  have k1 := (key 1 (Or.inl rfl)).2 hm hm' (by norm_num : (0 : ℝ) ≤ 1 / 2) (by norm_num : (0 : ℝ) ≤ 1 / 2)
    (by norm_num)
  have k2 := (key (-1) (Or.inr rfl)).2 hm hm' (by norm_num : (0 : ℝ) ≤ 1 / 2)
    (by norm_num : (0 : ℝ) ≤ 1 / 2) (by norm_num)
  simp only [smul_eq_mul] at k1 k2
  rw [show (1 / 2 : ℝ) * -h + 1 / 2 * h = 0 by ring] at k1 k2
  simp only [sub_neg_eq_add, ← sub_eq_add_neg, add_zero, sub_zero] at k1 k2
  have e4 : (-h) ^ 4 = h ^ 4 := by ring
  have e2 : (-h) ^ 2 = h ^ 2 := by ring
  rw [e4, e2] at k1 k2
  rw [abs_le]
  constructor <;> linarith

/-- The second differences of the coefficients of the spline and the second derivative at the nodes. -/
theorem second_deriv_system {a b : ℝ} {n : ℤ} (hv : ValidAxis (.uniform a b n)) {φ φ' φ'' : ℝ → ℝ} {M : ℝ}
    (hc : ContinuousOn φ (Set.Icc (first (.uniform a b n)) (last (.uniform a b n))))
    (hd : ∀ t ∈ Set.Ioo (first (.uniform a b n)) (last (.uniform a b n)),
      HasDerivAt φ (φ' t) t ∧ HasDerivAt φ' (φ'' t) t)
    (h4 : SecondDerivLe φ'' (first (.uniform a b n)) (last (.uniform a b n)) M) {c : ℕ → ℝ}
    (hsys : Sys n.toNat (fun j => φ (node (.uniform a b n) j)) c) {h : ℝ}
    (hh : h = node (.uniform a b n) (0 + 1) - node (.uniform a b n) 0) {j : ℕ} (hj : j + 2 < n.toNat) :
    |diff2 c j - h ^ 2 * φ'' (node (.uniform a b n) j)
      + 4 * (diff2 c (j + 1) - h ^ 2 * φ'' (node (.uniform a b n) (j + 1)))
      + (diff2 c (j + 2) - h ^ 2 * φ'' (node (.uniform a b n) (j + 2)))| ≤ 6 * (M * h ^ 4 / 4) := by
  have hw := width_pos hv (j := 0) (show 0 + 1 < n.toNat by omega)
  rw [← hh] at hw
  have hstep := fun j => node_step (a := a) (b := b) (n := n) j
  have dd := diff2_data hsys hj
  have m0 := node_mem hv (j := j) (show j < n.toNat by omega)
  have m2 := node_mem hv (j := j + 2) hj
  have s0 := hstep j
  have s1 := hstep (j + 1)
  simp only [show j + 1 + 1 = j + 2 from rfl] at s1
  have p0 : node (.uniform a b n) j = node (.uniform a b n) (j + 1) - h := by
    rw [hh]; linear_combination -s0
  have p2 : node (.uniform a b n) (j + 2) = node (.uniform a b n) (j + 1) + h := by
    rw [hh]; linear_combination s1
  have b1 := diff2_deriv hc hd h4 hw (c := node (.uniform a b n) (j + 1)) (by rw [← p0]; exact m0.1)
    (by rw [← p2]; exact m2.2)
  have b2 := h4.diff2 (c := node (.uniform a b n) (j + 1)) (u := h)
    (by rw [← p0]; exact ⟨m0.1, m0.2⟩) (by rw [← p2]; exact ⟨m2.1, m2.2⟩)
  rw [← p0, ← p2] at b1 b2
  have dd' : diff2 c j + 4 * diff2 c (j + 1) + diff2 c (j + 2)
    = 6 * (φ (node (.uniform a b n) j) - 2 * φ (node (.uniform a b n) (j + 1))
      + φ (node (.uniform a b n) (j + 2))) := dd
  have e : diff2 c j - h ^ 2 * φ'' (node (.uniform a b n) j)
      + 4 * (diff2 c (j + 1) - h ^ 2 * φ'' (node (.uniform a b n) (j + 1)))
      + (diff2 c (j + 2) - h ^ 2 * φ'' (node (.uniform a b n) (j + 2)))
      = 6 * (φ (node (.uniform a b n) j) - 2 * φ (node (.uniform a b n) (j + 1))
          + φ (node (.uniform a b n) (j + 2)) - h ^ 2 * φ'' (node (.uniform a b n) (j + 1)))
        - h ^ 2 * (φ'' (node (.uniform a b n) j) - 2 * φ'' (node (.uniform a b n) (j + 1))
          + φ'' (node (.uniform a b n) (j + 2))) := by
    linear_combination dd'
  rw [e]
  rw [abs_le] at b1 b2
  have hh2 : 0 ≤ h ^ 2 := sq_nonneg h
  have c1 := mul_le_mul_of_nonneg_left b2.1 hh2
  have c2 := mul_le_mul_of_nonneg_left b2.2 hh2
  rw [show h ^ 2 * (M * h ^ 2) = M * h ^ 4 by ring] at c2
  rw [show h ^ 2 * -(M * h ^ 2) = -(M * h ^ 4) by ring] at c1
  rw [abs_le]
  constructor <;> linarith [b1.1, b1.2]

/-- The error on one axis, from the errors of the second derivatives. -/
theorem cub_error_second {g : GridDim ℝ} (hv : ValidAxis g) (hu : g.gtype = .uniform) {x : ℝ}
    (h1 : first g ≤ x) (h2 : x ≤ last g) (φ φ' φ'' : ℝ → ℝ) (M h Z : ℝ) (hM : 0 ≤ M)
    (hh : h = node g (0 + 1) - node g 0)
    (hc : ContinuousOn φ (Set.Icc (first g) (last g)))
    (hd : ∀ t ∈ Set.Ioo (first g) (last g), HasDerivAt φ (φ' t) t ∧ HasDerivAt φ' (φ'' t) t)
    (h4 : SecondDerivLe φ'' (first g) (last g) M)
    (hZ : ∀ c : ℕ → ℝ, Sys (nNodes g) (fun j => φ (node g j)) c →
      |diff2 c (cell g x).toNat - h ^ 2 * φ'' (node g (cell g x).toNat)| ≤ Z ∧
      |diff2 c ((cell g x).toNat + 1) - h ^ 2 * φ'' (node g ((cell g x).toNat + 1))| ≤ Z) :
    |cub g x (fun j => φ (node g j)) - φ x| ≤ (M * h ^ 4 / 8 + Z) / 8 := by
  cases g with
  | array gc => cases hu
  | uniform a b n =>
    have hn : 2 ≤ n.toNat := ValidAxis.two_le hv
    have hw := width_pos hv (j := 0) (show 0 + 1 < n.toNat by omega)
    have hstep := fun j => node_step (a := a) (b := b) (n := n) j
    obtain ⟨hj, pa, pb⟩ := closedCell hv h1 h2
    obtain ⟨l0, l1⟩ := lam_mem hv h1 h2
    have hle := lam_eq hv x
    have hsys := solve_sys (δ := (1 : ℝ)) one_ne_zero hn (fun j => φ (node (.uniform a b n) j))
    rw [cub]
    show |axisOp 3 0 (.uniform a b n) x (solve 1 n.toNat _) - φ x| ≤ _
    rw [cubic_cell hv h1 h2 hsys rfl rfl]
    generalize solve 1 n.toNat (fun j => φ (node (.uniform a b n) j)) = c at hsys
    rw [← hh] at hw
    obtain ⟨q0, q1⟩ := hZ c hsys
    have sj := hstep (cell (.uniform a b n) x).toNat
    have m0 := node_mem hv (Nat.lt_of_succ_lt hj)
    have m1 := node_mem hv hj
    set j := (cell (.uniform a b n) x).toNat
    set t := lam (.uniform a b n) x
    have sj' : node (.uniform a b n) (j + 1) = node (.uniform a b n) j + h := by rw [hh]; linear_combination sj
    rw [show node (.uniform a b n) (j + 1) - node (.uniform a b n) j = h by rw [sj']; ring] at hle
    rw [sj'] at q1 m1 ⊢
    set p := node (.uniform a b n) j
    set Q0 := diff2 c j
    set Q1 := diff2 c (j + 1)
    have hne : h ≠ 0 := hw.ne'
    have ht : x = p + t * h := by rw [hle]; field_simp; ring
    -- the error function in the cell
    let S : ℝ → ℝ := fun s => (1 - (s - p) / h) * φ p + (s - p) / h * φ (p + h)
      - (s - p) / h * (1 - (s - p) / h) / 6 * ((2 - (s - p) / h) * Q0 + (1 + (s - p) / h) * Q1)
    have hS : SecondDerivLe (fun s => φ s - S s) p (p + h) (M * h ^ 2 / 8 + Z / h ^ 2) := by
      have lin : ∀ s : ℝ, HasDerivAt (fun s => (s - p) / h) (1 / h) s := fun s =>
        ((hasDerivAt_id s).sub_const p).div_const h
      have dS : ∀ s : ℝ, HasDerivAt S ((φ (p + h) - φ p) / h
          - (2 - 6 * ((s - p) / h) + 3 * ((s - p) / h) ^ 2) / (6 * h) * Q0
          - (1 - 3 * ((s - p) / h) ^ 2) / (6 * h) * Q1) s := fun s => by
        have l := lin s
        have := (((l.const_sub 1).mul_const (φ p)).add (l.mul_const (φ (p + h)))).sub
          (((l.mul (l.const_sub 1)).div_const 6).mul
            (((l.const_sub 2).mul_const Q0).add ((l.const_add 1).mul_const Q1)))
        refine this.congr_deriv ?_
        simp only [Pi.mul_apply, Pi.add_apply]
        field_simp
        ring
      have dS' : ∀ s : ℝ, HasDerivAt (fun s => (φ (p + h) - φ p) / h
          - (2 - 6 * ((s - p) / h) + 3 * ((s - p) / h) ^ 2) / (6 * h) * Q0
          - (1 - 3 * ((s - p) / h) ^ 2) / (6 * h) * Q1)
          (((1 - (s - p) / h) * Q0 + (s - p) / h * Q1) / h ^ 2) s := fun s => by
        have l := lin s
        have := ((((((l.const_mul 6).const_sub 2).add ((l.pow 2).const_mul 3)).div_const (6 * h)).mul_const
          Q0).const_sub ((φ (p + h) - φ p) / h)).sub
          (((((l.pow 2).const_mul 3).const_sub 1).div_const (6 * h)).mul_const Q1)
        refine this.congr_deriv ?_
        rw [show (2 - 1 : ℕ) = 1 from rfl, pow_one]
        push_cast
        field_simp
        ring
      have hsub : ∀ s ∈ Set.Ioo p (p + h), s ∈ Set.Ioo (first (.uniform a b n)) (last (.uniform a b n)) :=
        fun s hs => ⟨m0.1.trans_lt hs.1, hs.2.trans_le m1.2⟩
      refine ⟨(hc.mono (Set.Icc_subset_Icc m0.1 m1.2)).sub
          (fun s _ => (dS s).continuousAt.continuousWithinAt), _, _, fun s hs =>
          ⟨(hd s (hsub s hs)).1.sub (dS s), (hd s (hsub s hs)).2.sub (dS' s), ?_⟩⟩
      set r := (s - p) / h with hr
      have r0 : 0 ≤ r := div_nonneg (by linarith [hs.1]) hw.le
      have r1 : r ≤ 1 := by rw [hr, div_le_one hw]; linarith [hs.2]
      have es : (1 - r) * p + r * (p + h) = s := by rw [hr]; field_simp; ring
      have k := h4.jensen (s := p) (t := p + h) (r := r) ⟨m0.1, m0.2⟩ ⟨m1.1, m1.2⟩ r0 r1
      rw [es, show (1 - r) * p ^ 2 + r * (p + h) ^ 2 - s ^ 2 = r * (1 - r) * h ^ 2 by rw [← es]; ring] at k
      have hh2 : 0 < h ^ 2 := by positivity
      have k4 : r * (1 - r) ≤ 1 / 4 := by nlinarith [sq_nonneg (1 - 2 * r)]
      have k5 : M / 2 * (r * (1 - r) * h ^ 2) ≤ M * h ^ 2 / 8 := by
        have := mul_le_mul_of_nonneg_left k4 (mul_nonneg hM hh2.le)
        linarith
      have z0 := (abs_le.1 q0)
      have z1 := (abs_le.1 q1)
      have y0 : |Q0 / h ^ 2 - φ'' p| ≤ Z / h ^ 2 := by
        have : Q0 / h ^ 2 - φ'' p = (Q0 - h ^ 2 * φ'' p) / h ^ 2 := by field_simp
        rw [this, abs_div, abs_of_pos hh2, div_le_iff₀ hh2]
        refine q0.trans (le_of_eq ?_); field_simp
      have y1 : |Q1 / h ^ 2 - φ'' (p + h)| ≤ Z / h ^ 2 := by
        have : Q1 / h ^ 2 - φ'' (p + h) = (Q1 - h ^ 2 * φ'' (p + h)) / h ^ 2 := by field_simp
        rw [this, abs_div, abs_of_pos hh2, div_le_iff₀ hh2]
        refine q1.trans (le_of_eq ?_); field_simp
      rw [show ((1 - r) * Q0 + r * Q1) / h ^ 2 = (1 - r) * (Q0 / h ^ 2) + r * (Q1 / h ^ 2) by ring]
      rw [abs_le] at k y0 y1
      have r1' : 0 ≤ 1 - r := sub_nonneg.2 r1
      have u0 := mul_le_mul_of_nonneg_left y0.1 r1'
      have u1 := mul_le_mul_of_nonneg_left y0.2 r1'
      have v0 := mul_le_mul_of_nonneg_left y1.1 r0
      have v1 := mul_le_mul_of_nonneg_left y1.2 r0
      rw [abs_le]
      constructor <;> linarith [k.1, k.2]
    have fin := hS.jensen (s := p) (t := p + h) (r := t) ⟨le_refl _, by linarith⟩ ⟨by linarith, le_refl _⟩ l0 l1
    have z0 : φ p - S p = 0 := by simp [S]
    have z1 : φ (p + h) - S (p + h) = 0 := by
      simp only [S, add_sub_cancel_left, div_self hne]; ring
    have zx : (1 - t) * p + t * (p + h) = x := by rw [ht]; ring
    have zt : (x - p) / h = t := by rw [ht]; field_simp; ring
    rw [z0, z1, zx, show (1 - t) * p ^ 2 + t * (p + h) ^ 2 - x ^ 2 = t * (1 - t) * h ^ 2 by rw [← zx]; ring] at fin
    simp only [mul_zero, add_zero, zero_sub, neg_sub] at fin
    simp only [S, zt] at fin
    refine fin.trans ?_
    have k4 : t * (1 - t) ≤ 1 / 4 := by nlinarith [sq_nonneg (1 - 2 * t)]
    have k6 : 0 ≤ M * h ^ 4 / 8 + Z := by
      have := (abs_nonneg _).trans q0
      positivity
    calc (M * h ^ 2 / 8 + Z / h ^ 2) / 2 * (t * (1 - t) * h ^ 2)
        = (M * h ^ 4 / 8 + Z) / 2 * (t * (1 - t)) := by field_simp
      _ ≤ (M * h ^ 4 / 8 + Z) / 2 * (1 / 4) := mul_le_mul_of_nonneg_left k4 (by linarith)
      _ = (M * h ^ 4 / 8 + Z) / 8 := by ring

/-- The error on one axis. -/
theorem cub_error_fourth {g : GridDim ℝ} (hv : ValidAxis g) (hu : g.gtype = .uniform) {x : ℝ}
    (h1 : first g ≤ x) (h2 : x ≤ last g) (φ : ℝ → ℝ) (M H : ℝ) (hM : 0 ≤ M) (hH : MeshLe g H)
    (hφ : NaturalFourth φ (first g) (last g) M) :
    |cub g x (fun j => φ (node g j)) - φ x| ≤ 7 / 64 * (M * H ^ 4) := by
  obtain ⟨hc, φ', φ'', hd, h4, e0, e1⟩ := hφ
  have hn : 2 ≤ nNodes g := ValidAxis.two_le hv
  have hw := width_pos hv (j := 0) (show 0 + 1 < nNodes g by omega)
  have hHj := hH 0 (show 0 + 1 < nNodes g by omega)
  have hj := (inCell_cell hv x).1
  set h := node g (0 + 1) - node g 0 with hh
  have key := cub_error_second hv hu h1 h2 φ φ' φ'' M h (3 * (M * h ^ 4 / 4)) hM hh hc hd h4
    (fun c hsys => by
      cases g with
      | array gc => cases hu
      | uniform a b n =>
        have hq : ∀ j < n.toNat, |diff2 c j - h ^ 2 * φ'' (node (.uniform a b n) j)|
            ≤ 3 * (M * h ^ 4 / 4) := by
          apply tri_le hn (fun j => diff2 c j - h ^ 2 * φ'' (node (.uniform a b n) j))
          · show diff2 c 0 - h ^ 2 * φ'' (first (.uniform a b n)) = 0
            rw [(diff2_ends hn hsys).1, e0]; ring
          · show diff2 c (n.toNat - 1) - h ^ 2 * φ'' (last (.uniform a b n)) = 0
            rw [show n.toNat - 1 = nNodes (GridDim.uniform a b n) - 1 from rfl,
              (diff2_ends hn hsys).2, e1]; ring
          · positivity
          · exact fun j hj => second_deriv_system hv hc hd h4 hsys hh hj
        exact ⟨hq _ (Nat.lt_of_succ_lt hj), hq _ hj⟩)
  refine key.trans ?_
  have k5 : h ^ 4 ≤ H ^ 4 := pow_le_pow_left₀ hw.le hHj 4
  have := mul_le_mul_of_nonneg_left k5 hM
  linarith

/-- C90. If along every axis the second derivative of `f` vanishes at both ends of the grid, and the
fourth derivative is bounded by `M i`, the error of the filtered spline is of fourth order in the
spacing: at most `∑ (5/2)^i · 7/64 · M i (H i)⁴`. -/
theorem C90_cubic_fourth_order (h : FilterRequest G D vec m) (hC : FilterOutcome G D vec m C)
    (f : List ℕ → List ℝ → ℝ) (hD : Samples G D vec m f) (M H : ℕ → ℝ)
    (hH : ∀ i g, G[i]? = some g → MeshLe g (H i)) (hM : ∀ i, 0 ≤ M i)
    (hf : ∀ tail i g, InShape (tailShape vec m none) tail → G[i]? = some g → ∀ y, InBox G y →
      NaturalFourth (fun t => f tail (y.set i t)) (first g) (last g) (M i))
    (mode : String) (x : List ℝ) (hx : InBox G x) :
    ∃ E, Returns 3 G C vec m none mode x E ∧ ∀ tail, InShape (tailShape vec m none) tail →
      |E tail - f tail x| ≤ ∑ i ∈ Finset.range G.length, (5 / 2) ^ i * (7 / 64 * (M i * H i ^ 4)) :=
  cubic_error_axes h hC f hD _ mode x hx fun tail i g ht hg y _ hy h1 h2 =>
    cub_error_fourth (h.grid.2 g (List.mem_of_getElem? hg)) (h.uniform g (List.mem_of_getElem? hg))
      h1 h2 (fun t => f tail (y.set i t)) (M i) (H i) (hM i) (hH i g hg) (hf tail i g ht hg y hy)

/-! ### Concrete cases -/

theorem sin_filter_request (w : ℝ) : FilterRequest [GridDim.uniform (0 : ℝ) 1 11]
    ⟨[11], fun idx => Real.sin (w * ((idx.headD 0 : ℝ) / 10))⟩ false 0 where
  grid := ⟨by simp, by
    intro g hg; simp only [List.mem_singleton] at hg; subst hg; exact ⟨by norm_num, by norm_num⟩⟩
  uniform := by simp [GridDim.gtype]
  dim := by simp
  shape := rfl

theorem last11 : last (GridDim.uniform (0 : ℝ) 1 11) = 1 := by
  show (0 : ℝ) + ((11 - 1 : ℕ) : ℝ) * ((1 - 0) / (((11 : ℤ) : ℝ) - 1)) = 1
  norm_num

theorem first11 : first (GridDim.uniform (0 : ℝ) 1 11) = 0 := by norm_num [first, node]

theorem sin_samples (w : ℝ) : Samples [GridDim.uniform (0 : ℝ) 1 11]
    ⟨[11], fun idx => Real.sin (w * ((idx.headD 0 : ℝ) / 10))⟩ false 0
    (fun _ y => Real.sin (w * y.headD 0)) := by
  intro idx tail hidx ht
  obtain ⟨i, rfl⟩ : ∃ i, idx = [i] := by
    match idx, hidx with
    | [i], _ => exact ⟨i, rfl⟩
  simp [nodeAt, node]
  norm_num
  ring_nf

theorem mesh11 (i : ℕ) (g : GridDim ℝ) (hg : [GridDim.uniform (0 : ℝ) 1 11][i]? = some g) :
    MeshLe g (1 / 10) := by
  intro j _
  have : g = .uniform 0 1 11 := by simpa using List.mem_of_getElem? hg
  subst this
  simp [node]
  norm_num
  linarith

theorem sin_deriv (w t : ℝ) : HasDerivAt (fun t => Real.sin (w * t)) (w * Real.cos (w * t)) t := by
  have := ((hasDerivAt_id t).const_mul w).sin
  simpa [mul_comm] using this

theorem cos_deriv (w t : ℝ) : HasDerivAt (fun t => w * Real.cos (w * t)) (-w ^ 2 * Real.sin (w * t)) t := by
  have := (((hasDerivAt_id t).const_mul w).cos).const_mul w
  refine this.congr_deriv ?_
  simp; ring

/-- C88 applied: the filtered spline through eleven values of the sine. -/
example (t : ℝ) (h0 : 0 ≤ t) (h1 : t ≤ 1) : ∃ C E,
    prefilter [GridDim.uniform (0 : ℝ) 1 11] ⟨[11], fun idx => Real.sin (1 * ((idx.headD 0 : ℝ) / 10))⟩ none 3
      = .ok ⟨some C, none⟩ ∧
    Returns 3 [GridDim.uniform (0 : ℝ) 1 11] C false 0 none "linear" [t] E ∧
      |E [] - Real.sin (1 * t)| ≤ 1 / 200 := by
  obtain ⟨C, hC, _⟩ := (C19_filter_total (sin_filter_request 1)).2.1
  obtain ⟨E, hE, hb⟩ := C88_cubic_error_smooth (sin_filter_request 1) (.prefilter hC) _ (sin_samples 1)
    (fun _ => 1) (fun _ => 1 / 10) mesh11 (by simp)
    (by
      intro tail i g _ hg y hy
      have hi : i = 0 := by have := (List.getElem?_eq_some_iff.1 hg).1; simpa using this
      subst hi
      obtain ⟨s, rfl⟩ : ∃ s, y = [s] := by
        cases hy with
        | cons a b => cases b; exact ⟨_, rfl⟩
      refine ⟨fun t _ => (sin_deriv 1 t).continuousAt.continuousWithinAt, _, _, fun t _ =>
        ⟨sin_deriv 1 t, cos_deriv 1 t, ?_⟩⟩
      have := Real.abs_sin_le_one (1 * t)
      simpa using this)
    "linear" [t] (.cons ⟨by rw [first11]; exact h0, by rw [last11]; exact h1⟩ .nil)
  refine ⟨C, E, hC, hE, (hb [] trivial).trans ?_⟩
  norm_num

/-- C90 applied: `sin (π t)` has second derivative `0` at `0` and `1`. -/
example (t : ℝ) (h0 : 0 ≤ t) (h1 : t ≤ 1) : ∃ C E,
    prefilter [GridDim.uniform (0 : ℝ) 1 11] ⟨[11], fun idx => Real.sin (Real.pi * ((idx.headD 0 : ℝ) / 10))⟩
      none 3 = .ok ⟨some C, none⟩ ∧
    Returns 3 [GridDim.uniform (0 : ℝ) 1 11] C false 0 none "linear" [t] E ∧
      |E [] - Real.sin (Real.pi * t)| ≤ 7 / 64 * (Real.pi ^ 4 * (1 / 10) ^ 4) := by
  obtain ⟨C, hC, _⟩ := (C19_filter_total (sin_filter_request Real.pi)).2.1
  obtain ⟨E, hE, hb⟩ := C90_cubic_fourth_order (sin_filter_request Real.pi) (.prefilter hC) _
    (sin_samples Real.pi) (fun _ => Real.pi ^ 4) (fun _ => 1 / 10) mesh11 (fun _ => by positivity)
    (by
      intro tail i g _ hg y hy
      have hi : i = 0 := by have := (List.getElem?_eq_some_iff.1 hg).1; simpa using this
      subst hi
      obtain rfl : g = .uniform 0 1 11 := by simpa using List.mem_of_getElem? hg
      obtain ⟨s, rfl⟩ : ∃ s, y = [s] := by
        cases hy with
        | cons a b => cases b; exact ⟨_, rfl⟩
      refine ⟨fun t _ => (sin_deriv Real.pi t).continuousAt.continuousWithinAt, _, _, fun t _ =>
        ⟨sin_deriv Real.pi t, cos_deriv Real.pi t⟩, ?_, ?_, ?_⟩
      · refine ⟨fun t _ => ((sin_deriv Real.pi t).const_mul (-Real.pi ^ 2)).continuousAt.continuousWithinAt,
          _, _, fun t _ => ⟨(sin_deriv Real.pi t).const_mul (-Real.pi ^ 2),
            (cos_deriv Real.pi t).const_mul (-Real.pi ^ 2), ?_⟩⟩
        rw [show -Real.pi ^ 2 * (-Real.pi ^ 2 * Real.sin (Real.pi * t))
          = Real.pi ^ 4 * Real.sin (Real.pi * t) by ring, abs_mul, abs_of_pos (by positivity)]
        exact mul_le_of_le_one_right (by positivity) (Real.abs_sin_le_one _)
      · rw [first11]; simp
      · rw [last11]; simp)
    "linear" [t] (.cons ⟨by rw [first11]; exact h0, by rw [last11]; exact h1⟩ .nil)
  refine ⟨C, E, hC, hE, (hb [] trivial).trans ?_⟩
  norm_num

/-- C87 applied: rounding the eleven values of the sine to two decimals. -/
example (D : NdArray ℝ) (hs : D.shape = [11])
    (hD : ∀ i : ℕ, i < 11 → |Real.sin (1 * ((i : ℝ) / 10)) - D.get [i]| ≤ 1 / 200) (t : ℝ) (h0 : 0 ≤ t) (h1 : t ≤ 1) :
    ∃ C C' E E', filterCubic [GridDim.uniform (0 : ℝ) 1 11]
      ⟨[11], fun idx => Real.sin (1 * ((idx.headD 0 : ℝ) / 10))⟩ = .ok C ∧
      filterCubic [GridDim.uniform (0 : ℝ) 1 11] D = .ok C' ∧
      Returns 3 [GridDim.uniform (0 : ℝ) 1 11] C false 0 none "nearest" [t] E ∧
      Returns 3 [GridDim.uniform (0 : ℝ) 1 11] C' false 0 none "nearest" [t] E' ∧
      |E [] - E' []| ≤ 1 / 80 := by
  have r : FilterRequest [GridDim.uniform (0 : ℝ) 1 11] D false 0 :=
    ⟨(sin_filter_request 1).grid, (sin_filter_request 1).uniform, by simp, hs.trans rfl⟩
  obtain ⟨C, hC, _⟩ := (C19_filter_total (sin_filter_request 1)).1
  obtain ⟨C', hC', _⟩ := (C19_filter_total r).1
  obtain ⟨E, E', hE, hE', hb⟩ := C87_cubic_stability (sin_filter_request 1) (.alloc hC) r (.alloc hC') (1 / 200)
    (by
      intro idx tail hi ht
      match idx, hi, tail, ht with
      | [i], hi, [], _ => exact hD i hi.1)
    "nearest" [t] (.cons ⟨by rw [first11]; exact h0, by rw [last11]; exact h1⟩ .nil)
  refine ⟨C, C', E, E', hC, hC', hE, hE', (hb [] trivial).trans ?_⟩
  norm_num

/-- C89 applied to the product of two sines on the unit square. -/
example : ∃ δ > 0, ∀ (G : List (GridDim ℝ)) (D C : NdArray ℝ), FilterRequest G D false 0 →
    FilterOutcome G D false 0 C →
    G.length = 2 → (∀ i g, G[(i : Fin 2).val]? = some g → first g = 0 ∧ last g = 1 ∧ MeshLe g δ) →
    Samples G D false 0 (fun _ y => Real.sin (y.getD 0 0) * Real.sin (y.getD 1 0)) →
    ∀ (mode : String) (x : Fin 2 → ℝ), x ∈ Set.Icc (0 : Fin 2 → ℝ) 1 →
      ∃ E, Returns 3 G C false 0 none mode (List.ofFn x) E ∧
        |E [] - Real.sin (x 0) * Real.sin (x 1)| ≤ 1 / 100 :=
  C89_cubic_convergence (0 : Fin 2 → ℝ) 1 (fun x => Real.sin (x 0) * Real.sin (x 1))
    (by fun_prop) (1 / 100) (by norm_num)

end

end Interp.Props
