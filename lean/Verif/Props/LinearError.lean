import Verif.Proofs.LinearError
import Verif.Props.LinearValues
import Mathlib.Analysis.Convex.Deriv
import Mathlib.Analysis.Calculus.Deriv.Pow
import Mathlib.Analysis.SpecialFunctions.Trigonometric.Deriv
import Mathlib.Topology.UniformSpace.HeineCantor
import Mathlib.Data.List.GetD

/-!
# How well linear splines approximate: C80, C81
-/

set_option linter.unusedSectionVars false

namespace Interp.Props
open Interp.Codegen Interp.Spec Interp.Ref

section
variable {F : Type} [Field F] [LinearOrder F] [IsStrictOrderedRing F] [FloorRing F]
  {G : List (GridDim F)} {C : NdArray F} {vec : Bool} {m : ℕ}

/-- Consecutive nodes are at distance at most `H`. -/
def MeshLe (g : GridDim F) (H : F) : Prop := ∀ i, i + 1 < nNodes g → node g (i + 1) - node g i ≤ H

/-- The data are the values of the functions `f` at the nodes. -/
def Samples (G : List (GridDim F)) (C : NdArray F) (vec : Bool) (m : ℕ)
    (f : List ℕ → List F → F) : Prop :=
  ∀ idx tail, InShape (gridShape G) idx → InShape (tailShape vec m none) tail →
    C.get (idx ++ tail) = f tail (nodeAt G idx)

/-- C80, Lipschitz functions. If `f` has Lipschitz constant `L i` with respect to coordinate `i` and
the nodes of axis `i` are at distance at most `H i`, the error of linear interpolation in the box of the
grid is at most `∑ L i H i / 2`. -/
theorem C80_error_lipschitz (h : Request 1 G C vec m none) (f : List ℕ → List F → F)
    (hC : Samples G C vec m f) (L H : ℕ → F) (hH : ∀ i g, G[i]? = some g → MeshLe g (H i))
    (hL : ∀ tail i g, InShape (tailShape vec m none) tail → G[i]? = some g → ∀ y s t, InBox G y → first g ≤ s → s ≤ last g → first g ≤ t →
      t ≤ last g → |f tail (y.set i s) - f tail (y.set i t)| ≤ L i * |s - t|)
    (mode : String) (x : List F) (hx : InBox G x) :
    ∃ E, Returns 1 G C vec m none mode x E ∧ ∀ tail, InShape (tailShape vec m none) tail →
      |E tail - f tail x| ≤ ∑ i ∈ Finset.range G.length, L i * H i / 2 := by
  have hxl : x.length = G.length := hx.length_eq.symm
  refine ⟨_, h.good.returns mode x hxl, fun tail ht => ?_⟩
  rw [rowEntry_plain 1 _ G C vec m _ tail ht, evalMode_inBox 1 mode G _ _ _ h.grid.2 hx]
  show |plain 1 G x (fun r => C.get (r ++ tail)) - f tail x| ≤ _
  rw [plain_congr G x _ (fun idx => f tail (nodeAt G idx)) h.grid.2 hxl
    (fun idx hidx => hC idx tail hidx ht)]
  refine plain_error G x (f tail) _ h.grid.2 hx fun i g hg y t hy h1 h2 => ?_
  exact lin1_error_lipschitz (h.grid.2 g (List.mem_of_getElem? hg)) h1 h2
    (fun t => f tail (y.set i t)) (L i) (H i) (hH i g hg)
    (fun s t a1 a2 a3 a4 => hL tail i g ht hg y s t hy a1 a2 a3 a4)

/-- C81, local form. If `f` varies by at most `ε` on the part of the box within `H i` of `x` along
every axis, the error at `x` is at most `ε`. -/
theorem C81_error_modulus (h : Request 1 G C vec m none) (f : List ℕ → List F → F)
    (hC : Samples G C vec m f) (H : ℕ → F) (hH : ∀ i g, G[i]? = some g → MeshLe g (H i))
    (ε : F) (mode : String) (x : List F) (hx : InBox G x)
    (hf : ∀ tail y, InShape (tailShape vec m none) tail → InBox G y →
      (∀ i, i < G.length → |y.getD i 0 - x.getD i 0| ≤ H i) → |f tail y - f tail x| ≤ ε) :
    ∃ E, Returns 1 G C vec m none mode x E ∧ ∀ tail, InShape (tailShape vec m none) tail →
      |E tail - f tail x| ≤ ε := by
  obtain ⟨J, hJ⟩ := inClosedCell_exists G x h.grid.2 hx
  have near : ∀ (G : List (GridDim F)) (x : List F) (J idx : List ℕ) (H : ℕ → F),
      (∀ i g, G[i]? = some g → MeshLe g (H i)) → InClosedCell G x J → IsCorner J idx →
      ∀ i, i < G.length → |(nodeAt G idx).getD i 0 - x.getD i 0| ≤ H i := by
    intro G
    induction G with
    | nil => intro x J idx H _ _ _ i hi; simp at hi
    | cons g G ih =>
      intro x J idx H hH hJ hc i hi
      cases x with
      | nil => exact hJ.elim
      | cons t x =>
        cases J with
        | nil => exact hJ.elim
        | cons j J =>
          cases hc with
          | cons c1 c2 =>
            obtain ⟨⟨j1, j2, j3⟩, hJ'⟩ := hJ
            cases i with
            | zero =>
              have := hH 0 g rfl j j1
              simp only [nodeAt, List.zipWith_cons_cons, List.getD_cons_zero]
              rw [abs_le]
              rcases c1 with rfl | rfl <;> constructor <;> linarith
            | succ i =>
              have := ih x J _ (fun i => H (i + 1)) (fun i g' hg' => hH (i + 1) g' (by simpa using hg'))
                hJ' c2 i (by simpa using hi)
              simpa [nodeAt] using this
  obtain ⟨E, h1, h2⟩ := C03_linear_range h mode x J hJ (fun tail => f tail x - ε)
    (fun tail => f tail x + ε) (by
      intro idx tail hidx ht
      have hs := corner_inShape G x J idx hJ hidx
      rw [hC idx tail hs ht]
      have := abs_le.1 (hf tail (nodeAt G idx) ht (nodeAt_inBox G idx h.grid.2 hs) (near G x J idx H hH hJ hidx))
      constructor <;> linarith [this.1, this.2])
  refine ⟨E, h1, fun tail ht => ?_⟩
  have := h2 tail ht
  rw [abs_le]
  constructor <;> linarith [this.1, this.2]

end

section
variable {G : List (GridDim ℝ)} {C : NdArray ℝ} {vec : Bool} {m : ℕ}

/-- `φ` is continuous on `[a, b]` and has in the interior a second derivative bounded by `M`. -/
def SecondDerivLe (φ : ℝ → ℝ) (a b M : ℝ) : Prop :=
  ContinuousOn φ (Set.Icc a b) ∧ ∃ φ' φ'' : ℝ → ℝ, ∀ t ∈ Set.Ioo a b,
    HasDerivAt φ (φ' t) t ∧ HasDerivAt φ' (φ'' t) t ∧ |φ'' t| ≤ M

theorem SecondDerivLe.jensen {φ : ℝ → ℝ} {a b M : ℝ} (h : SecondDerivLe φ a b M) {s t r : ℝ}
    (hs : s ∈ Set.Icc a b) (ht : t ∈ Set.Icc a b) (h0 : 0 ≤ r) (h1 : r ≤ 1) :
    |(1 - r) * φ s + r * φ t - φ ((1 - r) * s + r * t)|
      ≤ M / 2 * ((1 - r) * s ^ 2 + r * t ^ 2 - ((1 - r) * s + r * t) ^ 2) := by
  obtain ⟨hc, φ', φ'', hd⟩ := h
  have key : ∀ σ : ℝ, σ = 1 ∨ σ = -1 → ConvexOn ℝ (Set.Icc a b) (fun t => M / 2 * t ^ 2 + σ * φ t) := by
    intro σ hσ
    apply convexOn_of_hasDerivWithinAt2_nonneg (convex_Icc a b)
      (f' := fun t => M * t + σ * φ' t) (f'' := fun t => M + σ * φ'' t)
    · exact ((continuous_const.mul (continuous_pow 2)).continuousOn).add (continuousOn_const.mul hc)
    · intro t ht
      rw [interior_Icc] at ht
      have := (((hasDerivAt_pow 2 t).const_mul (M / 2)).add ((hd t ht).1.const_mul σ))
      refine (this.congr_deriv ?_).hasDerivWithinAt
      simp; ring
    · intro t ht
      rw [interior_Icc] at ht
      have := (((hasDerivAt_id t).const_mul M).add ((hd t ht).2.1.const_mul σ))
      refine (this.congr_deriv ?_).hasDerivWithinAt
      simp
    · intro t ht
      rw [interior_Icc] at ht
      have := abs_le.1 (hd t ht).2.2
      rcases hσ with rfl | rfl <;> linarith [this.1, this.2]
  have k1 := (key 1 (Or.inl rfl)).2 hs ht (sub_nonneg.2 h1) h0 (by ring)
  have k2 := (key (-1) (Or.inr rfl)).2 hs ht (sub_nonneg.2 h1) h0 (by ring)
  simp only [smul_eq_mul] at k1 k2
  rw [abs_le]
  constructor <;> linarith

/-- C80. If along axis `i` the second derivative of `f` is bounded by `M i` and the nodes are at distance at
most `H i`, the error of linear interpolation in the box of the grid is at most
`∑ M i (H i)² / 8`. -/
theorem C80_error_smooth (h : Request 1 G C vec m none) (f : List ℕ → List ℝ → ℝ)
    (hC : Samples G C vec m f) (M H : ℕ → ℝ) (hH : ∀ i g, G[i]? = some g → MeshLe g (H i))
    (hM : ∀ i, 0 ≤ M i)
    (hf : ∀ tail i g, InShape (tailShape vec m none) tail → G[i]? = some g → ∀ y, InBox G y →
      SecondDerivLe (fun t => f tail (y.set i t)) (first g) (last g) (M i))
    (mode : String) (x : List ℝ) (hx : InBox G x) :
    ∃ E, Returns 1 G C vec m none mode x E ∧ ∀ tail, InShape (tailShape vec m none) tail →
      |E tail - f tail x| ≤ ∑ i ∈ Finset.range G.length, M i * H i ^ 2 / 8 := by
  have hxl : x.length = G.length := hx.length_eq.symm
  refine ⟨_, h.good.returns mode x hxl, fun tail ht => ?_⟩
  rw [rowEntry_plain 1 _ G C vec m _ tail ht, evalMode_inBox 1 mode G _ _ _ h.grid.2 hx]
  show |plain 1 G x (fun r => C.get (r ++ tail)) - f tail x| ≤ _
  rw [plain_congr G x _ (fun idx => f tail (nodeAt G idx)) h.grid.2 hxl
    (fun idx hidx => hC idx tail hidx ht)]
  refine plain_error G x (f tail) _ h.grid.2 hx fun i g hg y t hy h1 h2 => ?_
  exact lin1_error_convex (h.grid.2 g (List.mem_of_getElem? hg)) h1 h2
    (fun t => f tail (y.set i t)) (M i) (H i) (hM i) (hH i g hg)
    (fun s t r a1 a2 a3 a4 a5 a6 => (hf tail i g ht hg y hy).jensen ⟨a1, a2⟩ ⟨a3, a4⟩ a5 a6)

/-- C81. Linear interpolants of a continuous function converge uniformly when the grid is
refined: for every `ε` there is a `δ` such that on every grid of the box `[a, b]` whose consecutive
nodes are at distance at most `δ`, the error is at most `ε` everywhere in the box. -/
theorem C81_uniform_convergence {d : ℕ} (a b : Fin d → ℝ) (f : (Fin d → ℝ) → ℝ)
    (hf : ContinuousOn f (Set.Icc a b)) (ε : ℝ) (hε : 0 < ε) :
    ∃ δ > 0, ∀ (G : List (GridDim ℝ)) (C : NdArray ℝ), Request 1 G C false 0 none →
      G.length = d → (∀ i g, G[(i : Fin d).val]? = some g → first g = a i ∧ last g = b i ∧ MeshLe g δ) →
      Samples G C false 0 (fun _ y => f fun i => y.getD i 0) →
      ∀ (mode : String) (x : Fin d → ℝ), x ∈ Set.Icc a b →
        ∃ E, Returns 1 G C false 0 none mode (List.ofFn x) E ∧ |E [] - f x| ≤ ε := by
  have huc := isCompact_Icc.uniformContinuousOn_of_continuous hf
  rw [Metric.uniformContinuousOn_iff_le] at huc
  obtain ⟨δ, hδ, hu⟩ := huc ε hε
  refine ⟨δ, hδ, fun G C h hd hG hC mode x hx => ?_⟩
  subst hd
  have hx' : ∀ x : Fin G.length → ℝ, (fun i : Fin G.length => (List.ofFn x).getD i 0) = x := by
    intro x; funext i; simp
  have hbox : ∀ y : List ℝ, InBox G y ↔ y.length = G.length ∧
      (fun i : Fin G.length => y.getD i 0) ∈ Set.Icc a b := by
    intro y
    rw [InBox, List.forall₂_iff_get]
    constructor
    · rintro ⟨h1, h2⟩
      refine ⟨h1.symm, fun i => ?_, fun i => ?_⟩ <;>
      · have := h2 i i.2 (by omega)
        have e := hG i _ (List.getElem?_eq_getElem i.2)
        simp only [List.get_eq_getElem] at this
        simp only [List.getD_eq_getElem y 0 (show (i : ℕ) < y.length by omega)]
        linarith [e.1, e.2.1, this.1, this.2]
    · rintro ⟨h1, h2, h3⟩
      refine ⟨h1.symm, fun i hi1 hi2 => ?_⟩
      have e := hG ⟨i, hi1⟩ _ (List.getElem?_eq_getElem hi1)
      have a1 := h2 ⟨i, hi1⟩
      have a2 := h3 ⟨i, hi1⟩
      simp only [List.getD_eq_getElem y 0 (show i < y.length by omega)] at a1 a2
      simp only [List.get_eq_getElem]
      constructor <;> linarith [e.1, e.2.1]
  obtain ⟨E, h1, h2⟩ := C81_error_modulus h _ hC (fun _ => δ)
    (fun i g hg => (hG ⟨i, (List.getElem?_eq_some_iff.1 hg).1⟩ g hg).2.2) ε mode (List.ofFn x)
    ((hbox _).2 ⟨by simp, by rw [hx']; exact hx⟩)
    (by
      intro tail y _ hy hyx
      have hyb := ((hbox y).1 hy).2
      simp only [hx']
      rw [← Real.dist_eq]
      apply hu _ hyb _ hx
      rw [dist_pi_le_iff hδ.le]
      intro i
      have := hyx i i.2
      rw [Real.dist_eq]
      simpa using this)
  refine ⟨E, h1, ?_⟩
  have := h2 [] trivial
  simpa only [hx'] using this

/-! ### Concrete cases -/

/-- `sin` tabulated at eleven points of `[0, 1]`. -/
noncomputable def sinC : NdArray ℝ := ⟨[11], fun idx => Real.sin ((idx.headD 0 : ℝ) / 10)⟩

theorem sin_request : Request 1 [GridDim.uniform (0 : ℝ) 1 11] sinC false 0 none :=
  ⟨⟨by simp, by intro g hg; simp only [List.mem_singleton] at hg; subst hg; exact ⟨by norm_num, by norm_num⟩⟩,
    by simp [sinC, nNodes], Or.inl rfl, by simp⟩

/-- C80 applied: the error of the table of sines is at most `1/800`. -/
example (t : ℝ) (h0 : 0 ≤ t) (h1 : t ≤ 1) :
    ∃ E, Returns 1 [GridDim.uniform (0 : ℝ) 1 11] sinC false 0 none "linear" [t] E ∧
      |E [] - Real.sin t| ≤ 1 / 800 := by
  have hl : last (GridDim.uniform (0 : ℝ) 1 11) = 1 := by
    show (0 : ℝ) + ((11 - 1 : ℕ) : ℝ) * ((1 - 0) / (((11 : ℤ) : ℝ) - 1)) = 1
    norm_num
  have hf : first (GridDim.uniform (0 : ℝ) 1 11) = 0 := by norm_num [first, node]
  obtain ⟨E, hE, hb⟩ := C80_error_smooth sin_request (fun _ y => Real.sin (y.headD 0))
    (by
      intro idx tail hidx ht
      obtain ⟨i, rfl⟩ : ∃ i, idx = [i] := by
        match idx, hidx with
        | [i], _ => exact ⟨i, rfl⟩
      simp [sinC, nodeAt, node]
      norm_num
      ring_nf)
    (fun _ => 1) (fun _ => 1 / 10)
    (by
      intro i g hg j _
      have : g = .uniform 0 1 11 := by simpa using List.mem_of_getElem? hg
      subst this
      simp [node]
      norm_num
      linarith)
    (by simp)
    (by
      intro tail i g _ hg y hy
      have hi : i = 0 := by have := (List.getElem?_eq_some_iff.1 hg).1; simpa using this
      subst hi
      obtain ⟨s, rfl⟩ : ∃ s, y = [s] := by
        cases hy with
        | cons a b => cases b; exact ⟨_, rfl⟩
      refine ⟨fun t _ => (Real.hasDerivAt_sin t).continuousAt.continuousWithinAt, Real.cos, fun t => -Real.sin t, fun t _ =>
        ⟨Real.hasDerivAt_sin t, Real.hasDerivAt_cos t, ?_⟩⟩
      rw [abs_neg]
      exact Real.abs_sin_le_one t)
    "linear" [t] (.cons ⟨by rw [hf]; exact h0, by rw [hl]; exact h1⟩ .nil)
  refine ⟨E, hE, (hb [] trivial).trans ?_⟩
  norm_num

/-- C80 for Lipschitz functions applied to a function that is not differentiable. -/
example (t : ℝ) (h0 : 0 ≤ t) (h1 : t ≤ 1) :
    ∃ E, Returns 1 [GridDim.uniform (0 : ℝ) 1 2] ⟨[2], fun idx => |(idx.headD 0 : ℝ) - 1 / 2|⟩ false 0 none
        "nearest" [t] E ∧ |E [] - (|t - 1 / 2| : ℝ)| ≤ 1 / 2 := by
  have hl : last (GridDim.uniform (0 : ℝ) 1 2) = 1 := by
    show (0 : ℝ) + ((2 - 1 : ℕ) : ℝ) * ((1 - 0) / (((2 : ℤ) : ℝ) - 1)) = 1
    norm_num
  have hf : first (GridDim.uniform (0 : ℝ) 1 2) = 0 := by norm_num [first, node]
  obtain ⟨E, hE, hb⟩ := C80_error_lipschitz (vec := false) (m := 0) (G := [GridDim.uniform (0 : ℝ) 1 2])
    (C := ⟨[2], fun idx => |(idx.headD 0 : ℝ) - 1 / 2|⟩)
    ⟨⟨by simp, by intro g hg; simp only [List.mem_singleton] at hg; subst hg; exact ⟨by norm_num, by norm_num⟩⟩,
      by simp [nNodes], Or.inl rfl, by simp⟩ (fun _ y => |y.headD 0 - 1 / 2|)
    (by
      intro idx tail hidx ht
      obtain ⟨i, rfl⟩ : ∃ i, idx = [i] := by
        match idx, hidx with
        | [i], _ => exact ⟨i, rfl⟩
      simp [nodeAt, node]
      norm_num)
    (fun _ => 1) (fun _ => 1)
    (by
      intro i g hg j _
      have : g = .uniform 0 1 2 := by simpa using List.mem_of_getElem? hg
      subst this
      simp [node]
      norm_num
      linarith)
    (by
      intro tail i g _ hg y s t hy _ _ _ _
      have hi : i = 0 := by have := (List.getElem?_eq_some_iff.1 hg).1; simpa using this
      subst hi
      obtain ⟨s', rfl⟩ : ∃ s, y = [s] := by
        cases hy with
        | cons a b => cases b; exact ⟨_, rfl⟩
      simp only [List.set_cons_zero, List.headD_cons, one_mul]
      have := abs_abs_sub_abs_le_abs_sub (s - 1 / 2) (t - 1 / 2)
      simpa using this)
    "nearest" [t] (.cons ⟨by rw [hf]; exact h0, by rw [hl]; exact h1⟩ .nil)
  refine ⟨E, hE, (hb [] trivial).trans ?_⟩
  norm_num

/-- C81 applied to the product of two sines on the unit square. -/
example : ∃ δ > 0, ∀ (G : List (GridDim ℝ)) (C : NdArray ℝ), Request 1 G C false 0 none →
    G.length = 2 → (∀ i g, G[(i : Fin 2).val]? = some g → first g = 0 ∧ last g = 1 ∧ MeshLe g δ) →
    Samples G C false 0 (fun _ y => Real.sin (y.getD 0 0) * Real.sin (y.getD 1 0)) →
    ∀ (mode : String) (x : Fin 2 → ℝ), x ∈ Set.Icc (0 : Fin 2 → ℝ) 1 →
      ∃ E, Returns 1 G C false 0 none mode (List.ofFn x) E ∧
        |E [] - Real.sin (x 0) * Real.sin (x 1)| ≤ 1 / 100 :=
  C81_uniform_convergence (0 : Fin 2 → ℝ) 1 (fun x => Real.sin (x 0) * Real.sin (x 1))
    (by fun_prop) (1 / 100) (by norm_num)

end

end Interp.Props
