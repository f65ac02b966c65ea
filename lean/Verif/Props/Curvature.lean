import Verif.Props.CubicFilter
import Verif.Proofs.MinCurvature

/-!
# Minimum curvature: C99
-/

namespace Interp.Props
open Interp.Codegen Interp.Filter Interp.Spec Interp.Ref Interp.Curvature

private theorem affine_of (u v w x0 K : ℝ) : ∃ p q, ∀ t, (u + (t - x0) / w * (v - u)) * K = p + q * t :=
  ⟨(u - x0 / w * (v - u)) * K, (v - u) / w * K, fun t => by ring⟩

/-- C99. The filtered spline `s` of data in one dimension is twice continuously differentiable on the grid; the square integral of its
second derivative is the least among all twice continuously differentiable functions `g` that take the data at the nodes, and a function
with the same square integral is the spline. -/
theorem C99_minimum_curvature {a b : ℝ} {n : ℤ} {D C : NdArray ℝ} {vec : Bool} {m : ℕ}
    (h : FilterRequest [.uniform a b n] D vec m) (hC : FilterOutcome [.uniform a b n] D vec m C) :
    ∃ s : List ℕ → ℝ → ℝ, (∀ t, Returns 3 [.uniform a b n] C vec m none "linear" [t] (fun comp => s comp t)) ∧
      ∀ comp, InShape (if vec then [m] else []) comp → ∃ s' s'', C2On a b (s comp) s' s'' ∧
        ∀ g g' g'', C2On a b g g' g'' → (∀ j, j < n.toNat → g (node (.uniform a b n) j) = D.get (j :: comp)) →
          (∫ t in a..b, s'' t ^ 2) ≤ (∫ t in a..b, g'' t ^ 2) ∧
          ((∫ t in a..b, g'' t ^ 2) = (∫ t in a..b, s'' t ^ 2) → ∀ t ∈ Set.Icc a b, g t = s comp t) := by
  obtain ⟨hs, hv⟩ := filterOutcome_spec h hC
  have hfs := fam_spec (h.request hs)
  have hval : ValidAxis (.uniform a b n) := h.grid.2 _ (by simp)
  have hn2 : 2 ≤ n := hval.2
  refine ⟨fun comp t => fam 3 [.uniform a b n] C [0] [t] comp, fun t => hfs.value [t] rfl, fun comp hc => ?_⟩
  have hfam : ∀ l t, fam 3 [.uniform a b n] C [l] [t] comp
      = axisOp 3 l (.uniform a b n) t (fun j => C.get (j :: comp)) := by
    intro l t
    show evalAt 3 [.uniform a b n] (l :: []) (t :: []) _ = _
    rw [evalAt_cons]; simp [evalAt]
  have hnat : NaturalLine n.toNat (fun j => C.get (j :: comp)) := by
    have := ((C31_filter_unique h hC C).2 ⟨rfl, fun _ _ => rfl⟩).2.2 comp hc [] n.toNat [] rfl [] []
      trivial trivial
    simpa using this
  set c : ℕ → ℝ := fun j => C.get (j :: comp) with hcd
  have hN : nNodes (.uniform a b n) = n.toNat := rfl
  have h0 : node (.uniform a b n) 0 = a := by simp [node]
  have h1 : node (.uniform a b n) (n.toNat - 1) = b := by
    have : last (.uniform a b n) = b := by rw [← hi_eq hval]; rfl
    exact this
  have hL : PiecewiseLinear (n.toNat - 1) (node (.uniform a b n)) (second a b n c) := by
    refine ⟨?_, fun j hj => ?_, ?_, ?_⟩
    · unfold second
      exact (continuous_lin1 hval _).mul continuous_const
    · obtain ⟨p, q, hpq⟩ := affine_of (c j - 2 * c (j + 1) + c (j + 2)) (c (j + 1) - 2 * c (j + 1 + 1) + c (j + 1 + 2))
        (node (.uniform a b n) (j + 1) - node (.uniform a b n) j) (node (.uniform a b n) j) ((((n : ℝ) - 1) / (b - a)) ^ 2)
      refine ⟨p, q, fun t ht => ?_⟩
      rw [second, lin1_eq hval t _ (j := j) ⟨by omega, Or.inr ht.1, Or.inr ht.2⟩, segVal]
      exact hpq t
    · rw [second, lin1_node hval _ (by omega), show c 0 - 2 * c (0 + 1) + c (0 + 2) = 0 from hnat.1, zero_mul]
    · rw [second, lin1_node hval _ (by omega)]
      have := hnat.2
      rw [show n.toNat - 1 + 1 = n.toNat by omega, show n.toNat - 1 + 2 = n.toNat + 1 by omega, this, zero_mul]
  have hsC : C2On a b (fun t => fam 3 [.uniform a b n] C [0] [t] comp) (fun t => axisOp 3 1 (.uniform a b n) t c) (second a b n c) := by
    refine ⟨fun t _ => ?_, fun t _ => hasDerivWithinAt_second hval c t, hL.cont.continuousOn⟩
    simp only [hfam]
    exact (hasDerivAt_axisOp_three hval c t).hasDerivWithinAt
  refine ⟨_, _, hsC, fun g g' g'' hg hgv => ?_⟩
  have := least (by omega) (fun j hj => node_lt hval (by omega) (by omega)) hL (by rw [h0, h1]; exact hsC) (by rw [h0, h1]; exact hg)
    (fun j hj => ?_)
  · rw [h0, h1] at this
    exact this
  · have hj' : j < n.toNat := by omega
    have hidx : InShape (gridShape [.uniform a b n]) [j] := by simpa [InShape, gridShape, hN] using hj'
    rw [hgv j hj']
    have := Returns.unique rfl (C18_cubic_interpolates h hC "linear" [j] hidx) (hfs.value (nodeAt [.uniform a b n] [j]) rfl) comp
      (by simpa [tailShape] using hc)
    exact this

/-- C99. The linear spline `s` of data in one dimension, on a uniform or nonuniform axis, has the least square integral of the slope
among all continuously differentiable functions `f` that take the data at the nodes, and a function with the same square integral
is the spline. -/
theorem C99_linear_least_slope {g : GridDim ℝ} {C : NdArray ℝ} {vec : Bool} {m : ℕ} (h : Request 1 [g] C vec m none) :
    ∃ s : List ℕ → ℝ → ℝ, (∀ t, Returns 1 [g] C vec m none "linear" [t] (fun comp => s comp t)) ∧
      ∀ comp, InShape (if vec then [m] else []) comp →
        ∀ f f', C1On (first g) (last g) f f' → (∀ j, j < nNodes g → f (node g j) = C.get (j :: comp)) →
          (∫ t in (first g)..(last g), deriv (s comp) t ^ 2) ≤ (∫ t in (first g)..(last g), f' t ^ 2) ∧
          ((∫ t in (first g)..(last g), f' t ^ 2) = (∫ t in (first g)..(last g), deriv (s comp) t ^ 2) →
            ∀ t ∈ Set.Icc (first g) (last g), f t = s comp t) := by
  have hfs := fam_spec h
  have hval : ValidAxis g := h.grid.2 _ (by simp)
  have h2 := (inCell_cell hval 0).1
  refine ⟨fun comp t => fam 1 [g] C [0] [t] comp, fun t => hfs.value [t] rfl, fun comp hc f f' hf hv => ?_⟩
  have hfam : ((fun comp t => fam 1 [g] C [0] [t] comp) comp) = fun t => lin1 g t (fun j => C.get (j :: comp)) := by
    funext t
    show evalAt 1 [g] (0 :: []) (t :: []) _ = _
    rw [evalAt_cons, axisOp_one]; simp [evalAt]
  rw [hfam]
  have hs : PiecewiseAffine (nNodes g - 1) (node g) (fun t => lin1 g t (fun j => C.get (j :: comp))) := by
    intro j hj
    obtain ⟨p, q, hpq⟩ := affine_of (C.get (j :: comp)) (C.get ((j + 1) :: comp)) (node g (j + 1) - node g j) (node g j) 1
    refine ⟨p, q, fun t ht => ?_⟩
    simp only
    rw [lin1_eq hval t _ (j := j) ⟨by omega, Or.inr ht.1, Or.inr ht.2⟩, segVal, ← hpq t, mul_one]
  obtain ⟨h3, h4⟩ := least_slope (fun j hj => node_lt hval (by omega) (by omega)) hs hf
    (fun j hj => by rw [hv j (by omega), lin1_node hval _ (by omega)])
  refine ⟨h3, fun heq t ht => ?_⟩
  obtain ⟨h5, h6, h7⟩ := inCell_cell hval t
  refine h4 heq (cell g t).toNat (by omega) t ⟨?_, ?_⟩
  · rcases h6 with h6 | h6
    · rw [h6]; exact ht.1
    · exact h6
  · rcases h7 with h7 | h7
    · rw [show (cell g t).toNat + 1 = nNodes g - 1 by omega]; exact ht.2
    · exact h7

/-! ### Concrete cases -/

private noncomputable def sq3 : NdArray ℝ := ⟨[3], fun idx => ((idx.headD 0 : ℕ) : ℝ) ^ 2⟩

private theorem sq3_node (j : ℕ) : node (GridDim.uniform (0 : ℝ) 2 3) j = j := by
  show (0 : ℝ) + (j : ℝ) * ((2 - 0) / (((3 : ℤ) : ℝ) - 1)) = j
  norm_num

private theorem sq3_c2 : C2On 0 2 (fun t => t ^ 2) (fun t => 2 * t) (fun _ => 2) where
  first := fun t _ => by simpa using (hasDerivAt_pow 2 t).hasDerivWithinAt
  second := fun t _ => by simpa using ((hasDerivAt_id t).const_mul (2 : ℝ)).hasDerivWithinAt
  cont := continuousOn_const

/-- The values 0, 1, 4 at 0, 1, 2: the spline bends less than the parabola through these points. -/
example : ∃ (C : NdArray ℝ) (s : List ℕ → ℝ → ℝ) (s' s'' : ℝ → ℝ), prefilter [GridDim.uniform (0 : ℝ) 2 3] sq3 none 3 = .ok ⟨some C, none⟩ ∧
    (∀ t, Returns 3 [GridDim.uniform (0 : ℝ) 2 3] C false 0 none "linear" [t] (fun comp => s comp t)) ∧
    C2On 0 2 (s []) s' s'' ∧ (∫ t in (0 : ℝ)..2, s'' t ^ 2) ≤ 8 := by
  have r : FilterRequest [GridDim.uniform (0 : ℝ) 2 3] sq3 false 0 :=
    ⟨⟨by simp, by simp [ValidAxis]⟩, by simp [GridDim.gtype], by simp, rfl⟩
  obtain ⟨C, hC, _⟩ := (C19_filter_total r).2.1
  obtain ⟨s, hs, h⟩ := C99_minimum_curvature r (.prefilter hC)
  obtain ⟨s', s'', h1, h2⟩ := h [] trivial
  have := (h2 _ _ _ sq3_c2 (fun j _ => by rw [sq3_node]; simp [sq3])).1
  refine ⟨C, s, s', s'', hC, hs, h1, this.trans (by norm_num)⟩

example : ∃ s : List ℕ → ℝ → ℝ, (∀ t, Returns 1 [GridDim.array [(0 : ℝ), 1, 2]] sq3 false 0 none "linear" [t] (fun comp => s comp t)) ∧
    (∫ t in (0 : ℝ)..2, deriv (s []) t ^ 2) ≤ ∫ t in (0 : ℝ)..2, (2 * t) ^ 2 := by
  have r : Request 1 [GridDim.array [(0 : ℝ), 1, 2]] sq3 false 0 none := by
    refine ⟨⟨by simp, fun g hg => ?_⟩, by simp [sq3, nNodes], Or.inl rfl, by simp⟩
    rw [List.mem_singleton] at hg
    subst hg
    exact ⟨by simp, by norm_num⟩
  obtain ⟨s, hs, h⟩ := C99_linear_least_slope r
  have e0 : first (GridDim.array [(0 : ℝ), 1, 2]) = 0 := by simp [first, node]
  have e2 : last (GridDim.array [(0 : ℝ), 1, 2]) = 2 := by simp [last, node, nNodes]
  rw [e0, e2] at h
  refine ⟨s, hs, (h [] trivial (fun t => t ^ 2) (fun t => 2 * t) ⟨sq3_c2.first, by fun_prop⟩ fun j hj => ?_).1⟩
  have : j < 3 := hj
  interval_cases j <;> norm_num [node, sq3]

end Interp.Props
