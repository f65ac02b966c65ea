import Verif.Proofs.Calculus
import Verif.Proofs.Family

/-!
# Smoothness and derivatives of splines: C12, C13, C21, C25

Over the real numbers.
-/

set_option linter.unusedSectionVars false

namespace Interp.Props
open Interp.Codegen Interp.Spec Interp.Ref

variable {k : ℕ} {G : List (GridDim ℝ)} {C : NdArray ℝ} {vec : Bool} {m : ℕ}

/-- C12. What `eval_linear` returns is a continuous function of the point on the whole space, in the
default mode and in mode nearest. -/
theorem C12_linear_continuous (h : Request 1 G C vec m none) (mode : String)
    (hmode : mode = "linear" ∨ mode = "nearest") :
    ∃ f : List ℕ → (Fin G.length → ℝ) → ℝ,
      (∀ x, Returns 1 G C vec m none mode (List.ofFn x) (fun tail => f tail x)) ∧
      ∀ tail, Continuous (f tail) := by
  have hcont : ∀ c : List ℕ → ℝ, Continuous (fun x : Fin G.length → ℝ =>
      evalAt 1 G (List.replicate G.length 0) (List.ofFn x) c) := by
    apply continuous_evalAt 1 (Or.inl rfl) G _ h.grid.2 (by simp)
    intro i g l hg hl c
    obtain rfl : l = 0 := by
      rw [List.getElem?_replicate] at hl
      split_ifs at hl
      exact (Option.some.inj hl).symm
    simp only [axisOp_one]
    exact continuous_lin1 (h.grid.2 g (List.mem_of_getElem? hg)) c
  rcases hmode with rfl | rfl
  · refine ⟨fun tail x => fam 1 G C (List.replicate G.length 0) (List.ofFn x) tail,
      fun x => (fam_spec h).value _ (by simp), fun tail => hcont _⟩
  · refine ⟨fun tail x => evalAt 1 G (List.replicate G.length 0)
      (List.ofFn fun i => clampAxis G[i] (x i)) (fun r => C.get (r ++ tail)), fun x => ?_,
      fun tail => ?_⟩
    · refine (h.good.returns "nearest" _ (by simp)).congr fun tail ht => ?_
      rw [rowEntry_plain 1 _ G C vec m _ tail ht]
      have : List.zipWith clampAxis G (List.ofFn x) = List.ofFn fun i => clampAxis G[i] (x i) := by
        apply List.ext_getElem
        · simp
        · intro i h1 h2; simp
      show evalAt 1 G _ (List.zipWith clampAxis G (List.ofFn x)) _ = _
      rw [this]
    · have hc : Continuous fun (x : Fin G.length → ℝ) (i : Fin G.length) => clampAxis G[i] (x i) := by
        apply continuous_pi
        intro i
        have hi := h.grid.2 G[i] (List.getElem_mem _)
        simp only [clampAxis_eq hi]
        exact continuous_const.max ((continuous_apply i).min continuous_const)
      exact (hcont fun r => C.get (r ++ tail)).comp hc

/-- C13, partial: on every axis `i` that is nonuniform, or uniform with spacing 1, the numbers
returned for `k = 1` and an order `l + 1` along axis `i` are the derivative along that axis of the
numbers returned for order `l` (orders along the other axes are the same on both sides), at every
point that is not on a knot.  Missing: uniform axes with a spacing different from 1, for which the
claim is false, see `C13_linear_derivative_fails` and `C13_uniform_scaled`. -/
theorem C13_linear_derivative_partial (h : Request 1 G C vec m none) :
    ∃ V, SplineFamily 1 G C vec m V ∧
      ∀ (oo : List ℕ) (x : List ℝ) (i : ℕ) (g : GridDim ℝ) (l : ℕ) (t : ℝ) (comp : List ℕ),
        oo.length = G.length → NotKnot G x → G[i]? = some g → oo[i]? = some (l + 1) →
        x[i]? = some t → (∀ a b n, g = .uniform a b n → b - a = (n : ℝ) - 1) →
        HasDerivAt (fun t => V (oo.set i l) (x.set i t) comp) (V oo x comp) t := by
  refine ⟨_, fam_spec h, ?_⟩
  intro oo x i g l t comp ho hx hg hl ht hs
  have hlen := (List.Forall₂.length_eq hx).symm
  have hval := h.grid.2 g (List.mem_of_getElem? hg)
  have hf : derivFactor g = 1 := by
    cases g with
    | uniform a b n =>
      have := (uniform_pos hval).1.ne'
      rw [derivFactor, hs a b n rfl, div_self this]; norm_num
    | array gc => rfl
  have hk : ∀ i < nNodes g, t ≠ node g i := by
    have := List.forall₂_iff_get.1 hx
    obtain ⟨h1, e1⟩ := List.getElem?_eq_some_iff.1 hg
    obtain ⟨h2, e2⟩ := List.getElem?_eq_some_iff.1 ht
    have := this.2 i h1 h2
    simp only [List.get_eq_getElem, e1, e2] at this
    exact this
  have := hasDerivAt_evalAt 1 l (l + 1) 1 G oo x i g t hg ht hl ho hlen (fun c => by
    have := hasDerivAt_axisOp_one hval l c t hk
    by_cases h0 : l = 0
    · subst h0
      rw [if_pos rfl, hf] at this
      exact this
    · rw [if_neg h0] at this
      rw [div_one]
      exact this)
  simp only [div_one] at this
  exact this _

/-- What the code returns on a uniform axis: the derivative multiplied by the square of the
spacing. -/
theorem C13_uniform_scaled (h : Request 1 G C vec m none) :
    ∃ V, SplineFamily 1 G C vec m V ∧
      ∀ (oo : List ℕ) (x : List ℝ) (i : ℕ) (a b : ℝ) (n : ℤ) (t : ℝ) (comp : List ℕ),
        oo.length = G.length → NotKnot G x → G[i]? = some (.uniform a b n) → oo[i]? = some 1 →
        x[i]? = some t →
        HasDerivAt (fun t => V (oo.set i 0) (x.set i t) comp)
          (V oo x comp / ((b - a) / ((n : ℝ) - 1)) ^ 2) t := by
  refine ⟨_, fam_spec h, ?_⟩
  intro oo x i a b n t comp ho hx hg hl ht
  have hlen := (List.Forall₂.length_eq hx).symm
  have hval := h.grid.2 _ (List.mem_of_getElem? hg)
  have hk : ∀ i < nNodes (.uniform a b n), t ≠ node (.uniform a b n) i := by
    have := List.forall₂_iff_get.1 hx
    obtain ⟨h1, e1⟩ := List.getElem?_eq_some_iff.1 hg
    obtain ⟨h2, e2⟩ := List.getElem?_eq_some_iff.1 ht
    have := this.2 i h1 h2
    simp only [List.get_eq_getElem, e1, e2] at this
    exact this
  exact hasDerivAt_evalAt 1 0 1 _ G oo x i _ t hg ht hl ho hlen (fun c => by
    have := hasDerivAt_axisOp_one hval 0 c t hk
    rw [if_pos rfl] at this
    exact this) _

/-- C13 is false on every uniform axis whose spacing is not 1: for the data `f(x) = x` the number
returned as the derivative is the square of the spacing, and the function computed by
`eval_spline` has derivative 1. -/
theorem C13_linear_derivative_fails (a b : ℝ) (n : ℤ) (hv : ValidAxis (.uniform a b n))
    (hs : b - a ≠ (n : ℝ) - 1) :
    let C : NdArray ℝ := ⟨[n.toNat], fun idx => node (.uniform a b n) (idx.headD 0)⟩
    (∀ x : ℝ, Returns 1 [.uniform a b n] C false 0 none "linear" [x] (fun _ => x)) ∧
    (∀ x : ℝ, Returns 1 [.uniform a b n] C false 0 (some [[1]]) "linear" [x]
      (fun _ => ((b - a) / ((n : ℝ) - 1)) ^ 2)) ∧
    ∀ x : ℝ, ¬ HasDerivAt (fun x : ℝ => x) (((b - a) / ((n : ℝ) - 1)) ^ 2) x := by
  intro C
  have hr : Request 1 [.uniform a b n] C false 0 none :=
    ⟨⟨by simp, by simpa using hv⟩, by simp [C, nNodes], Or.inl rfl, by simp⟩
  obtain ⟨h1, h2⟩ := uniform_pos hv
  refine ⟨fun x => ?_, fun x => ?_, fun x hx => ?_⟩
  · refine ((fam_spec hr).value [x] (by simp)).congr fun tail ht => ?_
    show evalAt 1 [.uniform a b n] (0 :: []) (x :: []) _ = x
    rw [evalAt_cons, axisOp_one]
    have := lin1_affine hv x 0 1 (fun j => evalAt 1 [] [] [] (fun r => C.get (j :: r ++ tail)))
      (fun j _ => by simp [evalAt, C])
    rw [this]; ring
  · refine ((fam_spec hr).deriv [[1]] [x] (by simp) (by simp) (by simp)).congr fun tail ht => ?_
    have : tail.getLastD 0 = 0 := by
      obtain ⟨comp, j, rfl, _, hj⟩ := inShape_tail_orders false 0 [[1]] tail ht
      simp at hj ⊢
      exact hj
    rw [this]
    show evalAt 1 [.uniform a b n] (1 :: []) (x :: []) _ = _
    rw [evalAt_cons, axisOp_one_deriv hv]
    simp only [evalAt, C, List.cons_append, List.headD_cons]
    have hw := (width_pos hv (inCell_cell hv x).1).ne'
    rw [div_self hw, derivFactor, mul_one]
  · have h3 := hx.unique (hasDerivAt_id' x)
    have h4 : (b - a) / ((n : ℝ) - 1) = 1 := by
      have hp : 0 < (b - a) / ((n : ℝ) - 1) := div_pos h2 h1
      nlinarith
    exact hs ((div_eq_one_iff_eq h1.ne').1 h4)

/-- C21. On the whole space the cubic spline is continuously differentiable, and on the box spanned
by the grid it is twice continuously differentiable; whatever the coefficients, in any dimension. -/
theorem C21_cubic_smooth (h : Request 3 G C vec m none) :
    ∃ f : List ℕ → (Fin G.length → ℝ) → ℝ,
      (∀ x, Returns 3 G C vec m none "linear" (List.ofFn x) (fun tail => f tail x)) ∧
      (∀ tail, ContDiff ℝ 1 (f tail)) ∧
      ∀ tail, ContDiffOn ℝ 2 (f tail)
        {x | ∀ i : Fin G.length, first G[i] ≤ x i ∧ x i ≤ last G[i]} := by
  have huni : ∀ g ∈ G, ∃ a b n, g = .uniform a b n := by
    intro g hg
    have := (h.degree.resolve_left (by norm_num)).2 g hg
    cases g with
    | uniform a b n => exact ⟨a, b, n, rfl⟩
    | array gc => cases this
  have hz : ∀ (i l : ℕ), (List.replicate G.length 0)[i]? = some l → l = 0 := by
    intro i l hl
    rw [List.getElem?_replicate] at hl
    split_ifs at hl
    exact (Option.some.inj hl).symm
  refine ⟨fun tail x => fam 3 G C (List.replicate G.length 0) (List.ofFn x) tail,
      fun x => (fam_spec h).value _ (by simp), fun tail => ?_, fun tail => ?_⟩
  · rw [← contDiffOn_univ]
    refine (contDiffOn_evalAt 3 (Or.inr rfl) 1 G _ (G.map fun _ => Set.univ) h.grid.2 (by simp)
      (by simp) ?_ _).mono ?_
    · intro i g l s hg hl _ c
      obtain rfl := hz i l hl
      obtain ⟨a, b, n, rfl⟩ := huni g (List.mem_of_getElem? hg)
      exact (contDiff_axisOp_three (h.grid.2 _ (List.mem_of_getElem? hg)) c).contDiffOn
    · intro x _ i s hs
      simp only [Fin.getElem?_fin, List.getElem?_map, Option.map_eq_some_iff] at hs
      obtain ⟨_, _, rfl⟩ := hs
      trivial
  · refine (contDiffOn_evalAt 3 (Or.inr rfl) 2 G _ (G.map fun g => Set.Icc (first g) (last g))
      h.grid.2 (by simp) (by simp) ?_ _).mono ?_
    · intro i g l s hg hl hs c
      obtain rfl := hz i l hl
      have hv := h.grid.2 _ (List.mem_of_getElem? hg)
      obtain ⟨a, b, n, rfl⟩ := huni g (List.mem_of_getElem? hg)
      rw [List.getElem?_map, hg, Option.map_some, Option.some.injEq] at hs
      subst hs
      rw [← lo_eq, ← hi_eq hv]
      exact contDiffOn_axisOp_three hv c
    · intro x hx i s hs
      have hx' := hx i
      simp only [Fin.getElem?_fin, List.getElem?_map, Option.map_eq_some_iff] at hs
      obtain ⟨g, hg, rfl⟩ := hs
      obtain ⟨_, e⟩ := List.getElem?_eq_some_iff.1 hg
      simp only [Fin.getElem_fin, e] at hx'
      exact hx'

/-- C25. For `k = 3`, the numbers returned for an order 1 along axis `i` are the derivative along
that axis of the numbers returned for order 0, at every point: inside cells, on knots and outside
the grid. -/
theorem C25_cubic_derivative (h : Request 3 G C vec m none) :
    ∃ V, SplineFamily 3 G C vec m V ∧
      ∀ (oo : List ℕ) (x : List ℝ) (i : ℕ) (t : ℝ) (comp : List ℕ),
        oo.length = G.length → x.length = G.length → oo[i]? = some 1 → x[i]? = some t →
        HasDerivAt (fun t => V (oo.set i 0) (x.set i t) comp) (V oo x comp) t := by
  refine ⟨_, fam_spec h, ?_⟩
  intro oo x i t comp ho hx hl ht
  have hi : i < G.length := by
    rw [← hx]; exact (List.getElem?_eq_some_iff.1 ht).1
  have hg : G[i]? = some G[i] := List.getElem?_eq_getElem hi
  have hmem := List.getElem_mem hi
  have hv := h.grid.2 _ hmem
  have := (h.degree.resolve_left (by norm_num)).2 _ hmem
  generalize G[i] = g at *
  cases g with
  | array gc => cases this
  | uniform a b n =>
    have := hasDerivAt_evalAt 3 0 1 1 G oo x i _ t hg ht hl ho hx (fun c => by
      rw [div_one]; exact hasDerivAt_axisOp_three hv c t)
    simp only [div_one] at this
    exact this _

/-! ### Concrete instances -/

/-- A mixed grid with three and four nodes and scalar data. -/
noncomputable def realG : List (GridDim ℝ) := [.array [0, 1, 3], .uniform 0 1 4]
def realC : NdArray ℝ := ⟨[3, 4], fun idx => (idx.sum : ℝ) ^ 2⟩

theorem realG_grid : ValidGrid realG := by
  refine ⟨by simp [realG], fun g hg => ?_⟩
  simp only [realG, List.mem_cons, List.not_mem_nil, or_false] at hg
  rcases hg with rfl | rfl
  · exact ⟨by simp, by norm_num⟩
  · exact ⟨by norm_num, by norm_num⟩

theorem real_request : Request 1 realG realC false 0 none :=
  ⟨realG_grid, by simp [realG, realC, nNodes], Or.inl rfl, by simp⟩

example : ∃ f : List ℕ → (Fin realG.length → ℝ) → ℝ,
    (∀ x, Returns 1 realG realC false 0 none "nearest" (List.ofFn x) (fun tail => f tail x)) ∧
    ∀ tail, Continuous (f tail) :=
  C12_linear_continuous real_request "nearest" (Or.inr rfl)

/-- The mixed second derivative, first along the nonuniform axis. -/
example : ∃ V, SplineFamily 1 realG realC false 0 V ∧
    HasDerivAt (fun t => V [0, 1] [t, 1/2] []) (V [1, 1] [2, 1/2] []) 2 := by
  obtain ⟨V, h1, h2⟩ := C13_linear_derivative_partial real_request
  refine ⟨V, h1, h2 [1, 1] [2, 1/2] 0 (.array [0, 1, 3]) 0 2 [] rfl ?_ rfl rfl rfl
    (fun a b n h => by cases h)⟩
  refine .cons ?_ (.cons ?_ .nil)
  · intro i hi
    have : i < 3 := hi
    interval_cases i <;> norm_num [node]
  · intro i hi
    have : i < 4 := hi
    interval_cases i <;> norm_num [node]

/-- The spacing 1/2 of `(0, 1, 3)` is not 1, so the derivative is wrong there. -/
example : ∀ x : ℝ, ¬ HasDerivAt (fun x : ℝ => x) (((1 - 0) / (((3 : ℤ) : ℝ) - 1)) ^ 2) x :=
  (C13_linear_derivative_fails 0 1 3 ⟨by norm_num, by norm_num⟩ (by norm_num)).2.2

noncomputable def realG3 : List (GridDim ℝ) := [.uniform (-1) 2 2, .uniform 0 1 4]
def realC3 : NdArray ℝ := ⟨[4, 6, 2], fun idx => (idx.sum : ℝ) ^ 3⟩

theorem real_request3 : Request 3 realG3 realC3 true 2 none := by
  refine ⟨⟨by simp [realG3], fun g hg => ?_⟩, by simp [realG3, realC3, nNodes], Or.inr ⟨rfl, ?_⟩,
    by simp⟩
  · simp only [realG3, List.mem_cons, List.not_mem_nil, or_false] at hg
    rcases hg with rfl | rfl <;> exact ⟨by norm_num, by norm_num⟩
  · intro g hg
    simp only [realG3, List.mem_cons, List.not_mem_nil, or_false] at hg
    rcases hg with rfl | rfl <;> rfl

example : ∃ f : List ℕ → (Fin realG3.length → ℝ) → ℝ,
    (∀ x, Returns 3 realG3 realC3 true 2 none "linear" (List.ofFn x) (fun tail => f tail x)) ∧
    (∀ tail, ContDiff ℝ 1 (f tail)) ∧
    ∀ tail, ContDiffOn ℝ 2 (f tail)
      {x | ∀ i : Fin realG3.length, first realG3[i] ≤ x i ∧ x i ≤ last realG3[i]} :=
  C21_cubic_smooth real_request3

/-- At a knot of the second axis, outside the first. -/
example : ∃ V, SplineFamily 3 realG3 realC3 true 2 V ∧
    HasDerivAt (fun t => V [1, 0] [7, t] [1]) (V [1, 1] [7, 1/3] [1]) (1/3) := by
  obtain ⟨V, h1, h2⟩ := C25_cubic_derivative real_request3
  exact ⟨V, h1, h2 [1, 1] [7, 1/3] 1 (1/3) [1] rfl rfl rfl rfl⟩

end Interp.Props
