import Verif.Proofs.Family
import Mathlib.Data.Rat.Floor

/-!
# Shape of cubic splines: C22, C24

Exact arithmetic.
-/

set_option linter.unusedSectionVars false

namespace Interp.Props
open Interp.Codegen Interp.Spec Interp.Ref

variable {F : Type} [Field F] [LinearOrder F] [IsStrictOrderedRing F] [FloorRing F]

variable {G : List (GridDim F)} {C : NdArray F} {vec : Bool} {m : ℕ}

/-- C22. Outside the grid, along any axis `i` (the only one in dimension 1), the spline is the
straight line through its value at the end of the axis, with the slope it has there. The orders
`oo` along the other axes are arbitrary. -/
theorem C22_cubic_tangent (h : Request 3 G C vec m none) :
    ∃ V, SplineFamily 3 G C vec m V ∧
      ∀ (x : List F) (oo : List ℕ) (i : ℕ) (a b t : F) (n : ℤ) (comp : List ℕ),
        x.length = G.length → oo.length = G.length → G[i]? = some (.uniform a b n) →
        (t ≤ a → V (oo.set i 0) (x.set i t) comp
          = V (oo.set i 0) (x.set i a) comp + (t - a) * V (oo.set i 1) (x.set i a) comp) ∧
        (b ≤ t → V (oo.set i 0) (x.set i t) comp
          = V (oo.set i 0) (x.set i b) comp + (t - b) * V (oo.set i 1) (x.set i b) comp) := by
  refine ⟨_, fam_spec h, ?_⟩
  intro x oo i a b t n comp hx ho hg
  have hv := h.grid.2 _ (List.mem_of_getElem? hg)
  constructor <;> intro ht
  · have := evalAt_axis_affine 3 0 0 1 1 (t - a) G oo x i _ t a a hg ho hx
      (fun c => by rw [one_mul]; exact axisOp_tangent_left hv ht c) (fun r => C.get (r ++ comp))
    rw [one_mul] at this
    exact this
  · have := evalAt_axis_affine 3 0 0 1 1 (t - b) G oo x i _ t b b hg ho hx
      (fun c => by rw [one_mul]; exact axisOp_tangent_right hv ht c) (fun r => C.get (r ++ comp))
    rw [one_mul] at this
    exact this

/-- C22 in dimension 1. -/
theorem C22_cubic_tangent_1d {a b : F} {n : ℤ} (h : Request 3 [.uniform a b n] C vec m none) :
    ∃ f f' : F → List ℕ → F,
      (∀ x, Returns 3 [.uniform a b n] C vec m none "linear" [x] (f x)) ∧
      (∀ x, Returns 3 [.uniform a b n] C vec m (some [[1]]) "linear" [x]
        (fun tail => f' x tail.dropLast)) ∧
      ∀ x comp, (x ≤ a → f x comp = f a comp + (x - a) * f' a comp) ∧
        (b ≤ x → f x comp = f b comp + (x - b) * f' b comp) := by
  obtain ⟨V, hV, hT⟩ := C22_cubic_tangent h
  refine ⟨fun x => V [0] [x], fun x => V [1] [x], fun x => hV.value [x] rfl, fun x => ?_,
    fun x comp => hT [x] [0] 0 a b x n comp rfl rfl rfl⟩
  refine (hV.deriv [[1]] [x] rfl (by simp) (by simp)).congr fun tail ht => ?_
  obtain ⟨comp, j, rfl, _, hj⟩ := inShape_tail_orders vec m [[1]] tail ht
  obtain rfl : j = 0 := by simpa using hj
  simp

theorem coefShape_eq (k : ℕ) (G : List (GridDim F)) :
    coefShape k G = G.map fun g => nNodes g + (k - 1) := rfl

theorem basis_three_nonneg {g : GridDim F} (hg : ValidAxis g) (hu : g.gtype = .uniform) {t : F}
    (h1 : first g ≤ t) (h2 : t ≤ last g) (j : ℕ) : 0 ≤ basis 3 0 g j t := by
  cases g with
  | array gc => cases hu
  | uniform a b n =>
    rw [← lo_eq] at h1
    rw [← hi_eq hg] at h2
    exact axisOp_three_nonneg hg h1 h2 (fun i => by split_ifs <;> norm_num)

theorem wt_three_nonneg : ∀ (G : List (GridDim F)) (x : List F) (idx : List ℕ),
    (∀ g ∈ G, ValidAxis g) → (∀ g ∈ G, g.gtype = .uniform) → InBox G x →
    0 ≤ wt 3 G (List.replicate G.length 0) x idx
  | [], _, _, _, _, _ => by simp [wt]
  | g :: G, x :: xs, [], _, _, _ => by simp [wt]
  | g :: G, x :: xs, i :: idx, hG, hu, hx => by
    cases hx with
    | cons h1 h2 =>
      have ih := wt_three_nonneg G xs idx (fun g' h' => hG g' (by simp [h']))
        (fun g' h' => hu g' (by simp [h'])) h2
      have := basis_three_nonneg (hG g (by simp)) (hu g (by simp)) h1.1 h1.2 i
      have := mul_nonneg this ih
      simpa [wt, List.replicate_succ] using this
  | g :: G, [], _, _, _, hx => by cases hx

theorem evalAt_three_const : ∀ (G : List (GridDim F)) (x : List F) (v : F),
    (∀ g ∈ G, ValidAxis g) → (∀ g ∈ G, g.gtype = .uniform) → x.length = G.length →
    evalAt 3 G (List.replicate G.length 0) x (fun _ => v) = v
  | [], _, _, _, _, _ => by simp [evalAt]
  | g :: G, [], _, _, _, hx => by simp at hx
  | g :: G, x :: xs, v, hG, hu, hx => by
    rw [List.length_cons, List.replicate_succ, evalAt_cons,
      evalAt_three_const G xs v (fun g' h' => hG g' (by simp [h']))
        (fun g' h' => hu g' (by simp [h'])) (by simpa using hx)]
    have h1 := hG g (by simp)
    have h2 := hu g (by simp)
    cases g with
    | array gc => cases h2
    | uniform a b n => exact axisOp_three_const h1 x v

/-- C24. At each point there are weights, the same for all coefficient arrays, summing to one, and
nonnegative when the point is in the box of the grid, such that evaluating a cubic spline is taking
the weighted sum of its coefficients. -/
theorem C24_cubic_convex (hG : ValidGrid G) (hu : ∀ g ∈ G, g.gtype = .uniform) (x : List F)
    (hx : x.length = G.length) :
    ∃ w : List ℕ → F,
      ((allIdx (G.map fun g => nNodes g + 2)).map w).sum = 1 ∧
      (InBox G x → ∀ idx, 0 ≤ w idx) ∧
      ∀ (C : NdArray F) (vec : Bool) (m : ℕ), Request 3 G C vec m none →
        Returns 3 G C vec m none "linear" x (fun tail =>
          ((allIdx (G.map fun g => nNodes g + 2)).map fun idx => w idx * C.get (idx ++ tail)).sum) := by
  refine ⟨wt 3 G (List.replicate G.length 0) x, ?_, fun hbox idx =>
    wt_three_nonneg G x idx hG.2 hu hbox, fun C vec m h => ?_⟩
  · have := evalAt_expand 3 (Or.inr rfl) G (List.replicate G.length 0) x (fun _ => 1) hG.2 (by simp) hx
    rw [evalAt_three_const G x 1 hG.2 hu hx] at this
    simp only [mul_one] at this
    exact this.symm
  · refine ((fam_spec h).value x hx).congr fun tail ht => ?_
    exact evalAt_expand 3 (Or.inr rfl) G _ x _ hG.2 (by simp) hx

theorem list_sum_le_of {α : Type} (l : List α) (f g : α → F) (h : ∀ a ∈ l, f a ≤ g a) :
    (l.map f).sum ≤ (l.map g).sum := by
  induction l with
  | nil => simp
  | cons a l ih =>
    simp only [List.map_cons, List.sum_cons]
    exact add_le_add (h a (by simp)) (ih fun b hb => h b (by simp [hb]))

/-- C24, consequence: inside the box (in every mode), and everywhere in mode nearest, the result is
between any bounds of the coefficients. -/
theorem C24_cubic_range (h : Request 3 G C vec m none) (mode : String) (x : List F)
    (hx : x.length = G.length) (hmode : InBox G x ∨ mode = "nearest") (lower upper : List ℕ → F)
    (hb : ∀ idx tail, InShape (G.map fun g => nNodes g + 2) idx →
      InShape (tailShape vec m none) tail →
      lower tail ≤ C.get (idx ++ tail) ∧ C.get (idx ++ tail) ≤ upper tail) :
    ∃ E, Returns 3 G C vec m none mode x E ∧
      ∀ tail, InShape (tailShape vec m none) tail → lower tail ≤ E tail ∧ E tail ≤ upper tail := by
  have hu := (h.degree.resolve_left (by norm_num)).2
  refine ⟨_, h.good.returns mode x hx, fun tail ht => ?_⟩
  have key : ∀ y, InBox G y →
      lower tail ≤ evalAt 3 G (List.replicate G.length 0) y (fun r => C.get (r ++ tail)) ∧
      evalAt 3 G (List.replicate G.length 0) y (fun r => C.get (r ++ tail)) ≤ upper tail := by
    intro y hy
    have hyl := (List.Forall₂.length_eq hy).symm
    have e : ∀ c : List ℕ → F, evalAt 3 G (List.replicate G.length 0) y c = _ := fun c =>
      evalAt_expand 3 (Or.inr rfl) G _ y c h.grid.2 (by simp) hyl
    constructor
    · rw [← evalAt_three_const G y (lower tail) h.grid.2 hu hyl, e, e]
      exact list_sum_le_of _ _ _ fun idx hidx =>
        mul_le_mul_of_nonneg_left (hb idx tail ((mem_allIdx _ _).1 hidx) ht).1
          (wt_three_nonneg G y idx h.grid.2 hu hy)
    · rw [← evalAt_three_const G y (upper tail) h.grid.2 hu hyl, e, e]
      exact list_sum_le_of _ _ _ fun idx hidx =>
        mul_le_mul_of_nonneg_left (hb idx tail ((mem_allIdx _ _).1 hidx) ht).2
          (wt_three_nonneg G y idx h.grid.2 hu hy)
  rw [rowEntry_plain 3 mode G C vec m _ tail ht]
  rcases hmode with hbox | rfl
  · rw [evalMode_inBox 3 mode G _ _ _ h.grid.2 hbox]
    exact key x hbox
  · have : evalMode 3 "nearest" G (List.replicate G.length 0) x (fun r => C.get (r ++ tail))
        = evalAt 3 G (List.replicate G.length 0) (projBox G x) (fun r => C.get (r ++ tail)) := by
      rw [← zipWith_clamp G x h.grid.2]; rfl
    rw [this]
    exact key _ (projBox_inBox G x h.grid.2 hx)

/-! ### Concrete instances -/

def demoG3 : List (GridDim ℚ) := [.uniform (-1) 2 2, .uniform 0 1 4]
def demoC3 : NdArray ℚ := ⟨[4, 6, 2], fun idx => (idx.sum : ℚ) ^ 3⟩

theorem demo_request3 : Request 3 demoG3 demoC3 true 2 none := by
  refine ⟨⟨by simp [demoG3], fun g hg => ?_⟩, by simp [demoG3, demoC3, nNodes], Or.inr ⟨rfl, ?_⟩,
    by simp⟩
  · simp only [demoG3, List.mem_cons, List.not_mem_nil, or_false] at hg
    rcases hg with rfl | rfl <;> exact ⟨by norm_num, by norm_num⟩
  · intro g hg
    simp only [demoG3, List.mem_cons, List.not_mem_nil, or_false] at hg
    rcases hg with rfl | rfl <;> rfl

example : ∃ V, SplineFamily 3 demoG3 demoC3 true 2 V ∧
    V [0, 0] [7, 1/2] [1] = V [0, 0] [2, 1/2] [1] + (7 - 2) * V [1, 0] [2, 1/2] [1] := by
  obtain ⟨V, h1, h2⟩ := C22_cubic_tangent demo_request3
  exact ⟨V, h1, (h2 [0, 1/2] [0, 0] 0 (-1) 2 7 2 [1] rfl rfl rfl).2 (by norm_num)⟩

example : ∃ E, Returns 3 demoG3 demoC3 true 2 none "nearest" [7, -3] E ∧
    ∀ tail, InShape (tailShape true 2 none) tail → 0 ≤ E tail ∧ E tail ≤ 1000 := by
  refine C24_cubic_range demo_request3 "nearest" [7, -3] rfl (Or.inr rfl) (fun _ => 0)
    (fun _ => 1000) ?_
  intro idx tail hidx ht
  have hi : idx.sum + tail.sum ≤ 10 := by
    match idx, tail, hidx, ht with
    | [i, j], [l], ⟨h1, h2, _⟩, ⟨h3, _⟩ =>
      have h1 : i < 4 := h1
      have h2 : j < 6 := h2
      simp; omega
  have h0 : (0 : ℚ) ≤ ((idx ++ tail).sum : ℕ) := by positivity
  have h1 : (((idx ++ tail).sum : ℕ) : ℚ) ≤ 10 := by
    rw [List.sum_append]; exact_mod_cast hi
  refine ⟨pow_nonneg h0 3, ?_⟩
  calc (((idx ++ tail).sum : ℕ) : ℚ) ^ 3 ≤ 10 ^ 3 := pow_le_pow_left₀ h0 h1 3
    _ = 1000 := by norm_num

end Interp.Props
