import Verif.Props.CubicRounding
import Verif.Props.CubicError
import Verif.Props.CubicLocal
import Verif.Props.MlinterpRounding

/-!
# Rounding errors and interpolation errors together: C133

The data are floating-point approximations of the values of a function at the nodes, and everything is
computed with rounding (`Verif.Spec.Rounding`): how far is the result from the function?
-/

set_option linter.unusedSectionVars false

namespace Interp.Props
open Interp.Codegen Interp.Spec Interp.Ref Interp.Filter

/-- The data are the values of the functions `f` at the nodes up to `η`. -/
def SamplesUpTo (η : ℝ) (G : List (GridDim ℝ)) (C : NdArray ℝ) (vec : Bool) (m : ℕ)
    (f : List ℕ → List ℝ → ℝ) : Prop :=
  ∀ idx tail, InShape (gridShape G) idx → InShape (tailShape vec m none) tail →
    |C.get (idx ++ tail) - f tail (nodeAt G idx)| ≤ η

/-- The exact values of the functions at the nodes. -/
noncomputable def sampled (G : List (GridDim ℝ)) (sh : List ℕ) (f : List ℕ → List ℝ → ℝ) : NdArray ℝ :=
  ⟨sh, fun r => f (r.drop G.length) (nodeAt G (r.take G.length))⟩

theorem sampled_get (G : List (GridDim ℝ)) (sh : List ℕ) (f : List ℕ → List ℝ → ℝ) (idx tail : List ℕ)
    (h : InShape (gridShape G) idx) : (sampled G sh f).get (idx ++ tail) = f tail (nodeAt G idx) := by
  have hl : idx.length = G.length := by simpa [gridShape] using inShape_length h
  simp [sampled, ← hl]

/-- Linear interpolation of perturbed data. -/
theorem linear_perturbed {G : List (GridDim ℝ)} {A B : NdArray ℝ} {vec : Bool} {m : ℕ}
    (hA : Request 1 G A vec m none) (hB : Request 1 G B vec m none) {mode : String} {x : List ℝ}
    (hx : InBox G x) {E E' : List ℕ → ℝ} (hE : Returns 1 G A vec m none mode x E)
    (hE' : Returns 1 G B vec m none mode x E') {η : ℝ} {tail : List ℕ}
    (ht : InShape (tailShape vec m none) tail)
    (h : ∀ idx, InShape (gridShape G) idx → |A.get (idx ++ tail) - B.get (idx ++ tail)| ≤ η) :
    |E tail - E' tail| ≤ η := by
  have hxl : x.length = G.length := hx.length_eq.symm
  rw [Returns.unique hxl hE (hA.good.returns mode x hxl) tail ht,
    Returns.unique hxl hE' (hB.good.returns mode x hxl) tail ht,
    rowEntry_plain 1 _ G A vec m _ tail ht, rowEntry_plain 1 _ G B vec m _ tail ht,
    evalMode_inBox 1 mode G _ _ _ hA.grid.2 hx, evalMode_inBox 1 mode G _ _ _ hA.grid.2 hx]
  have e := evalAt_linear 1 G (List.replicate G.length 0) x (fun r => A.get (r ++ tail))
    (fun r => B.get (r ++ tail)) 1 (-1)
  have := plain_abs_le G x (fun r => 1 * A.get (r ++ tail) + -1 * B.get (r ++ tail)) η hA.grid.2 hx
    (fun idx hidx => by
      rw [show 1 * A.get (idx ++ tail) + -1 * B.get (idx ++ tail) = A.get (idx ++ tail) - B.get (idx ++ tail) by
        ring]
      exact h idx hidx)
  rw [plain, e] at this
  rwa [one_mul, neg_one_mul, ← sub_eq_add_neg] at this

variable {R : Rounding} {G : List (GridDim (Fl R))} {D C' : NdArray (Fl R)} {vec : Bool} {m : ℕ}

/-- C133. Linear interpolation computed with rounding approximates the function: if along axis `i` the
second derivative is bounded by `M i` and the nodes are at distance at most `H i`, the error at a point of
the grid is at most `∑ M i (H i)² / 8`, plus the error `η` of the data, plus the rounding error of C78. -/
theorem C133_linear (h : Request 1 (G.map exactAxis) (exactArray D) vec m none)
    (hs : ∀ g ∈ G, axisErr R (exactAxis g) ≤ 1 / 4) (f : List ℕ → List ℝ → ℝ) (η : ℝ)
    (hD : SamplesUpTo η (G.map exactAxis) (exactArray D) vec m f) (M H : ℕ → ℝ)
    (hH : ∀ i g, (G.map exactAxis)[i]? = some g → MeshLe g (H i)) (hM : ∀ i, 0 ≤ M i)
    (hf : ∀ tail i g, InShape (tailShape vec m none) tail → (G.map exactAxis)[i]? = some g →
      ∀ y, InBox (G.map exactAxis) y → SecondDerivLe (fun t => f tail (y.set i t)) (first g) (last g) (M i))
    (B : List ℕ → ℝ)
    (hB : ∀ idx tail, InShape (gridShape (G.map exactAxis)) idx →
      InShape (tailShape vec m none) tail → |(D.get (idx ++ tail)).val| ≤ B tail)
    (mode : String) (x : List (Fl R)) (hx : InBox (G.map exactAxis) (x.map Fl.val)) :
    ∃ E, Returns 1 G D vec m none mode x E ∧ ∀ tail, InShape (tailShape vec m none) tail →
      |(E tail).val - f tail (x.map Fl.val)|
        ≤ ∑ i ∈ Finset.range G.length, M i * H i ^ 2 / 8 + η
          + ((G.map fun g => 1 + axisErr R (exactAxis g)).prod - 1) * B tail := by
  have hxl : x.length = G.length := by
    have := hx.length_eq
    simpa using this.symm
  obtain ⟨E, E', h1, h2, h3⟩ := C78_linear_rounding h hs mode x hxl (Or.inl hx) B hB
  have hS : Request 1 (G.map exactAxis) (sampled (G.map exactAxis) (exactArray D).shape f) vec m none :=
    ⟨h.grid, h.shape, h.degree, h.orders_ok⟩
  obtain ⟨E0, h4, h5⟩ := C80_error_smooth hS f
    (fun idx tail hidx _ => sampled_get _ _ f idx tail hidx) M H hH hM hf mode _ hx
  refine ⟨E', h2, fun tail ht => ?_⟩
  have h6 := linear_perturbed h hS hx h1 h4 ht fun idx hidx => by
    rw [sampled_get _ _ f idx tail hidx]; exact hD idx tail hidx ht
  have h7 := h5 tail ht
  rw [List.length_map] at h7
  have t1 := abs_sub_le (E' tail).val (E tail) (f tail (x.map Fl.val))
  have t2 := abs_sub_le (E tail) (E0 tail) (f tail (x.map Fl.val))
  have t3 := h3 tail ht
  linarith

/-- Cubic interpolation computed with rounding: any error bound of the exact interpolant of the exact
values carries over. -/
theorem cubic_rounded_error (hu : R.u ≤ 1 / 1000)
    (h : FilterRequest (G.map exactAxis) (exactArray D) vec m) (hC' : FilterOutcome G D vec m C')
    (hs : ∀ g ∈ G, cubicErr R (exactAxis g) ≤ 1 / 2) (f : List ℕ → List ℝ → ℝ) (η : ℝ)
    (hD : SamplesUpTo η (G.map exactAxis) (exactArray D) vec m f) (e : ℝ)
    (B : List ℕ → ℝ)
    (hB : ∀ idx tail, InShape (gridShape G) idx →
      InShape (tailShape vec m none) tail → |(D.get (idx ++ tail)).val| ≤ B tail)
    (mode : String) (x : List (Fl R)) (hx : InBox (G.map exactAxis) (x.map Fl.val))
    (he : ∀ C, FilterRequest (G.map exactAxis) (sampled (G.map exactAxis) (exactArray D).shape f) vec m →
      FilterOutcome (G.map exactAxis) (sampled (G.map exactAxis) (exactArray D).shape f) vec m C →
      ∃ E, Returns 3 (G.map exactAxis) C vec m none mode (x.map Fl.val) E ∧
        ∀ tail, InShape (tailShape vec m none) tail → |E tail - f tail (x.map Fl.val)| ≤ e) :
    ∃ E, Returns 3 G C' vec m none mode x E ∧ ∀ tail, InShape (tailShape vec m none) tail →
      |(E tail).val - f tail (x.map Fl.val)|
        ≤ e + (5 / 2) ^ G.length * η
          + ((G.map fun g => (1 + cubicErr R (exactAxis g)) * (5 + 540 * R.u)).prod - 5 ^ G.length)
            * B tail := by
  have hxe : (x.map Fl.val).length = (G.map exactAxis).length := hx.length_eq.symm
  have hxl : x.length = G.length := by simpa using hxe
  obtain ⟨C, hC, -⟩ := h.alloc
  obtain ⟨E, E', h1, h2, h3⟩ := C103_interpolation_rounding hu h (.alloc hC) hC' hs mode x hxl (Or.inl hx) B hB
  have hS : FilterRequest (G.map exactAxis) (sampled (G.map exactAxis) (exactArray D).shape f) vec m :=
    ⟨h.grid, h.uniform, h.dim, h.shape⟩
  obtain ⟨C0, hC0, -⟩ := hS.alloc
  obtain ⟨E0, h4, h5⟩ := he C0 hS (.alloc hC0)
  refine ⟨E', h2, fun tail ht => ?_⟩
  have e1 := Returns.unique hxe h1 (returns_spl h (.alloc hC) mode _ hx) tail ht
  have e2 := Returns.unique hxe h4 (returns_spl hS (.alloc hC0) mode _ hx) tail ht
  have h6 : |E tail - E0 tail| ≤ (5 / 2) ^ G.length * η := by
    rw [e1, e2]
    have el := spl_linear h.grid.2 h.uniform (fun r => (exactArray D).get (r ++ tail))
      (fun r => (sampled (G.map exactAxis) (exactArray D).shape f).get (r ++ tail)) 1 (-1) hxe
    have := spl_le (G.map exactAxis) (fun r => 1 * (exactArray D).get (r ++ tail)
      + -1 * (sampled (G.map exactAxis) (exactArray D).shape f).get (r ++ tail)) _ η h.grid.2 h.uniform hx
      (fun idx hidx => by
        have := hD idx tail hidx ht
        rw [sampled_get _ _ f idx tail hidx]
        rwa [one_mul, neg_one_mul, ← sub_eq_add_neg])
    rw [el, List.length_map] at this
    rwa [one_mul, neg_one_mul, ← sub_eq_add_neg] at this
  have t1 := abs_sub_le (E' tail).val (E tail) (f tail (x.map Fl.val))
  have t2 := abs_sub_le (E tail) (E0 tail) (f tail (x.map Fl.val))
  have t3 := h3 tail ht
  have t4 := h5 tail ht
  linarith

/-- C133. Cubic interpolation, filtered and evaluated with rounding, approximates the function: if along
axis `i` the second derivative is bounded by `M i` and the spacing is at most `H i`, the error at a point of
the grid is at most `∑ (5/2)^i M i (H i)² / 2`, plus the error of the data times `(5/2)^d`, plus the rounding
error of C103. -/
theorem C133_cubic (hu : R.u ≤ 1 / 1000)
    (h : FilterRequest (G.map exactAxis) (exactArray D) vec m) (hC' : FilterOutcome G D vec m C')
    (hs : ∀ g ∈ G, cubicErr R (exactAxis g) ≤ 1 / 2) (f : List ℕ → List ℝ → ℝ) (η : ℝ)
    (hD : SamplesUpTo η (G.map exactAxis) (exactArray D) vec m f) (M H : ℕ → ℝ)
    (hH : ∀ i g, (G.map exactAxis)[i]? = some g → MeshLe g (H i)) (hM : ∀ i, 0 ≤ M i)
    (hf : ∀ tail i g, InShape (tailShape vec m none) tail → (G.map exactAxis)[i]? = some g →
      ∀ y, InBox (G.map exactAxis) y → SecondDerivLe (fun t => f tail (y.set i t)) (first g) (last g) (M i))
    (B : List ℕ → ℝ)
    (hB : ∀ idx tail, InShape (gridShape G) idx →
      InShape (tailShape vec m none) tail → |(D.get (idx ++ tail)).val| ≤ B tail)
    (mode : String) (x : List (Fl R)) (hx : InBox (G.map exactAxis) (x.map Fl.val)) :
    ∃ E, Returns 3 G C' vec m none mode x E ∧ ∀ tail, InShape (tailShape vec m none) tail →
      |(E tail).val - f tail (x.map Fl.val)|
        ≤ ∑ i ∈ Finset.range G.length, (5 / 2) ^ i * (M i * H i ^ 2 / 2) + (5 / 2) ^ G.length * η
          + ((G.map fun g => (1 + cubicErr R (exactAxis g)) * (5 + 540 * R.u)).prod - 5 ^ G.length)
            * B tail :=
  cubic_rounded_error hu h hC' hs f η hD _ B hB mode x hx fun C hS hC => by
    have := C88_cubic_error_smooth hS hC f (fun idx tail hidx _ => sampled_get _ _ f idx tail hidx) M H hH hM
      hf mode _ hx
    rwa [List.length_map] at this

/-- C133. Fourth order: if the second derivative along every axis vanishes at both ends and the fourth
derivative is bounded by `M i`, the first part of the bound is `∑ (5/2)^i · 7/64 · M i (H i)⁴`. -/
theorem C133_cubic_fourth (hu : R.u ≤ 1 / 1000)
    (h : FilterRequest (G.map exactAxis) (exactArray D) vec m) (hC' : FilterOutcome G D vec m C')
    (hs : ∀ g ∈ G, cubicErr R (exactAxis g) ≤ 1 / 2) (f : List ℕ → List ℝ → ℝ) (η : ℝ)
    (hD : SamplesUpTo η (G.map exactAxis) (exactArray D) vec m f) (M H : ℕ → ℝ)
    (hH : ∀ i g, (G.map exactAxis)[i]? = some g → MeshLe g (H i)) (hM : ∀ i, 0 ≤ M i)
    (hf : ∀ tail i g, InShape (tailShape vec m none) tail → (G.map exactAxis)[i]? = some g →
      ∀ y, InBox (G.map exactAxis) y → NaturalFourth (fun t => f tail (y.set i t)) (first g) (last g) (M i))
    (B : List ℕ → ℝ)
    (hB : ∀ idx tail, InShape (gridShape G) idx →
      InShape (tailShape vec m none) tail → |(D.get (idx ++ tail)).val| ≤ B tail)
    (mode : String) (x : List (Fl R)) (hx : InBox (G.map exactAxis) (x.map Fl.val)) :
    ∃ E, Returns 3 G C' vec m none mode x E ∧ ∀ tail, InShape (tailShape vec m none) tail →
      |(E tail).val - f tail (x.map Fl.val)|
        ≤ ∑ i ∈ Finset.range G.length, (5 / 2) ^ i * (7 / 64 * (M i * H i ^ 4)) + (5 / 2) ^ G.length * η
          + ((G.map fun g => (1 + cubicErr R (exactAxis g)) * (5 + 540 * R.u)).prod - 5 ^ G.length)
            * B tail :=
  cubic_rounded_error hu h hC' hs f η hD _ B hB mode x hx fun C hS hC => by
    have := C90_cubic_fourth_order hS hC f (fun idx tail hidx _ => sampled_get _ _ f idx tail hidx) M H hH hM
      hf mode _ hx
    rwa [List.length_map] at this

/-- C133. Away from the boundary: if the fourth derivative along axis `i` is bounded by `M i` and the second
by `B₂ i` at the ends, and `x` is at least `k i` cells from both ends, the first part of the bound is
`∑ (5/2)^i (7/64 · M i (H i)⁴ + B₂ i (H i)² (2 - √3)^(k i))`. -/
theorem C133_cubic_interior (hu : R.u ≤ 1 / 1000)
    (h : FilterRequest (G.map exactAxis) (exactArray D) vec m) (hC' : FilterOutcome G D vec m C')
    (hs : ∀ g ∈ G, cubicErr R (exactAxis g) ≤ 1 / 2) (f : List ℕ → List ℝ → ℝ) (η : ℝ)
    (hD : SamplesUpTo η (G.map exactAxis) (exactArray D) vec m f) (M B₂ H : ℕ → ℝ)
    (hH : ∀ i g, (G.map exactAxis)[i]? = some g → MeshLe g (H i)) (hM : ∀ i, 0 ≤ M i) (hB₂ : ∀ i, 0 ≤ B₂ i)
    (hf : ∀ tail i g, InShape (tailShape vec m none) tail → (G.map exactAxis)[i]? = some g →
      ∀ y, InBox (G.map exactAxis) y → FourthLe (fun t => f tail (y.set i t)) (first g) (last g) (M i) (B₂ i))
    (B : List ℕ → ℝ)
    (hB : ∀ idx tail, InShape (gridShape G) idx →
      InShape (tailShape vec m none) tail → |(D.get (idx ++ tail)).val| ≤ B tail)
    (mode : String) (x : List (Fl R)) (hx : InBox (G.map exactAxis) (x.map Fl.val)) (k : ℕ → ℕ)
    (hk : ∀ (i : ℕ) (g : GridDim ℝ) (t : ℝ), (G.map exactAxis)[i]? = some g → (x.map Fl.val)[i]? = some t →
      k i * spacing g ≤ t - first g ∧ k i * spacing g ≤ last g - t) :
    ∃ E, Returns 3 G C' vec m none mode x E ∧ ∀ tail, InShape (tailShape vec m none) tail →
      |(E tail).val - f tail (x.map Fl.val)|
        ≤ ∑ i ∈ Finset.range G.length,
            (5 / 2) ^ i * (7 / 64 * (M i * H i ^ 4) + B₂ i * H i ^ 2 * (2 - √3) ^ k i)
          + (5 / 2) ^ G.length * η
          + ((G.map fun g => (1 + cubicErr R (exactAxis g)) * (5 + 540 * R.u)).prod - 5 ^ G.length)
            * B tail :=
  cubic_rounded_error hu h hC' hs f η hD _ B hB mode x hx fun C hS hC => by
    have := C105_interior_accuracy hS hC f (fun idx tail hidx _ => sampled_get _ _ f idx tail hidx) M B₂ H hH
      hM hB₂ hf mode _ hx k hk
    rwa [List.length_map] at this

/-- Two calls on the same point return the same numbers. -/
theorem returns_unique_fl {k : ℕ} {orders : Option (List (List ℕ))} {mode : String} {x : List (Fl R)}
    {E E' : List ℕ → Fl R} (hx : x.length = G.length)
    (h : Returns k G D vec m orders mode x E) (h' : Returns k G D vec m orders mode x E')
    (tail : List ℕ) (ht : InShape (tailShape vec m orders) tail) : E tail = E' tail := by
  obtain ⟨A, h1, _, h3⟩ := h.rows [x] (by simpa using hx)
  obtain ⟨A', h1', _, h3'⟩ := h'.rows [x] (by simpa using hx)
  rw [h1] at h1'
  have : A = A' := by injection h1' with h1'; injection h1' with h1'; injection h1'
  subst this
  rw [← h3 0 rfl tail ht, ← h3' 0 rfl tail ht]

/-- C133 for `mlinterp` on nonuniform axes. -/
theorem C133_mlinterp (hu : R.u < 1) (axes : List (List (Fl R)))
    (h : GridData ((axes.map GridDim.array).map exactAxis) (exactArray D)) (hs : 13 * R.u ≤ 1 / 4)
    (f : List ℝ → ℝ) (η : ℝ)
    (hD : ∀ idx, InShape (gridShape ((axes.map GridDim.array).map exactAxis)) idx →
      |(D.get idx).val - f (nodeAt ((axes.map GridDim.array).map exactAxis) idx)| ≤ η) (M H : ℕ → ℝ)
    (hH : ∀ i g, ((axes.map GridDim.array).map exactAxis)[i]? = some g → MeshLe g (H i)) (hM : ∀ i, 0 ≤ M i)
    (hf : ∀ i g, ((axes.map GridDim.array).map exactAxis)[i]? = some g →
      ∀ y, InBox ((axes.map GridDim.array).map exactAxis) y →
        SecondDerivLe (fun t => f (y.set i t)) (first g) (last g) (M i)) (B : ℝ)
    (hB : ∀ idx, InShape (gridShape ((axes.map GridDim.array).map exactAxis)) idx → |(D.get idx).val| ≤ B) :
    ∃ v, MlReturns (axes.map .array) D v ∧ ∀ x : List (Fl R),
      InBox ((axes.map GridDim.array).map exactAxis) (x.map Fl.val) →
      |(v x).val - f (x.map Fl.val)| ≤ ∑ i ∈ Finset.range axes.length, M i * H i ^ 2 / 8 + η
        + ((1 + 13 * R.u) ^ axes.length - 1) * B := by
  obtain ⟨v, hv, hr⟩ := C107_mlinterp_eq_linear hu axes h
  refine ⟨v, hv, fun x hx => ?_⟩
  have hxl : x.length = axes.length := by simpa using hx.length_eq.symm
  have q : Request 1 ((axes.map GridDim.array).map exactAxis) (exactArray D) false 1 none := by
    refine ⟨h.grid, ?_, Or.inl rfl, fun os hos => by simp at hos⟩
    rw [h.shape]
    simp [gridShape]
  have ht0 : ∀ {tail}, InShape (tailShape false 1 none) tail → tail = [] := by
    intro tail ht
    match tail, ht with
    | [], _ => rfl
  obtain ⟨E, hE, hb⟩ := C133_linear q
    (by intro g hg; obtain ⟨a, -, rfl⟩ := List.mem_map.1 hg; simpa [exactAxis, axisErr] using hs)
    (fun _ => f) η
    (fun idx tail hidx ht => by rw [ht0 ht, List.append_nil]; exact hD idx hidx) M H hH hM
    (fun tail i g _ hg => hf i g hg) (fun _ => B)
    (fun idx tail hidx ht => by rw [ht0 ht, List.append_nil]; exact hB idx hidx) "linear" x hx
  have hl : x.length = (axes.map (GridDim.array (K := Fl R))).length := by rw [List.length_map]; exact hxl
  have e := returns_unique_fl hl (hr x hxl) hE [] trivial
  have := hb [] trivial
  rw [← e] at this
  refine this.trans (le_of_eq ?_)
  simp [exactAxis, axisErr, Function.comp_def, List.map_const']

/-! ### A concrete case in double precision -/

/-- Eleven nodes between 0 and 1. -/
noncomputable def reG : List (GridDim (Fl double)) := [.uniform ⟨0⟩ ⟨1⟩ 11]

theorem reG_exact : reG.map exactAxis = [GridDim.uniform (0 : ℝ) 1 11] := rfl

theorem sin_smooth (tail : List ℕ) (i : ℕ) (g : GridDim ℝ) (hg : [GridDim.uniform (0 : ℝ) 1 11][i]? = some g)
    (y : List ℝ) (hy : InBox [GridDim.uniform (0 : ℝ) 1 11] y) :
    SecondDerivLe (fun t => (fun (_ : List ℕ) (y : List ℝ) => Real.sin (1 * y.headD 0)) tail (y.set i t))
      (first g) (last g) 1 := by
  have hi : i = 0 := by have := (List.getElem?_eq_some_iff.1 hg).1; simpa using this
  subst hi
  obtain ⟨s, rfl⟩ : ∃ s, y = [s] := by
    cases hy with
    | cons a b => cases b; exact ⟨_, rfl⟩
  refine ⟨fun t _ => (sin_deriv 1 t).continuousAt.continuousWithinAt, _, _, fun t _ =>
    ⟨sin_deriv 1 t, cos_deriv 1 t, ?_⟩⟩
  have := Real.abs_sin_le_one (1 * t)
  simpa using this

/-- In double precision: eleven values of the sine with an error of at most `10⁻¹⁵` each, rounded to
doubles; linear interpolation at a double between 0 and 1 has an error of at most `1/800 + 10⁻¹²`, cubic
interpolation, with the filter, of at most `1/200 + 10⁻¹⁰`. -/
example (v : ℕ → Fl double) (hv : ∀ i ≤ 10, |(v i).val - Real.sin (1 * ((i : ℝ) / 10))| ≤ 1 / 10 ^ 15)
    (t : Fl double) (h0 : 0 ≤ t.val) (h1 : t.val ≤ 1) :
    (∃ E, Returns 1 reG ⟨[11], fun idx => v (idx.headD 0)⟩ false 0 none "linear" [t] E ∧
      |(E []).val - Real.sin (1 * t.val)| ≤ 1 / 800 + 1 / 10 ^ 12) ∧
    ∃ C E, filterCubic reG ⟨[11], fun idx => v (idx.headD 0)⟩ = .ok C ∧
      Returns 3 reG C false 0 none "linear" [t] E ∧
      |(E []).val - Real.sin (1 * t.val)| ≤ 1 / 200 + 1 / 10 ^ 10 := by
  have hu := double_u
  have hu' : double.u ≤ 1 / 1000 := by rw [hu]; norm_num
  have t11 : Int.toNat 11 = 11 := rfl
  have r : FilterRequest (reG.map exactAxis) (exactArray ⟨[11], fun idx => v (idx.headD 0)⟩) false 0 :=
    ⟨(sin_filter_request 1).grid, (sin_filter_request 1).uniform, by simp [reG], rfl⟩
  have q : Request 1 (reG.map exactAxis) (exactArray ⟨[11], fun idx => v (idx.headD 0)⟩) false 0 none :=
    ⟨r.grid, r.shape, Or.inl rfl, by simp⟩
  have hD : SamplesUpTo (1 / 10 ^ 15) (reG.map exactAxis) (exactArray ⟨[11], fun idx => v (idx.headD 0)⟩)
      false 0 (fun _ y => Real.sin (1 * y.headD 0)) := by
    intro idx tail hi ht
    have e := sin_samples 1 idx tail hi ht
    match idx, hi, tail, ht with
    | [i], hi, [], _ =>
      have := hv i (by have : i < 11 := hi.1; omega)
      rw [show Real.sin (1 * ((i : ℝ) / 10)) = Real.sin (1 * (nodeAt (reG.map exactAxis) [i]).headD 0) from e] at this
      exact this
  have hB : ∀ idx tail, InShape (gridShape (reG.map exactAxis)) idx → InShape (tailShape false 0 none) tail →
      |((⟨[11], fun idx => v (idx.headD 0)⟩ : NdArray (Fl double)).get (idx ++ tail)).val| ≤ 2 := by
    intro idx tail hi ht
    match idx, hi, tail, ht with
    | [i], hi, [], _ =>
      have a := hv i (by have : i < 11 := hi.1; omega)
      have b := Real.abs_sin_le_one (1 * ((i : ℝ) / 10))
      have c := abs_sub_abs_le_abs_sub (v i).val (Real.sin (1 * ((i : ℝ) / 10)))
      show |(v i).val| ≤ 2
      have : (1 : ℝ) / 10 ^ 15 ≤ 1 := by norm_num
      linarith
  have hx : InBox (reG.map exactAxis) ([t].map Fl.val) :=
    .cons ⟨first11.trans_le h0, h1.trans_eq last11.symm⟩ .nil
  constructor
  · obtain ⟨E, hE, hb⟩ := C133_linear q (by
        intro g hg
        obtain rfl : g = .uniform ⟨0⟩ ⟨1⟩ 11 := by simpa [reG] using hg
        simp only [exactAxis, axisErr, hu]; norm_num) _ _ hD (fun _ => 1) (fun _ => 1 / 10) mesh11 (by simp)
      (fun tail i g _ hg y hy => sin_smooth tail i g hg y hy) (fun _ => 2) hB "linear" [t] hx
    refine ⟨E, hE, (hb [] trivial).trans ?_⟩
    simp only [reG, List.map_cons, List.map_nil, List.prod_cons, List.prod_nil, exactAxis, axisErr, hu,
      List.length_cons, List.length_nil]
    norm_num
  · obtain ⟨C, hC⟩ := (C102_filter_rounding (C' := .zeros []) (C := .zeros []) hu' r).1.1
    obtain ⟨E, hE, hb⟩ := C133_cubic hu' r (.alloc hC) (by
        intro g hg
        obtain rfl : g = .uniform ⟨0⟩ ⟨1⟩ 11 := by simpa [reG] using hg
        simp only [exactAxis, cubicErr, nNodes, hu, t11]; norm_num) _ _ hD (fun _ => 1) (fun _ => 1 / 10) mesh11
      (by simp) (fun tail i g _ hg y hy => sin_smooth tail i g hg y hy) (fun _ => 2) hB "linear" [t] hx
    refine ⟨C, E, hC, hE, (hb [] trivial).trans ?_⟩
    simp only [reG, List.map_cons, List.map_nil, List.prod_cons, List.prod_nil, exactAxis, cubicErr, nNodes, hu,
      List.length_cons, List.length_nil, t11]
    norm_num

/-- The squares of 0, 1, 4. -/
noncomputable def reD : NdArray (Fl double) :=
  ⟨[3], fun idx => if idx = [0] then ⟨0⟩ else if idx = [1] then ⟨1⟩ else ⟨16⟩⟩

/-- `C133_mlinterp` applied: three squares in double precision on the nodes 0, 1, 4. -/
example : ∃ v, MlReturns [.array [⟨0⟩, ⟨1⟩, (⟨4⟩ : Fl double)]]
      reD v ∧
    ∀ t : Fl double, 0 ≤ t.val → t.val ≤ 4 → |(v [t]).val - t.val ^ 2| ≤ 9 / 4 + 1 / 10 ^ 13 := by
  have hu := double_u
  have hd : GridData (([[⟨0⟩, ⟨1⟩, (⟨4⟩ : Fl double)]].map GridDim.array).map exactAxis)
      (exactArray reD) := by
    refine ⟨⟨by simp, ?_⟩, by simp [reD, exactArray, exactAxis, nNodes, gridShape]⟩
    intro g hg
    simp only [List.map_cons, List.map_nil, List.mem_singleton, exactAxis] at hg
    subst hg
    simp [ValidAxis]
  have hi : ∀ idx, InShape (gridShape (([[⟨0⟩, ⟨1⟩, (⟨4⟩ : Fl double)]].map GridDim.array).map exactAxis)) idx →
      idx = [0] ∨ idx = [1] ∨ idx = [2] := by
    intro idx h
    match idx, h with
    | [i], h =>
      have : i < 3 := h.1
      interval_cases i <;> simp
  obtain ⟨v, hv, hb⟩ := C133_mlinterp (by rw [hu]; norm_num) _ hd (by rw [hu]; norm_num)
    (fun y => y.headD 0 ^ 2) 0
    (by
      intro idx h
      rcases hi idx h with rfl | rfl | rfl <;> norm_num [nodeAt, node, exactAxis, reD])
    (fun _ => 2) (fun _ => 3)
    (by
      intro i g hg j hj
      obtain rfl : g = .array [0, 1, 4] := by simpa [exactAxis] using List.mem_of_getElem? hg
      have hj' : j + 1 < 3 := by simpa [nNodes] using hj
      have : j < 2 := by omega
      interval_cases j <;> norm_num [node])
    (by simp)
    (by
      intro i g hg y hy
      have hi : i = 0 := by have := (List.getElem?_eq_some_iff.1 hg).1; simpa using this
      subst hi
      obtain ⟨s, rfl⟩ : ∃ s, y = [s] := by
        cases hy with
        | cons a b => cases b; exact ⟨_, rfl⟩
      refine ⟨(continuous_pow 2).continuousOn, fun t => 2 * t, fun _ => 2, fun t _ => ⟨?_, ?_, by norm_num⟩⟩
      · simpa using hasDerivAt_pow 2 t
      · simpa using (hasDerivAt_id t).const_mul 2)
    16
    (by
      intro idx h
      rcases hi idx h with rfl | rfl | rfl <;> norm_num [reD])
  refine ⟨v, hv, fun t h0 h4 => (hb [t] (.cons ⟨?_, ?_⟩ .nil)).trans ?_⟩
  · simpa [first, node, exactAxis] using h0
  · simpa [last, node, nNodes, exactAxis] using h4
  · rw [hu]; norm_num

end Interp.Props
