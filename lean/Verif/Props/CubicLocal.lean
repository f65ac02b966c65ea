import Verif.Proofs.CubicLocal
import Verif.Props.CubicError

/-!
# Locality of filtered cubic splines, and their accuracy away from the boundary: C104, C105
-/

set_option linter.unusedSectionVars false

namespace Interp.Props
open Interp.Codegen Interp.Spec Interp.Ref Interp.Filter Interp.FilterRef

/-- Distance between two neighbouring nodes of an evenly spaced axis. -/
def spacing {F : Type} [Field F] [LinearOrder F] (g : GridDim F) : F := node g 1 - node g 0

section
variable {F : Type} [Field F] [LinearOrder F] [IsStrictOrderedRing F] [FloorRing F]
  {G : List (GridDim F)} {D D' C C' : NdArray F} {vec : Bool} {m : ℕ}

theorem near_index : ∀ (G : List (GridDim F)) (x : List F) (idx : List ℕ) (R : ℕ), Near R G x idx →
    ∀ (i : ℕ) (g : GridDim F) (t : F) (k : ℕ), G[i]? = some g → x[i]? = some t → idx[i]? = some k →
      |t - node g k| < R * spacing g
  | [], _, _, _, _, _, _, _, _, h, _, _ => by simp at h
  | _ :: _, [], _, _, _, _, _, _, _, _, h, _ => by simp at h
  | _ :: _, _ :: _, [], _, _, _, _, _, _, _, _, h => by simp at h
  | _ :: _, _ :: _, _ :: _, _, hn, 0, _, _, _, h1, h2, h3 => by
    simp only [List.getElem?_cons_zero, Option.some.injEq] at h1 h2 h3
    subst h1 h2 h3
    exact hn.1
  | _ :: G, _ :: x, _ :: idx, R, hn, i + 1, g, t, k, h1, h2, h3 =>
    near_index G x idx R hn.2 i g t k (by simpa using h1) (by simpa using h2) (by simpa using h3)

/-- C104. Two sets of data that agree at all nodes closer than `R` cells to the point `x`, and differ by at
most `ε` elsewhere, give splines that differ at `x` by at most `d (5/2)^(d-1) · 15/2 · ρ^R · ε`, for every
`ρ` with `ρ (4 - ρ) ≥ 1`: for example `ρ = 1/3`, or `ρ = 2 - √3` over the reals. -/
theorem C104_cubic_locality (h : FilterRequest G D vec m) (hC : FilterOutcome G D vec m C)
    (h' : FilterRequest G D' vec m) (hC' : FilterOutcome G D' vec m C') (ε ρ : F) (R : ℕ)
    (hρ : 0 < ρ) (hρ' : 1 ≤ ρ * (4 - ρ)) (mode : String) (x : List F) (hx : InBox G x)
    (hε : ∀ idx tail, InShape (gridShape G) idx → InShape (tailShape vec m none) tail →
      |D.get (idx ++ tail) - D'.get (idx ++ tail)| ≤ ε)
    (hR : ∀ idx tail, InShape (gridShape G) idx → InShape (tailShape vec m none) tail →
      (∀ (i : ℕ) (g : GridDim F) (t : F) (k : ℕ), G[i]? = some g → x[i]? = some t → idx[i]? = some k →
        |t - node g k| < R * spacing g) →
      D.get (idx ++ tail) = D'.get (idx ++ tail)) :
    ∃ E E', Returns 3 G C vec m none mode x E ∧ Returns 3 G C' vec m none mode x E' ∧
      ∀ tail, InShape (tailShape vec m none) tail →
        |E tail - E' tail| ≤ G.length * (5 / 2) ^ (G.length - 1) * (15 / 2 * ρ ^ R) * ε := by
  refine ⟨_, _, returns_spl h hC mode x hx, returns_spl h' hC' mode x hx, fun tail ht => ?_⟩
  have e : spl G (fun idx => D.get (idx ++ tail)) x - spl G (fun idx => D'.get (idx ++ tail)) x
      = spl G (fun idx => 1 * D.get (idx ++ tail) + (-1) * D'.get (idx ++ tail)) x := by
    rw [spl_linear h.grid.2 h.uniform _ _ _ _ hx.length_eq.symm]; ring
  rw [e]
  refine spl_local hρ hρ' R G _ x ε h.grid.2 h.uniform hx (fun idx hi => ?_) fun idx hi hn => ?_
  · rw [show (1 : F) * D.get (idx ++ tail) + (-1) * D'.get (idx ++ tail)
      = D.get (idx ++ tail) - D'.get (idx ++ tail) by ring]
    exact hε idx tail hi ht
  · rw [hR idx tail hi ht (near_index G x idx R hn)]
    ring

/-- C104, a single node. Changing the data by at most `ε` at the single node `c` changes the spline at a
point that is `r i` cells away from this node along axis `i` by at most `∏ (15/2 ρ^(r i)) · ε`. -/
theorem C104_single_node (h : FilterRequest G D vec m) (hC : FilterOutcome G D vec m C)
    (h' : FilterRequest G D' vec m) (hC' : FilterOutcome G D' vec m C') (ε ρ : F) (c : List ℕ) (r : ℕ → ℕ)
    (hε : 0 ≤ ε) (hρ : 0 < ρ) (hρ' : 1 ≤ ρ * (4 - ρ)) (mode : String) (x : List F) (hx : InBox G x)
    (hc : ∀ tail, InShape (gridShape G) c → InShape (tailShape vec m none) tail →
      |D.get (c ++ tail) - D'.get (c ++ tail)| ≤ ε)
    (hne : ∀ idx tail, InShape (gridShape G) idx → InShape (tailShape vec m none) tail → idx ≠ c →
      D.get (idx ++ tail) = D'.get (idx ++ tail))
    (hr : ∀ (i : ℕ) (g : GridDim F) (t : F) (k : ℕ), G[i]? = some g → x[i]? = some t → c[i]? = some k →
      r i * spacing g ≤ |t - node g k|) :
    ∃ E E', Returns 3 G C vec m none mode x E ∧ Returns 3 G C' vec m none mode x E' ∧
      ∀ tail, InShape (tailShape vec m none) tail →
        |E tail - E' tail| ≤ (∏ i ∈ Finset.range G.length, 15 / 2 * ρ ^ r i) * ε := by
  refine ⟨_, _, returns_spl h hC mode x hx, returns_spl h' hC' mode x hx, fun tail ht => ?_⟩
  have e : spl G (fun idx => D.get (idx ++ tail)) x - spl G (fun idx => D'.get (idx ++ tail)) x
      = spl G (fun idx => 1 * D.get (idx ++ tail) + (-1) * D'.get (idx ++ tail)) x := by
    rw [spl_linear h.grid.2 h.uniform _ _ _ _ hx.length_eq.symm]; ring
  rw [e]
  refine spl_single hρ hρ' G _ x ε c r h.grid.2 h.uniform hx hε (fun hi => ?_) (fun idx hi hn => ?_) hr
  · rw [show (1 : F) * D.get (c ++ tail) + (-1) * D'.get (c ++ tail)
      = D.get (c ++ tail) - D'.get (c ++ tail) by ring]
    exact hc tail hi ht
  · rw [hne idx tail hi ht hn]
    ring

end

/-! ### Away from the boundary -/

section
variable {G : List (GridDim ℝ)} {D C : NdArray ℝ} {vec : Bool} {m : ℕ}

/-- `φ` has two derivatives in the interior of `[a, b]`; the second one extends continuously to the ends,
where it is at most `B` in absolute value, and has itself a second derivative bounded by `M`. -/
def FourthLe (φ : ℝ → ℝ) (a b M B : ℝ) : Prop :=
  ContinuousOn φ (Set.Icc a b) ∧ ∃ φ' φ'' : ℝ → ℝ,
    (∀ t ∈ Set.Ioo a b, HasDerivAt φ (φ' t) t ∧ HasDerivAt φ' (φ'' t) t) ∧
    SecondDerivLe φ'' a b M ∧ |φ'' a| ≤ B ∧ |φ'' b| ≤ B

/-- The rate of decay. -/
theorem rate_spec : 0 < 2 - √3 ∧ 1 ≤ (2 - √3) * (4 - (2 - √3)) ∧ 2 - √3 ≤ 1 := by
  have h3 : √3 ^ 2 = 3 := Real.sq_sqrt (by norm_num)
  have h0 := Real.sqrt_nonneg 3
  refine ⟨?_, ?_, ?_⟩ <;> nlinarith

/-- Comparison for the tridiagonal system with a small right-hand side. -/
theorem tri_decay {M : ℕ} (hM : 2 ≤ M) (q : ℕ → ℝ) {E B ρ : ℝ} (hE : 0 ≤ E) (hB : 0 ≤ B) (h0 : 0 < ρ)
    (h1 : 1 ≤ ρ * (4 - ρ)) (q0 : |q 0| ≤ B) (q1 : |q (M - 1)| ≤ B)
    (hD : ∀ j, j + 2 < M → |q j + 4 * q (j + 1) + q (j + 2)| ≤ 6 * E) :
    ∀ j < M, |q j| ≤ 3 * E + B * (ρ ^ j + ρ ^ (M - 1 - j)) := by
  set w : ℕ → ℝ := fun j => 3 * E + B * (ρ ^ j + ρ ^ (M - 1 - j)) with hw
  have wpos : ∀ j, 0 ≤ B * ρ ^ j := fun j => mul_nonneg hB (pow_nonneg h0.le j)
  obtain ⟨k, hk, hmax⟩ := Finset.exists_max_image (Finset.range M) (fun j => |q j| - w j)
    ⟨0, by simp; omega⟩
  have key : |q k| - w k ≤ 0 := by
    rw [Finset.mem_range] at hk
    by_cases e0 : k = 0
    · rw [e0, hw]; simp only [pow_zero]
      have := wpos (M - 1 - 0)
      linarith
    by_cases e1 : k = M - 1
    · rw [e1, hw]; simp only [Nat.sub_self, pow_zero]
      have := wpos (M - 1)
      linarith
    obtain ⟨i, rfl⟩ : ∃ i, k = i + 1 := ⟨k - 1, by omega⟩
    have a0 := hmax i (by simp; omega)
    have a2 := hmax (i + 2) (by simp; omega)
    have d := hD i (by omega)
    have e : 4 * |q (i + 1)| ≤ |q i| + |q (i + 2)| + 6 * E := by
      have e4 : 4 * q (i + 1) = (q i + 4 * q (i + 1) + q (i + 2)) - (q i + q (i + 2)) := by ring
      calc 4 * |q (i + 1)| = |4 * q (i + 1)| := by rw [abs_mul, abs_of_pos (by norm_num : (0 : ℝ) < 4)]
        _ = |(q i + 4 * q (i + 1) + q (i + 2)) - (q i + q (i + 2))| := by rw [← e4]
        _ ≤ |q i + 4 * q (i + 1) + q (i + 2)| + |q i + q (i + 2)| := abs_sub _ _
        _ ≤ 6 * E + (|q i| + |q (i + 2)|) := add_le_add d (abs_add_le _ _)
        _ = _ := by ring
    have ew : w i + w (i + 2) + 6 * E ≤ 4 * w (i + 1) := by
      obtain ⟨s, hs⟩ : ∃ s, M - 1 = s + (i + 2) := ⟨M - 1 - (i + 2), by omega⟩
      rw [hw]
      simp only
      rw [show M - 1 - i = s + 2 by omega, show M - 1 - (i + 2) = s by omega,
        show M - 1 - (i + 1) = s + 1 by omega]
      have a := mul_le_mul_of_nonneg_left (decay_weight h0 h1 i) hB
      have b := mul_le_mul_of_nonneg_left (decay_weight h0 h1 s) hB
      linarith
    linarith
  intro j hj
  have := hmax j (by simpa using hj)
  linarith

/-- The error on one axis. -/
theorem cub_error_interior {g : GridDim ℝ} (hv : ValidAxis g) (hu : g.gtype = .uniform) {x : ℝ}
    (h1 : first g ≤ x) (h2 : x ≤ last g) (φ : ℝ → ℝ) (M B H ρ : ℝ) (k : ℕ) (hM : 0 ≤ M) (hB : 0 ≤ B)
    (hH : MeshLe g H) (hρ : 0 < ρ) (hρ' : 1 ≤ ρ * (4 - ρ)) (hρ1 : ρ ≤ 1)
    (hφ : FourthLe φ (first g) (last g) M B) (k1 : k * spacing g ≤ x - first g)
    (k2 : k * spacing g ≤ last g - x) :
    |cub g x (fun j => φ (node g j)) - φ x| ≤ 7 / 64 * (M * H ^ 4) + B * H ^ 2 * ρ ^ k := by
  obtain ⟨hc, φ', φ'', hd, h4, e0, e1⟩ := hφ
  have hn : 2 ≤ nNodes g := ValidAxis.two_le hv
  have hw := width_pos hv (j := 0) (show 0 + 1 < nNodes g by omega)
  have hHj := hH 0 (show 0 + 1 < nNodes g by omega)
  have hcell := inCell_cell hv x
  have hj := hcell.1
  set h := node g (0 + 1) - node g 0 with hh
  have hsp : spacing g = h := by rw [spacing, hh]
  rw [hsp] at k1 k2
  have hBh : 0 ≤ B * h ^ 2 := by positivity
  have key := cub_error_second hv hu h1 h2 φ φ' φ'' M h (3 * (M * h ^ 4 / 4) + B * h ^ 2 * (8 * ρ ^ k))
    hM hh hc hd h4 (fun c hsys => by
      obtain ⟨_, pa, pb⟩ := closedCell hv h1 h2
      cases g with
      | array gc => cases hu
      | uniform a b n =>
        have hq : ∀ j < n.toNat, |diff2 c j - h ^ 2 * φ'' (node (.uniform a b n) j)|
            ≤ 3 * (M * h ^ 4 / 4) + B * h ^ 2 * (ρ ^ j + ρ ^ (n.toNat - 1 - j)) := by
          apply tri_decay hn (fun j => diff2 c j - h ^ 2 * φ'' (node (.uniform a b n) j)) _ hBh hρ hρ'
          · show |diff2 c 0 - h ^ 2 * φ'' (first (.uniform a b n))| ≤ _
            rw [(diff2_ends hn hsys).1, zero_sub, abs_neg, abs_mul, abs_of_nonneg (sq_nonneg h), mul_comm]
            exact mul_le_mul_of_nonneg_right e0 (sq_nonneg h)
          · show |diff2 c (n.toNat - 1) - h ^ 2 * φ'' (last (.uniform a b n))| ≤ _
            rw [show n.toNat - 1 = nNodes (GridDim.uniform a b n) - 1 from rfl,
              (diff2_ends hn hsys).2, zero_sub, abs_neg, abs_mul, abs_of_nonneg (sq_nonneg h), mul_comm]
            exact mul_le_mul_of_nonneg_right e1 (sq_nonneg h)
          · exact fun j hj => second_deriv_system hv hc hd h4 hsys hh hj
          · positivity
        have q0 := hq _ (Nat.lt_of_succ_lt hj)
        have q1 := hq _ hj
        set j := (cell (.uniform a b n) x).toNat
        have hj' : j + 1 < n.toNat := hj
        have hnode : ∀ i : ℕ, node (.uniform a b n) i = node (.uniform a b n) 0 + i * h := by
          intro i; rw [hh]; simp [node]
        have c1 : k ≤ j + 1 := by
          have : (k : ℝ) * h ≤ ((j + 1 : ℕ) : ℝ) * h := by
            have := hnode (j + 1)
            rw [first] at k1
            linarith
          exact_mod_cast le_of_mul_le_mul_right this hw
        have c2 : k + j ≤ n.toNat - 1 := by
          have : ((k + j : ℕ) : ℝ) * h ≤ ((n.toNat - 1 : ℕ) : ℝ) * h := by
            have e1 := hnode j
            have e2 := hnode (n.toNat - 1)
            rw [last, show nNodes (GridDim.uniform a b n) = n.toNat from rfl] at k2
            rw [Nat.cast_add, add_mul]
            linarith
          exact_mod_cast le_of_mul_le_mul_right this hw
        have pw : ∀ e : ℕ, k ≤ e + 1 → ρ ^ e ≤ 4 * ρ ^ k := by
          intro e he
          have p0 := pow_pos hρ e
          have : ρ ^ e ≤ 4 * ρ ^ (e + 1) := by
            have := decay_weight hρ hρ' e
            have := pow_pos hρ (e + 2)
            linarith
          have m := pow_le_pow_of_le_one hρ.le hρ1 he
          linarith
        have r0 := mul_le_mul_of_nonneg_left (add_le_add (pw j (by omega)) (pw (n.toNat - 1 - j) (by omega))) hBh
        have r1 := mul_le_mul_of_nonneg_left
          (add_le_add (pw (j + 1) (by omega)) (pw (n.toNat - 1 - (j + 1)) (by omega))) hBh
        constructor <;> linarith)
  refine key.trans ?_
  have k5 : h ^ 4 ≤ H ^ 4 := pow_le_pow_left₀ hw.le hHj 4
  have k6 : h ^ 2 ≤ H ^ 2 := pow_le_pow_left₀ hw.le hHj 2
  have a := mul_le_mul_of_nonneg_left k5 hM
  have b := mul_le_mul_of_nonneg_right (mul_le_mul_of_nonneg_left k6 hB) (pow_pos hρ k).le
  linarith

/-- C105. Whatever the second derivatives at the boundary, the spline is accurate to fourth order inside:
at a point that is `k i` cells away from both ends of axis `i`, the error is at most
`∑ (5/2)^i (7/64 M i (H i)⁴ + B i (H i)² (2 - √3)^(k i))`, where `B i` bounds the second derivative at the two
ends of axis `i`. The effect of the boundary decays exponentially with the number of cells. -/
theorem C105_interior_accuracy (h : FilterRequest G D vec m) (hC : FilterOutcome G D vec m C)
    (f : List ℕ → List ℝ → ℝ) (hD : Samples G D vec m f) (M B H : ℕ → ℝ)
    (hH : ∀ i g, G[i]? = some g → MeshLe g (H i)) (hM : ∀ i, 0 ≤ M i) (hB : ∀ i, 0 ≤ B i)
    (hf : ∀ tail i g, InShape (tailShape vec m none) tail → G[i]? = some g → ∀ y, InBox G y →
      FourthLe (fun t => f tail (y.set i t)) (first g) (last g) (M i) (B i))
    (mode : String) (x : List ℝ) (hx : InBox G x) (k : ℕ → ℕ)
    (hk : ∀ (i : ℕ) (g : GridDim ℝ) (t : ℝ), G[i]? = some g → x[i]? = some t →
      k i * spacing g ≤ t - first g ∧ k i * spacing g ≤ last g - t) :
    ∃ E, Returns 3 G C vec m none mode x E ∧ ∀ tail, InShape (tailShape vec m none) tail →
      |E tail - f tail x| ≤ ∑ i ∈ Finset.range G.length,
        (5 / 2) ^ i * (7 / 64 * (M i * H i ^ 4) + B i * H i ^ 2 * (2 - √3) ^ k i) :=
  cubic_error_axes_at h hC f hD _ mode x hx fun tail i g t ht hg hxt h1 h2 y hy =>
    cub_error_interior (h.grid.2 g (List.mem_of_getElem? hg)) (h.uniform g (List.mem_of_getElem? hg))
      h1 h2 (fun t => f tail (y.set i t)) (M i) (B i) (H i) (2 - √3) (k i) (hM i) (hB i) (hH i g hg)
      rate_spec.1 rate_spec.2.1 rate_spec.2.2 (hf tail i g ht hg y hy) (hk i g t hg hxt).1 (hk i g t hg hxt).2

/-! ### Concrete cases -/

/-- C104 applied: eleven values, the last of them changed by one; at `t = 1/4` the spline moves by less than
half a percent. -/
example (D D' : NdArray ℝ) (hs : D.shape = [11]) (hs' : D'.shape = [11])
    (hD : ∀ i : ℕ, i < 10 → D.get [i] = D'.get [i]) (h10 : |D.get [10] - D'.get [10]| ≤ 1) :
    ∃ C C' E E', filterCubic [GridDim.uniform (0 : ℝ) 1 11] D = .ok C ∧
      filterCubic [GridDim.uniform (0 : ℝ) 1 11] D' = .ok C' ∧
      Returns 3 [GridDim.uniform (0 : ℝ) 1 11] C false 0 none "linear" [1 / 4] E ∧
      Returns 3 [GridDim.uniform (0 : ℝ) 1 11] C' false 0 none "linear" [1 / 4] E' ∧
      |E [] - E' []| ≤ 1 / 200 := by
  have r : ∀ D : NdArray ℝ, D.shape = [11] → FilterRequest [GridDim.uniform (0 : ℝ) 1 11] D false 0 :=
    fun D hs => ⟨(sin_filter_request 1).grid, (sin_filter_request 1).uniform, by simp, hs.trans rfl⟩
  obtain ⟨C, hC, _⟩ := (C19_filter_total (r D hs)).1
  obtain ⟨C', hC', _⟩ := (C19_filter_total (r D' hs')).1
  obtain ⟨E, E', hE, hE', hb⟩ := C104_cubic_locality (r D hs) (.alloc hC) (r D' hs') (.alloc hC') 1 (3 / 11) 7
    (by norm_num) (by norm_num) "linear" [1 / 4]
    (.cons ⟨by rw [first11]; norm_num, by rw [last11]; norm_num⟩ .nil)
    (by
      intro idx tail hi ht
      match idx, hi, tail, ht with
      | [i], hi, [], _ =>
        have hi' : i < 11 := hi.1
        by_cases e : i = 10
        · subst e; exact h10
        · show |D.get [i] - D'.get [i]| ≤ 1
          rw [hD i (by omega), sub_self, abs_zero]; norm_num)
    (by
      intro idx tail hi ht hn
      match idx, hi, tail, ht with
      | [i], hi, [], _ =>
        have hi' : i < 11 := hi.1
        have := hn 0 _ _ i rfl rfl rfl
        by_cases e : i = 10
        · subst e
          exfalso
          rw [abs_lt] at this
          have := this.1
          norm_num [spacing, node] at this
        · exact hD i (by omega))
  refine ⟨C, C', E, E', hC, hC', hE, hE', (hb [] trivial).trans ?_⟩
  norm_num

/-- C104 applied to a single node: a table of eleven by eleven values in which only the last entry changes. -/
example (D D' : NdArray ℝ) (hs : D.shape = [11, 11]) (hs' : D'.shape = [11, 11])
    (hD : ∀ i j : ℕ, i < 11 → j < 11 → ¬ (i = 10 ∧ j = 10) → D.get [i, j] = D'.get [i, j])
    (h10 : |D.get [10, 10] - D'.get [10, 10]| ≤ 1) :
    ∃ C C' E E', filterCubic [GridDim.uniform (0 : ℝ) 1 11, .uniform 0 1 11] D = .ok C ∧
      filterCubic [GridDim.uniform (0 : ℝ) 1 11, .uniform 0 1 11] D' = .ok C' ∧
      Returns 3 [GridDim.uniform (0 : ℝ) 1 11, .uniform 0 1 11] C false 0 none "linear" [1 / 4, 1 / 2] E ∧
      Returns 3 [GridDim.uniform (0 : ℝ) 1 11, .uniform 0 1 11] C' false 0 none "linear" [1 / 4, 1 / 2] E' ∧
      |E [] - E' []| ≤ 1 / 100000 := by
  have r : ∀ D : NdArray ℝ, D.shape = [11, 11] →
      FilterRequest [GridDim.uniform (0 : ℝ) 1 11, .uniform 0 1 11] D false 0 :=
    fun D hs => ⟨⟨by simp, by
      intro g hg
      simp only [List.mem_cons, List.not_mem_nil, or_false, or_self] at hg
      subst hg; exact ⟨by norm_num, by norm_num⟩⟩, by simp [GridDim.gtype], by simp, hs.trans rfl⟩
  obtain ⟨C, hC, _⟩ := (C19_filter_total (r D hs)).1
  obtain ⟨C', hC', _⟩ := (C19_filter_total (r D' hs')).1
  obtain ⟨E, E', hE, hE', hb⟩ := C104_single_node (r D hs) (.alloc hC) (r D' hs') (.alloc hC') 1 (3 / 11)
    [10, 10] (fun i => if i = 0 then 7 else 5)
    (by norm_num) (by norm_num) (by norm_num) "linear" [1 / 4, 1 / 2]
    (.cons ⟨by rw [first11]; norm_num, by rw [last11]; norm_num⟩
      (.cons ⟨by rw [first11]; norm_num, by rw [last11]; norm_num⟩ .nil))
    (by
      intro tail _ ht
      match tail, ht with
      | [], _ => exact h10)
    (by
      intro idx tail hi ht hn
      match idx, hi, tail, ht with
      | [i, j], hi, [], _ => exact hD i j hi.1 hi.2.1 (fun e => hn (by rw [e.1, e.2])))
    (by
      intro i g t k hg ht hk
      match i, hg, ht, hk with
      | 0, hg, ht, hk =>
        simp only [List.getElem?_cons_zero, Option.some.injEq] at hg ht hk
        subst hg ht hk
        rw [abs_of_nonpos] <;> norm_num [spacing, node]
      | 1, hg, ht, hk =>
        simp only [List.getElem?_cons_succ, List.getElem?_cons_zero, Option.some.injEq] at hg ht hk
        subst hg ht hk
        rw [abs_of_nonpos] <;> norm_num [spacing, node]
      | _ + 2, hg, _, _ => simp at hg)
  refine ⟨C, C', E, E', hC, hC', hE, hE', (hb [] trivial).trans ?_⟩
  simp only [List.length_cons, List.length_nil, Finset.prod_range_succ, Finset.prod_range_zero]
  norm_num

/-- C105 applied: the sine has second derivative `-sin 1` at the right end, so that `C90` does not apply. In the
middle of the interval the filtered spline on eleven nodes is nevertheless accurate. -/
example : ∃ C E, prefilter [GridDim.uniform (0 : ℝ) 1 11]
      ⟨[11], fun idx => Real.sin (1 * ((idx.headD 0 : ℝ) / 10))⟩ none 3 = .ok ⟨some C, none⟩ ∧
    Returns 3 [GridDim.uniform (0 : ℝ) 1 11] C false 0 none "linear" [1 / 2] E ∧
      |E [] - Real.sin (1 * (1 / 2))| ≤ 7 / 64 * (1 / 10) ^ 4 + (1 / 10) ^ 2 * (2 - √3) ^ 5 := by
  obtain ⟨C, hC, _⟩ := (C19_filter_total (sin_filter_request 1)).2.1
  obtain ⟨E, hE, hb⟩ := C105_interior_accuracy (sin_filter_request 1) (.prefilter hC) _
    (sin_samples 1) (fun _ => 1) (fun _ => 1) (fun _ => 1 / 10) mesh11 (fun _ => by norm_num)
    (fun _ => by norm_num)
    (by
      intro tail i g _ hg y hy
      have hi : i = 0 := by have := (List.getElem?_eq_some_iff.1 hg).1; simpa using this
      subst hi
      obtain rfl : g = .uniform 0 1 11 := by simpa using List.mem_of_getElem? hg
      obtain ⟨s, rfl⟩ : ∃ s, y = [s] := by
        cases hy with
        | cons a b => cases b; exact ⟨_, rfl⟩
      have ab : ∀ t : ℝ, |(-1 ^ 2 : ℝ) * Real.sin (1 * t)| ≤ 1 := fun t => by
        have := Real.abs_sin_le_one (1 * t)
        simpa using this
      refine ⟨fun t _ => (sin_deriv 1 t).continuousAt.continuousWithinAt, _, _, fun t _ =>
        ⟨sin_deriv 1 t, cos_deriv 1 t⟩, ?_, ab _, ab _⟩
      refine ⟨fun t _ => ((sin_deriv 1 t).const_mul (-1 ^ 2)).continuousAt.continuousWithinAt,
          _, _, fun t _ => ⟨(sin_deriv 1 t).const_mul (-1 ^ 2),
            (cos_deriv 1 t).const_mul (-1 ^ 2), ?_⟩⟩
      have := Real.abs_sin_le_one (1 * t)
      simpa using this)
    "linear" [1 / 2] (.cons ⟨by rw [first11]; norm_num, by rw [last11]; norm_num⟩ .nil) (fun _ => 5)
    (by
      intro i g t hg ht
      have hi : i = 0 := by have := (List.getElem?_eq_some_iff.1 hg).1; simpa using this
      subst hi
      obtain rfl : g = .uniform 0 1 11 := by simpa using List.mem_of_getElem? hg
      obtain rfl : 1 / 2 = t := by simpa using ht
      rw [first11, last11]
      norm_num [spacing, node])
  refine ⟨C, E, hC, hE, (hb [] trivial).trans (le_of_eq ?_)⟩
  simp

end

end Interp.Props
