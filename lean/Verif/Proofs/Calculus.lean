import Verif.Proofs.Expand
import Mathlib.Analysis.Calculus.ContDiff.Basic
import Mathlib.Analysis.Calculus.ContDiff.Operations
import Mathlib.Analysis.Calculus.Deriv.Add
import Mathlib.Analysis.Calculus.Deriv.Mul
import Mathlib.Analysis.Calculus.Deriv.Pow
import Mathlib.Analysis.Calculus.Deriv.Comp
import Mathlib.Analysis.Calculus.IteratedDeriv.Defs
import Mathlib.Topology.LocallyFinite
import Mathlib.Algebra.BigOperators.Field

/-! Continuity and differentiability of splines, over the real numbers. -/

set_option linter.unusedSectionVars false
set_option linter.unusedSimpArgs false

namespace Interp.Codegen
open Interp.Ref Interp.Spec

/-! ### Gluing -/

theorem hasDerivWithinAt_glue {N : ℕ} {A : ℕ → Set ℝ} (hA : ∀ i < N, IsClosed (A i))
    {f f' : ℝ → ℝ} {p p' : ℕ → ℝ → ℝ}
    (hp : ∀ i < N, ∀ t ∈ A i, HasDerivAt (p i) (p' i t) t)
    (hf : ∀ i < N, ∀ t ∈ A i, f t = p i t) (hf' : ∀ i < N, ∀ t ∈ A i, f' t = p' i t)
    {U : Set ℝ} (hU : ∀ t ∈ U, ∃ i < N, t ∈ A i) (t : ℝ) :
    HasDerivWithinAt f (f' t) U t := by
  have h1 : ∀ i < N, HasDerivWithinAt f (f' t) (A i) t := by
    intro i hi
    by_cases ht : t ∈ A i
    · rw [hf' i hi t ht]
      exact (hp i hi t ht).hasDerivWithinAt.congr (fun y hy => hf i hi y hy) (hf i hi t ht)
    · exact HasFDerivWithinAt.of_notMem_closure (by rwa [(hA i hi).closure_eq])
  have h2 : ∀ M ≤ N, HasDerivWithinAt f (f' t) (⋃ i ∈ Finset.range M, A i) t := by
    intro M
    induction M with
    | zero => intro _; exact HasFDerivWithinAt.of_notMem_closure (by simp)
    | succ M ih =>
      intro hM
      have := (h1 M (by omega)).union (ih (by omega))
      simpa [Finset.range_add_one] using this
  refine (h2 N le_rfl).mono fun y hy => ?_
  obtain ⟨i, hi, hy'⟩ := hU y hy
  simp only [Set.mem_iUnion, Finset.mem_range]
  exact ⟨i, hi, hy'⟩

theorem continuous_glue {N : ℕ} {A : ℕ → Set ℝ} (hA : ∀ i < N, IsClosed (A i))
    {f : ℝ → ℝ} {p : ℕ → ℝ → ℝ} (hp : ∀ i < N, Continuous (p i))
    (hf : ∀ i < N, ∀ t ∈ A i, f t = p i t) (hU : ∀ t, ∃ i < N, t ∈ A i) : Continuous f := by
  have hlf : LocallyFinite (fun i : Fin N => A i) := locallyFinite_of_finite _
  refine hlf.continuous ?_ (fun i => hA i i.2) ?_
  · ext t
    obtain ⟨i, hi, ht⟩ := hU t
    simp only [Set.mem_iUnion, Set.mem_univ, iff_true]
    exact ⟨⟨i, hi⟩, ht⟩
  · intro i
    exact (hp i i.2).continuousOn.congr (fun t ht => hf i i.2 t ht)

/-! ### One axis, linear -/

theorem isClosed_inCell (g : GridDim ℝ) (j : ℕ) : IsClosed {t | InCell g t j} := by
  have h : {t | InCell g t j} = {t | j + 1 < nNodes g} ∩
      (({t | j = 0} ∪ {t | node g j ≤ t}) ∩ ({t | j + 2 = nNodes g} ∪ {t | t ≤ node g (j + 1)})) := by
    ext t; simp only [InCell, Set.mem_ofPred_eq, Set.mem_inter_iff, Set.mem_union]
  rw [h]
  exact isClosed_const.inter ((isClosed_const.union (isClosed_le continuous_const continuous_id)).inter
    (isClosed_const.union (isClosed_le continuous_id continuous_const)))

theorem continuous_lin1 {g : GridDim ℝ} (h : ValidAxis g) (c : ℕ → ℝ) :
    Continuous fun t => lin1 g t c := by
  refine continuous_glue (N := nNodes g) (A := fun j => {t | InCell g t j})
    (fun j _ => isClosed_inCell g j) (p := fun j t => segVal g t j c) ?_ ?_ ?_
  · intro j _
    simp only [segVal]
    fun_prop
  · intro j _ t ht
    exact lin1_eq h t c ht
  · intro t
    exact ⟨_, by have := (inCell_cell h t).1; omega, inCell_cell h t⟩

/-- The slope of the interpolant, at a point which is not a node. -/
theorem hasDerivAt_lin1 {g : GridDim ℝ} (h : ValidAxis g) (c : ℕ → ℝ) (x : ℝ)
    (hx : ∀ i < nNodes g, x ≠ node g i) :
    HasDerivAt (fun t => lin1 g t c)
      ((c ((cell g x).toNat + 1) - c (cell g x).toNat)
        / (node g ((cell g x).toNat + 1) - node g (cell g x).toNat)) x := by
  set j := (cell g x).toNat
  have hj : InCell g x j := inCell_cell h x
  have hseg : HasDerivAt (fun t => segVal g t j c)
      ((c (j + 1) - c j) / (node g (j + 1) - node g j)) x := by
    have h1 : HasDerivAt (fun t => c j + (t - node g j) / (node g (j + 1) - node g j) *
        (c (j + 1) - c j)) (1 / (node g (j + 1) - node g j) * (c (j + 1) - c j)) x :=
      ((((hasDerivAt_id x).sub_const _).div_const _).mul_const _).const_add _
    simp only [segVal]
    convert h1 using 1
    ring
  refine hseg.congr_of_eventuallyEq ?_
  have ha : ∀ᶠ t in nhds x, j = 0 ∨ node g j ≤ t := by
    rcases hj.2.1 with h0 | h0
    · exact Filter.Eventually.of_forall fun _ => Or.inl h0
    · have : node g j < x := lt_of_le_of_ne h0 (hx j (by have := hj.1; omega)).symm
      filter_upwards [lt_mem_nhds this] with t ht
      exact Or.inr ht.le
  have hb : ∀ᶠ t in nhds x, j + 2 = nNodes g ∨ t ≤ node g (j + 1) := by
    rcases hj.2.2 with h0 | h0
    · exact Filter.Eventually.of_forall fun _ => Or.inl h0
    · have : x < node g (j + 1) := lt_of_le_of_ne h0 (hx (j + 1) hj.1)
      filter_upwards [gt_mem_nhds this] with t ht
      exact Or.inr ht.le
  filter_upwards [ha, hb] with t h1 h2
  exact lin1_eq h t c ⟨hj.1, h1, h2⟩

/-- What the code returns for derivative order 1 is the slope times this factor: 1 on nonuniform
axes, the square of the inverse spacing on uniform axes. -/
noncomputable def derivFactor : GridDim ℝ → ℝ
  | .uniform a b n => ((b - a) / ((n : ℝ) - 1)) ^ 2
  | .array _ => 1

theorem axisOp_one_deriv {g : GridDim ℝ} (h : ValidAxis g) (x : ℝ) (c : ℕ → ℝ) :
    axisOp 1 1 g x c = derivFactor g * ((c ((cell g x).toNat + 1) - c (cell g x).toNat)
        / (node g ((cell g x).toNat + 1) - node g (cell g x).toNat)) := by
  have hw := (width_pos h (inCell_cell h x).1).ne'
  have e : axisOp 1 1 g x c
      = -1 / delta g x * c (cell g x).toNat + 1 / delta g x * c ((cell g x).toNat + 1) := by
    simp [axisOp, weights]
  rw [e, delta_eq h x]
  cases g with
  | uniform a b n =>
    obtain ⟨h1, h2⟩ := uniform_pos h
    have h4 : ∀ i : ℕ, node (.uniform a b n) (i + 1) - node (.uniform a b n) i
        = (b - a) / ((n : ℝ) - 1) := by intro i; simp only [node]; push_cast; ring
    simp only [h4, derivFactor]
    field_simp
    ring
  | array gc =>
    simp only [derivFactor]
    field_simp
    ring

theorem inCell_unique {g : GridDim ℝ} (h : ValidAxis g) {t : ℝ} {j j' : ℕ} (hj : InCell g t j)
    (hj' : InCell g t j') (ha : j = 0 ∨ node g j < t) (hb : j + 2 = nNodes g ∨ t < node g (j + 1)) :
    j' = j := by
  rcases Nat.lt_trichotomy j' j with hlt | rfl | hlt
  · have h1 : node g j < t := by
      rcases ha with h0 | h0
      · omega
      · exact h0
    have h2 : t ≤ node g (j' + 1) := by
      rcases hj'.2.2 with h0 | h0
      · have := hj.1; omega
      · exact h0
    have := (node_lt_iff h (by have := hj.1; omega) hj'.1).1 (h1.trans_le h2)
    omega
  · rfl
  · have h1 : t < node g (j + 1) := by
      rcases hb with h0 | h0
      · have := hj'.1; omega
      · exact h0
    have h2 : node g j' ≤ t := by
      rcases hj'.2.1 with h0 | h0
      · omega
      · exact h0
    have := (node_lt_iff h (by have := hj'.1; omega) hj.1).1 (h2.trans_lt h1)
    omega

theorem cell_eventually {g : GridDim ℝ} (h : ValidAxis g) (x : ℝ)
    (hx : ∀ i < nNodes g, x ≠ node g i) :
    ∀ᶠ t in nhds x, (cell g t).toNat = (cell g x).toNat := by
  set j := (cell g x).toNat
  have hj : InCell g x j := inCell_cell h x
  have ha : ∀ᶠ t in nhds x, j = 0 ∨ node g j < t := by
    rcases hj.2.1 with h0 | h0
    · exact Filter.Eventually.of_forall fun _ => Or.inl h0
    · have : node g j < x := lt_of_le_of_ne h0 (hx j (by have := hj.1; omega)).symm
      filter_upwards [lt_mem_nhds this] with t ht
      exact Or.inr ht
  have hb : ∀ᶠ t in nhds x, j + 2 = nNodes g ∨ t < node g (j + 1) := by
    rcases hj.2.2 with h0 | h0
    · exact Filter.Eventually.of_forall fun _ => Or.inl h0
    · have : x < node g (j + 1) := lt_of_le_of_ne h0 (hx (j + 1) hj.1)
      filter_upwards [gt_mem_nhds this] with t ht
      exact Or.inr ht
  filter_upwards [ha, hb] with t h1 h2
  exact inCell_unique h ⟨hj.1, h1.imp id le_of_lt, h2.imp id le_of_lt⟩ (inCell_cell h t) h1 h2

/-- Derivative of each order from the previous one. -/
theorem hasDerivAt_axisOp_one {g : GridDim ℝ} (h : ValidAxis g) (l : ℕ) (c : ℕ → ℝ) (x : ℝ)
    (hx : ∀ i < nNodes g, x ≠ node g i) :
    HasDerivAt (fun t => axisOp 1 l g t c)
      (if l = 0 then axisOp 1 1 g x c / derivFactor g else axisOp 1 (l + 1) g x c) x := by
  have h2 : ∀ l t, 2 ≤ l → axisOp 1 l g t c = 0 := by
    intro l t hl
    simp [axisOp, weights, show l ≠ 0 by omega, show l ≠ 1 by omega]
  rcases Nat.lt_trichotomy l 1 with hl | rfl | hl
  · obtain rfl : l = 0 := by omega
    simp only [axisOp_one, if_true]
    rw [axisOp_one_deriv h, mul_div_cancel_left₀]
    · exact hasDerivAt_lin1 h c x hx
    · cases g with
      | uniform a b n =>
        obtain ⟨h1, h2⟩ := uniform_pos h
        exact pow_ne_zero 2 (div_pos h2 h1).ne'
      | array gc => exact one_ne_zero
  · rw [if_neg one_ne_zero, h2 2 x le_rfl]
    refine (hasDerivAt_const x (axisOp 1 1 g x c)).congr_of_eventuallyEq ?_
    filter_upwards [cell_eventually h x hx] with t ht
    rw [axisOp_one_deriv h, axisOp_one_deriv h, ht]
  · rw [if_neg (by omega), h2 (l + 1) x (by omega)]
    simp only [h2 l _ hl]
    exact hasDerivAt_const _ _

/-! ### One axis, cubic -/

section
variable {a b : ℝ} {n : ℤ}

/-- The pieces of the line: left of the grid, the cells, right of the grid. -/
def piece (a b : ℝ) (n : ℤ) (i : ℕ) : Set ℝ :=
  {t | (i = 0 ∨ (i : ℝ) - 1 ≤ upos a b n t) ∧ (i = n.toNat ∨ upos a b n t ≤ i)}

theorem continuous_upos : Continuous (upos a b n) := by
  unfold upos; fun_prop

theorem isClosed_piece (i : ℕ) : IsClosed (piece a b n i) := by
  have h : piece a b n i = ({t | i = 0} ∪ {t | (i : ℝ) - 1 ≤ upos a b n t}) ∩
      ({t | i = n.toNat} ∪ {t | upos a b n t ≤ i}) := by
    ext t; simp only [piece, Set.mem_ofPred_eq, Set.mem_inter_iff, Set.mem_union]
  rw [h]
  exact (isClosed_const.union (isClosed_le continuous_const continuous_upos)).inter
    (isClosed_const.union (isClosed_le continuous_upos continuous_const))

theorem piece_cover (h : 2 ≤ n) (t : ℝ) : ∃ i < n.toNat + 1, t ∈ piece a b n i := by
  by_cases h0 : upos a b n t ≤ 0
  · exact ⟨0, by omega, Or.inl rfl, Or.inr (by simpa using h0)⟩
  · push Not at h0
    set i := min (⌊upos a b n t⌋.toNat + 1) n.toNat with hi
    refine ⟨i, by omega, Or.inr ?_, ?_⟩
    · have h1 : ((⌊upos a b n t⌋.toNat : ℕ) : ℝ) ≤ upos a b n t := by
        have h2 : (0 : ℤ) ≤ ⌊upos a b n t⌋ := Int.floor_nonneg.2 h0.le
        have h3 : ((⌊upos a b n t⌋.toNat : ℕ) : ℝ) = ((⌊upos a b n t⌋ : ℤ) : ℝ) := by
          rw [← Int.cast_natCast, Int.toNat_of_nonneg h2]
        rw [h3]; exact Int.floor_le _
      have h4 : (i : ℝ) ≤ ((⌊upos a b n t⌋.toNat + 1 : ℕ) : ℝ) := by
        exact_mod_cast min_le_left _ _
      push_cast at h4
      linarith
    · by_cases hlt : ⌊upos a b n t⌋.toNat + 1 ≤ n.toNat
      · right
        have : i = ⌊upos a b n t⌋.toNat + 1 := by omega
        rw [this]
        have h2 : (0 : ℤ) ≤ ⌊upos a b n t⌋ := Int.floor_nonneg.2 h0.le
        have h3 : ((⌊upos a b n t⌋.toNat : ℕ) : ℝ) = ((⌊upos a b n t⌋ : ℤ) : ℝ) := by
          rw [← Int.cast_natCast, Int.toNat_of_nonneg h2]
        push_cast
        rw [h3]
        exact (Int.lt_floor_add_one _).le
      · left; omega

/-- The function on each piece. -/
noncomputable def pieceFun (n : ℤ) (c : ℕ → ℝ) (i : ℕ) (u : ℝ) : ℝ :=
  if i = 0 then cubV 0 c + u * cubS 0 c
  else if i = n.toNat then cubV (i - 1) c + (u - ((i : ℝ) - 1)) * cubS (i - 1) c
  else cubP (i - 1) c u

noncomputable def pieceFun' (n : ℤ) (c : ℕ → ℝ) (i : ℕ) (u : ℝ) : ℝ :=
  if i = 0 then cubS 0 c
  else if i = n.toNat then cubS (i - 1) c
  else cubP' (i - 1) c u

theorem axisOp_piece (h : ValidAxis (.uniform a b n)) (c : ℕ → ℝ) (i : ℕ) (hi : i < n.toNat + 1)
    (t : ℝ) (ht : t ∈ piece a b n i) :
    axisOp 3 0 (.uniform a b n) t c = pieceFun n c i (upos a b n t) ∧
    axisOp 3 1 (.uniform a b n) t c = pieceFun' n c i (upos a b n t) * (((n : ℝ) - 1) / (b - a)) := by
  have h2 : 2 ≤ n := h.2
  obtain ⟨h3, h4⟩ := ht
  unfold pieceFun pieceFun'
  by_cases h0 : i = 0
  · rw [if_pos h0, if_pos h0]
    subst h0
    refine cubic_left h ?_ c
    rcases h4 with h4 | h4
    · omega
    · simpa using h4
  · rw [if_neg h0, if_neg h0]
    obtain ⟨j, rfl⟩ : ∃ j, i = j + 1 := ⟨i - 1, by omega⟩
    have h3' : (j : ℝ) ≤ upos a b n t := by
      rcases h3 with h3 | h3
      · omega
      · push_cast at h3; linarith
    by_cases hn : j + 1 = n.toNat
    · rw [if_pos hn, if_pos hn]
      obtain ⟨q, rfl⟩ : ∃ q, j = q + 1 := ⟨j - 1, by omega⟩
      have := cubic_right h (j := q) (by omega) (by push_cast at h3'; linarith) c
      simp only [Nat.add_sub_cancel]
      push_cast
      rw [show ((q : ℝ) + 1 + 1 - 1) = q + 1 by ring]
      exact this
    · rw [if_neg hn, if_neg hn]
      have h4' : upos a b n t ≤ j + 1 := by
        rcases h4 with h4 | h4
        · omega
        · push_cast at h4; linarith
      exact cubic_mid h (by omega) h3' h4' c

theorem hasDerivAt_upos (t : ℝ) : HasDerivAt (upos a b n) (((n : ℝ) - 1) / (b - a)) t := by
  have := ((hasDerivAt_id t).sub_const a).mul_const (((n : ℝ) - 1) / (b - a))
  rw [one_mul] at this
  exact this

theorem hasDerivAt_cubP (j : ℕ) (c : ℕ → ℝ) (u : ℝ) :
    HasDerivAt (cubP j c) (cubP' j c u) u := by
  have ht : HasDerivAt (fun u : ℝ => u - j) 1 u := (hasDerivAt_id u).sub_const _
  have h1 : HasDerivAt (fun u : ℝ => 1 - (u - j)) (-1) u := by
    simpa using ht.const_sub 1
  have := (((((h1.pow 3).div_const 6).mul_const (c j)).add
    ((((((ht.pow 3).const_mul 3).sub ((ht.pow 2).const_mul 6)).add_const 4).div_const 6).mul_const
      (c (j + 1)))).add
    (((((((ht.pow 3).const_mul (-3)).add ((ht.pow 2).const_mul 3)).add (ht.const_mul 3)).add_const
      1).div_const 6).mul_const (c (j + 2)))).add (((ht.pow 3).div_const 6).mul_const (c (j + 3)))
  refine HasDerivAt.congr_deriv (f := cubP j c) this ?_
  simp only [cubP']
  push_cast
  ring

theorem hasDerivAt_cubP' (j : ℕ) (c : ℕ → ℝ) (u : ℝ) :
    HasDerivAt (cubP' j c) (cubP'' j c u) u := by
  have ht : HasDerivAt (fun u : ℝ => u - j) 1 u := (hasDerivAt_id u).sub_const _
  have h1 : HasDerivAt (fun u : ℝ => 1 - (u - j)) (-1) u := by
    simpa using ht.const_sub 1
  have := (((((h1.pow 2).neg.div_const 2).mul_const (c j)).add
    (((((ht.pow 2).const_mul 3).sub (ht.const_mul 4)).div_const 2).mul_const
      (c (j + 1)))).add
    ((((((ht.pow 2).const_mul (-3)).add (ht.const_mul 2)).add_const
      1).div_const 2).mul_const (c (j + 2)))).add (((ht.pow 2).div_const 2).mul_const (c (j + 3)))
  refine HasDerivAt.congr_deriv (f := cubP' j c) this ?_
  simp only [cubP'']
  push_cast
  ring

theorem hasDerivAt_pieceFun (c : ℕ → ℝ) (i : ℕ) (u : ℝ) :
    HasDerivAt (pieceFun n c i) (pieceFun' n c i u) u := by
  unfold pieceFun pieceFun'
  by_cases h0 : i = 0
  · simp only [if_pos h0]
    simpa using ((hasDerivAt_id u).mul_const (cubS 0 c)).const_add (cubV 0 c)
  · by_cases hn : i = n.toNat
    · simp only [if_neg h0, if_pos hn]
      simpa using (((hasDerivAt_id u).sub_const ((i : ℝ) - 1)).mul_const
        (cubS (i - 1) c)).const_add (cubV (i - 1) c)
    · simp only [if_neg h0, if_neg hn]
      exact hasDerivAt_cubP _ c u

theorem continuous_cubP' (j : ℕ) (c : ℕ → ℝ) : Continuous (cubP' j c) :=
  continuous_iff_continuousAt.2 fun u => (hasDerivAt_cubP' j c u).continuousAt

theorem continuous_pieceFun' (c : ℕ → ℝ) (i : ℕ) : Continuous (pieceFun' n c i) := by
  unfold pieceFun'
  by_cases h0 : i = 0
  · simp only [if_pos h0]; exact continuous_const
  · by_cases hn : i = n.toNat
    · simp only [if_neg h0, if_pos hn]; exact continuous_const
    · simp only [if_neg h0, if_neg hn]; exact continuous_cubP' _ _

/-- What the code returns for order 1 is the derivative of what it returns for order 0, at every
real point. -/
theorem hasDerivAt_axisOp_three (h : ValidAxis (.uniform a b n)) (c : ℕ → ℝ) (t : ℝ) :
    HasDerivAt (fun t => axisOp 3 0 (.uniform a b n) t c) (axisOp 3 1 (.uniform a b n) t c) t := by
  have := hasDerivWithinAt_glue (N := n.toNat + 1) (A := piece a b n)
    (fun i _ => isClosed_piece i)
    (f := fun t => axisOp 3 0 (.uniform a b n) t c)
    (f' := fun t => axisOp 3 1 (.uniform a b n) t c)
    (p := fun i t => pieceFun n c i (upos a b n t))
    (p' := fun i t => pieceFun' n c i (upos a b n t) * (((n : ℝ) - 1) / (b - a)))
    (fun i _ t _ => (hasDerivAt_pieceFun c i (upos a b n t)).comp t (hasDerivAt_upos t))
    (fun i hi t ht => (axisOp_piece h c i hi t ht).1)
    (fun i hi t ht => (axisOp_piece h c i hi t ht).2)
    (U := Set.univ) (fun t _ => piece_cover h.2 t) t
  exact hasDerivWithinAt_univ.1 this

theorem continuous_axisOp_three' (h : ValidAxis (.uniform a b n)) (c : ℕ → ℝ) :
    Continuous fun t => axisOp 3 1 (.uniform a b n) t c := by
  refine continuous_glue (N := n.toNat + 1) (A := piece a b n) (fun i _ => isClosed_piece i)
    (p := fun i t => pieceFun' n c i (upos a b n t) * (((n : ℝ) - 1) / (b - a))) ?_
    (fun i hi t ht => (axisOp_piece h c i hi t ht).2) (piece_cover h.2)
  intro i _
  exact ((continuous_pieceFun' c i).comp continuous_upos).mul continuous_const

theorem contDiff_axisOp_three (h : ValidAxis (.uniform a b n)) (c : ℕ → ℝ) :
    ContDiff ℝ 1 fun t => axisOp 3 0 (.uniform a b n) t c := by
  rw [contDiff_one_iff_deriv]
  refine ⟨fun t => (hasDerivAt_axisOp_three h c t).differentiableAt, ?_⟩
  have : deriv (fun t => axisOp 3 0 (.uniform a b n) t c)
      = fun t => axisOp 3 1 (.uniform a b n) t c :=
    funext fun t => (hasDerivAt_axisOp_three h c t).deriv
  rw [this]
  exact continuous_axisOp_three' h c

/-- The second derivative on the grid: linear interpolation of the second differences. -/
noncomputable def second (a b : ℝ) (n : ℤ) (c : ℕ → ℝ) (t : ℝ) : ℝ :=
  lin1 (.uniform a b n) t (fun i => c i - 2 * c (i + 1) + c (i + 2)) * (((n : ℝ) - 1) / (b - a)) ^ 2

theorem upos_node (h : ValidAxis (.uniform a b n)) (i : ℕ) (t : ℝ) :
    (t ≤ node (.uniform a b n) i ↔ upos a b n t ≤ i) ∧
    (node (.uniform a b n) i ≤ t ↔ (i : ℝ) ≤ upos a b n t) := by
  obtain ⟨h1, h2⟩ := uniform_pos h
  have e : t = a + upos a b n t * ((b - a) / ((n : ℝ) - 1)) := uniform_step h t
  have hp : 0 < (b - a) / ((n : ℝ) - 1) := div_pos h2 h1
  generalize upos a b n t = u at e
  subst e
  simp only [node, add_le_add_iff_left]
  constructor <;> exact mul_le_mul_iff_left₀ hp

theorem second_eq (h : ValidAxis (.uniform a b n)) (c : ℕ → ℝ) (t : ℝ) (j : ℕ)
    (hj : j + 1 < n.toNat) (h1 : (j : ℝ) ≤ upos a b n t) (h2 : upos a b n t ≤ j + 1) :
    second a b n c t = cubP'' j c (upos a b n t) * (((n : ℝ) - 1) / (b - a)) ^ 2 := by
  have hc : InCell (.uniform a b n) t j := by
    refine ⟨hj, Or.inr ?_, Or.inr ?_⟩
    · exact ((upos_node h j t).2).2 h1
    · apply ((upos_node h (j + 1) t).1).2; push_cast; exact h2
  rw [second, lin1_eq h t _ hc]
  congr 1
  obtain ⟨h1, h2⟩ := uniform_pos h
  simp only [segVal, cubP'', node, upos]
  push_cast
  have h4 : a + ((j : ℝ) + 1) * ((b - a) / ((n : ℝ) - 1)) - (a + j * ((b - a) / ((n : ℝ) - 1)))
        = (b - a) / ((n : ℝ) - 1) := by ring
  rw [h4]
  field_simp
  ring

theorem hasDerivWithinAt_second (h : ValidAxis (.uniform a b n)) (c : ℕ → ℝ) (t : ℝ) :
    HasDerivWithinAt (fun t => axisOp 3 1 (.uniform a b n) t c) (second a b n c t)
      (Set.Icc a b) t := by
  refine hasDerivWithinAt_glue (N := n.toNat - 1)
    (A := fun j => {t | (j : ℝ) ≤ upos a b n t ∧ upos a b n t ≤ j + 1})
    (fun j _ => (isClosed_le continuous_const continuous_upos).inter
      (isClosed_le continuous_upos continuous_const))
    (f := fun t => axisOp 3 1 (.uniform a b n) t c)
    (f' := second a b n c)
    (p := fun j t => cubP' j c (upos a b n t) * (((n : ℝ) - 1) / (b - a)))
    (p' := fun j t => cubP'' j c (upos a b n t) * (((n : ℝ) - 1) / (b - a)) ^ 2)
    ?_ ?_ ?_ ?_ t
  · intro j _ t _
    have := ((hasDerivAt_cubP' j c (upos a b n t)).comp t (hasDerivAt_upos (a := a) (b := b) (n := n) t)).mul_const
      (((n : ℝ) - 1) / (b - a))
    rw [mul_assoc, ← sq] at this
    exact this
  · intro j hj t ht
    exact (cubic_mid h (by omega) ht.1 ht.2 c).2
  · intro j hj t ht
    exact second_eq h c t j (by omega) ht.1 ht.2
  · intro t ht
    have h2 : 2 ≤ n := h.2
    have hf : first (.uniform a b n) = a := by rw [← lo_eq]; rfl
    have hl : last (.uniform a b n) = b := by rw [← hi_eq h]; rfl
    have hc := inCell_cell h t
    set j := (cell (.uniform a b n) t).toNat
    have hj : j + 1 < n.toNat := hc.1
    refine ⟨j, by omega, ?_, ?_⟩
    · rw [← (upos_node h j t).2]
      rcases hc.2.1 with h' | h'
      · rw [h', ← first, hf]; exact ht.1
      · exact h'
    · have := (upos_node h (j + 1) t).1
      push_cast at this
      rw [← this]
      rcases hc.2.2 with h' | h'
      · rw [show j + 1 = nNodes (.uniform a b n) - 1 by omega, ← last, hl]; exact ht.2
      · exact h'

theorem contDiffOn_axisOp_three (h : ValidAxis (.uniform a b n)) (c : ℕ → ℝ) :
    ContDiffOn ℝ 2 (fun t => axisOp 3 0 (.uniform a b n) t c) (Set.Icc a b) := by
  have hu : UniqueDiffOn ℝ (Set.Icc a b) := uniqueDiffOn_Icc h.1
  have h1 : ContDiffOn ℝ 1 (fun t => axisOp 3 1 (.uniform a b n) t c) (Set.Icc a b) := by
    rw [show (1 : WithTop ℕ∞) = 0 + 1 by simp, contDiffOn_succ_iff_derivWithin hu]
    refine ⟨fun t _ => (hasDerivWithinAt_second h c t).differentiableWithinAt, by simp, ?_⟩
    rw [contDiffOn_zero]
    have : Continuous (second a b n c) := by
      unfold second
      exact (continuous_lin1 h _).mul continuous_const
    exact this.continuousOn.congr fun t ht =>
      (hasDerivWithinAt_second h c t).derivWithin (hu t ht)
  rw [show (2 : WithTop ℕ∞) = 1 + 1 by norm_num, contDiffOn_succ_iff_derivWithin hu]
  refine ⟨fun t _ => (hasDerivAt_axisOp_three h c t).differentiableAt.differentiableWithinAt,
    by simp, ?_⟩
  exact h1.congr fun t ht => (hasDerivAt_axisOp_three h c t).hasDerivWithinAt.derivWithin (hu t ht)

end

/-! ### Several axes -/

/-- Derivatives along one axis carry over to the tensor product. -/
theorem hasDerivAt_evalAt (k : ℕ) (l l' : ℕ) (r : ℝ) : ∀ (G : List (GridDim ℝ))
    (oo : List ℕ) (x : List ℝ) (i : ℕ) (g : GridDim ℝ) (t : ℝ), G[i]? = some g → x[i]? = some t →
    oo[i]? = some l' → oo.length = G.length → x.length = G.length →
    (∀ c, HasDerivAt (fun t => axisOp k l g t c) (axisOp k l' g t c / r) t) →
    ∀ c, HasDerivAt (fun t => evalAt k G (oo.set i l) (x.set i t) c) (evalAt k G oo x c / r) t
  | [], _, _, _, _, _, hg, _, _, _, _, _ => by simp at hg
  | _ :: _, [], _, _, _, _, _, _, _, ho, _, _ => by simp at ho
  | _ :: _, _ :: _, [], _, _, _, _, _, _, _, hx, _ => by simp at hx
  | g :: G, o :: oo, x :: xs, 0, g', t, hg, ht, hl, ho, hx, h => by
    intro c
    simp only [List.getElem?_cons_zero, Option.some.injEq] at hg ht hl
    subst hg ht hl
    simp only [List.set_cons_zero, evalAt_cons]
    exact h _
  | g :: G, o :: oo, x :: xs, i + 1, g', t, hg, ht, hl, ho, hx, h => by
    intro c
    simp only [List.getElem?_cons_succ] at hg ht hl
    simp only [List.set_cons_succ, evalAt_cons, axisOp_sum, Finset.sum_div, mul_div_assoc]
    apply HasDerivAt.fun_sum
    intro j _
    apply HasDerivAt.const_mul
    exact hasDerivAt_evalAt k l l' r G oo xs i g' t hg ht hl (by simpa using ho) (by simpa using hx) h _

/-- Smoothness of a function of the point. -/
theorem ofFn_cons {d : ℕ} (x : Fin (d + 1) → ℝ) :
    List.ofFn x = x 0 :: List.ofFn (fun i => x i.succ) := by
  rw [List.ofFn_succ]

theorem contDiffOn_evalAt (k : ℕ) (hk : k = 1 ∨ k = 3) (m : WithTop ℕ∞) :
    ∀ (G : List (GridDim ℝ)) (oo : List ℕ) (S : List (Set ℝ)), (∀ g ∈ G, ValidAxis g) →
    oo.length = G.length → S.length = G.length →
    (∀ (i : ℕ) (g : GridDim ℝ) (l : ℕ) (s : Set ℝ), G[i]? = some g → oo[i]? = some l → S[i]? = some s →
      ∀ c, ContDiffOn ℝ m (fun t => axisOp k l g t c) s) →
    ∀ c, ContDiffOn ℝ m (fun x : Fin G.length → ℝ => evalAt k G oo (List.ofFn x) c)
      {x | ∀ (i : Fin G.length) s, S[i]? = some s → x i ∈ s}
  | [], _, _, _, _, _, _ => by
    intro c
    simp only [evalAt]
    exact contDiffOn_const
  | _ :: _, [], _, _, ho, _, _ => by simp at ho
  | _ :: _, _ :: _, [], _, _, hS, _ => by simp at hS
  | g :: G, o :: oo, s :: S, hG, ho, hS, h => by
    intro c
    have ih := contDiffOn_evalAt k hk m G oo S (fun g' h' => hG g' (by simp [h']))
      (by simpa using ho) (by simpa using hS)
      (fun i g l s h1 h2 h3 => h (i + 1) g l s (by simpa using h1) (by simpa using h2)
        (by simpa using h3))
    have e : ∀ x : Fin (g :: G).length → ℝ, evalAt k (g :: G) (o :: oo) (List.ofFn x) c
        = ∑ j ∈ Finset.range (nCoef k g), basis k o g j (x (0 : Fin (G.length + 1))) *
          evalAt k G oo (List.ofFn fun i : Fin G.length => x i.succ) (fun r => c (j :: r)) := by
      intro x
      rw [show List.ofFn x = x (0 : Fin (G.length + 1)) ::
        List.ofFn (fun i : Fin G.length => x i.succ) from ofFn_cons x, evalAt_cons,
        axisOp_expand k o hk (hG g (by simp))]
    simp only [e]
    apply ContDiffOn.sum
    intro j _
    apply ContDiffOn.mul
    · have h1 := h 0 g o s rfl rfl rfl (fun i => if i = j then 1 else 0)
      refine h1.comp (t := s) (contDiff_apply ℝ ℝ (0 : Fin (G.length + 1))).contDiffOn ?_
      intro x hx
      exact hx (0 : Fin (G.length + 1)) s rfl
    · refine (ih (fun r => c (j :: r))).comp
        (g := fun x : Fin G.length → ℝ => evalAt k G oo (List.ofFn x) (fun r => c (j :: r)))
        (f := fun (x : Fin (G.length + 1) → ℝ) (i : Fin G.length) => x i.succ) ?_ ?_
      · exact (contDiff_pi.2 fun i : Fin G.length => contDiff_apply ℝ ℝ i.succ).contDiffOn
      · intro x hx i s' hs
        exact hx i.succ s' (by simpa using hs)

theorem continuous_evalAt (k : ℕ) (hk : k = 1 ∨ k = 3) (G : List (GridDim ℝ)) (oo : List ℕ)
    (hG : ∀ g ∈ G, ValidAxis g) (ho : oo.length = G.length)
    (h : ∀ (i : ℕ) (g : GridDim ℝ) (l : ℕ), G[i]? = some g → oo[i]? = some l →
      ∀ c, Continuous (fun t => axisOp k l g t c)) (c : List ℕ → ℝ) :
    Continuous (fun x : Fin G.length → ℝ => evalAt k G oo (List.ofFn x) c) := by
  have := contDiffOn_evalAt k hk 0 G oo (G.map fun _ => Set.univ) hG ho (by simp)
    (fun i g l s h1 h2 h3 c => contDiffOn_zero.2 (h i g l h1 h2 c).continuousOn) c
  rw [contDiffOn_zero] at this
  rw [← continuousOn_univ]
  refine this.mono fun x _ i s hs => ?_
  simp only [Fin.getElem?_fin, List.getElem?_map, Option.map_eq_some_iff] at hs
  obtain ⟨_, _, rfl⟩ := hs
  trivial

end Interp.Codegen
