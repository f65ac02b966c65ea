import Verif.Proofs.Rounding
import Verif.Props.LinearValues

/-!
# Linear splines computed with rounding: C78, C79

The model of `eval_spline` is run on `Fl R`, where every operation is rounded (`Verif.Spec.Rounding`).
-/

set_option linter.unusedSectionVars false

namespace Interp.Props
open Interp.Codegen Interp.Spec Interp.Ref

variable {R : Rounding} {G : List (GridDim (Fl R))} {C : NdArray (Fl R)} {vec : Bool} {m : ℕ}

theorem origin_inShape : ∀ (G : List (GridDim ℝ)), (∀ g ∈ G, ValidAxis g) →
    InShape (gridShape G) (G.map fun _ => 0)
  | [], _ => trivial
  | g :: G, h => ⟨lt_of_lt_of_le (by norm_num) (ValidAxis.two_le (h g (by simp))),
      origin_inShape G fun g' hg' => h g' (by simp [hg'])⟩

/-- C78. On the grid (in every mode), and everywhere in modes nearest and constant, the computed
values differ from those of exact arithmetic, on the same grid, data and point, by at most
`(∏ (1 + eᵢ) - 1) M`, where `M` bounds the data, `eᵢ = 13 nᵢ u` for a uniform axis with `nᵢ` nodes
and `eᵢ = 13 u` for a nonuniform axis.  (`eᵢ ≤ 1/4` is required; for doubles `u = 2⁻⁵³`.) -/
theorem C78_linear_rounding
    (h : Request 1 (G.map exactAxis) (exactArray C) vec m none)
    (hs : ∀ g ∈ G, axisErr R (exactAxis g) ≤ 1 / 4) (mode : String) (x : List (Fl R))
    (hx : x.length = G.length)
    (hmode : InBox (G.map exactAxis) (x.map Fl.val) ∨ mode = "nearest" ∨ mode = "constant")
    (M : List ℕ → ℝ)
    (hM : ∀ idx tail, InShape (gridShape (G.map exactAxis)) idx →
      InShape (tailShape vec m none) tail → |(C.get (idx ++ tail)).val| ≤ M tail) :
    ∃ E E', Returns 1 (G.map exactAxis) (exactArray C) vec m none mode (x.map Fl.val) E ∧
      Returns 1 G C vec m none mode x E' ∧
      ∀ tail, InShape (tailShape vec m none) tail →
        |(E' tail).val - E tail| ≤ ((G.map fun g => 1 + axisErr R (exactAxis g)).prod - 1) * M tail := by
  have hG : ∀ g ∈ G, ValidAxis (exactAxis g) := fun g hg => h.grid.2 _ (List.mem_map_of_mem hg)
  obtain ⟨g0, hg0⟩ := List.exists_mem_of_ne_nil G (by simpa using h.grid.1)
  have hu : R.u < 1 := lt_of_le_of_lt (u_small (hG g0 hg0) (hs g0 hg0)) (by norm_num)
  refine ⟨_, _, h.good.returns mode _ (by simpa using hx), (good_val hu h).returns mode x hx,
    fun tail ht => ?_⟩
  have hrow : rowEntry 1 mode G C vec none x tail
      = evalMode 1 mode G (List.replicate G.length 0) x (fun r => C.get (r ++ tail)) := by
    cases vec with
    | false =>
      have : tail = [] := by rw [← inShape_nil_iff]; exact ht
      subst this; rfl
    | true =>
      obtain ⟨i, rfl⟩ : ∃ i, tail = [i] := by
        match tail, ht with
        | [i], _ => exact ⟨i, rfl⟩
      rfl
  rw [rowEntry_plain 1 mode _ _ vec m _ tail ht, hrow]
  show |_ - evalMode 1 mode (G.map exactAxis) _ _ (fun r => (C.get (r ++ tail)).val)| ≤
    (errFactor R G - 1) * M tail
  have key : ∀ y : List (Fl R), InBox (G.map exactAxis) (y.map Fl.val) →
      |(evalAt 1 G (List.replicate G.length 0) y (fun r => C.get (r ++ tail))).val
        - evalAt 1 (G.map exactAxis) (List.replicate (G.map exactAxis).length 0) (y.map Fl.val)
          (fun r => (C.get (r ++ tail)).val)| ≤ (errFactor R G - 1) * M tail :=
    fun y hy => plain_rounding G y (fun r => C.get (r ++ tail)) (M tail) hG hs hy
      (fun idx hidx => hM idx tail hidx ht)
  have hM0 : 0 ≤ (errFactor R G - 1) * M tail := by
    have h1 := errFactor_one_le G hG
    have h2 : 0 ≤ M tail := by
      exact (abs_nonneg _).trans (hM _ tail (origin_inShape _ h.grid.2) ht)
    exact mul_nonneg (by linarith) h2
  unfold evalMode
  rw [outside_val, ← clamp_val]
  by_cases hn : mode = "nearest"
  · simp only [hn, if_true]
    apply key
    rw [clamp_val, zipWith_clamp _ _ h.grid.2]
    exact projBox_inBox _ _ h.grid.2 (by simpa using hx)
  · simp only [hn, if_false]
    by_cases hc : mode = "constant"
    · simp only [hc, if_true]
      rcases ho : (List.zipWith isOutside (G.map exactAxis) (x.map Fl.val)).any id with _ | _
      · simp only [Bool.false_eq_true, if_false]
        exact key x ((any_outside_iff _ _ h.grid.2 (by simpa using hx)).1 ho)
      · simp only [if_true]
        simpa [Fl.zero_val] using hM0
    · simp only [hc, if_false]
      refine key x ?_
      rcases hmode with h' | h' | h'
      · exact h'
      · exact (hn h').elim
      · exact (hc h').elim

/-! ### Nodes of nonuniform grids -/

/-- A number that rounding leaves unchanged, e.g. any floating-point number. -/
def Representable (R : Rounding) (x : Fl R) : Prop := R.rnd x.val = x.val

/-- The node of a nonuniform grid with multi-index `idx`, as stored in the arrays. -/
noncomputable def storedNode (axes : List (List (Fl R))) (idx : List ℕ) : List (Fl R) :=
  List.zipWith (fun gc i => gc.getD i 0) axes idx

theorem searchsorted_node (l : List ℝ) (hl : l.Pairwise (· < ·)) {j : ℕ} (hj : j < l.length) :
    searchsorted l (l.getD j 0) = j := by
  obtain ⟨h1, h2, h3⟩ := searchsorted_spec l hl (l.getD j 0)
  rw [getD_of_lt l j hj] at h1 h2 h3 ⊢
  apply le_antisymm
  · by_contra hcon
    exact absurd (h2 j hj (by omega)) (lt_irrefl _)
  · by_contra hcon
    have := h3 (searchsorted l l[j]) (by omega) le_rfl
    have := List.pairwise_iff_getElem.1 hl (searchsorted l l[j]) j (by omega) hj (by omega)
    linarith

theorem evalAt_node_exact (hu : R.u < 1) (h1 : R.rnd 1 = 1) :
    ∀ (axes : List (List (Fl R))) (idx : List ℕ) (c : List ℕ → Fl R),
    (∀ gc ∈ axes, ValidAxis (.array (gc.map Fl.val))) →
    InShape (axes.map List.length) idx → Representable R (c idx) →
    evalAt 1 (axes.map .array) (List.replicate (axes.map GridDim.array).length 0)
      (storedNode axes idx) c = c idx
  | [], [], c, _, _, _ => by simp [evalAt]
  | [], _ :: _, _, _, h, _ => h.elim
  | _ :: _, [], _, _, h, _ => h.elim
  | gc :: axes, j :: idx, c, hv, hi, hc => by
    have hj : j < gc.length := hi.1
    have hgc := hv gc (by simp)
    have h2 : 2 ≤ gc.length := by simpa using hgc.1
    have ih : ∀ i, Representable R (c (i :: idx)) → evalAt 1 (axes.map .array)
        (List.replicate (axes.map GridDim.array).length 0) (storedNode axes idx)
        (fun r => c (i :: r)) = c (i :: idx) := fun i hr =>
      evalAt_node_exact hu h1 axes idx (fun r => c (i :: r)) (fun g hg => hv g (by simp [hg])) hi.2 hr
    have hcell : cell (.array gc) (gc.getD j 0) = min (max ((j : ℤ) - 1) 0) ((gc.length : ℤ) - 2) := by
      rw [cell_array_val, getD_val]
      simp only [cell, searchsorted_node _ hgc.2 (show j < (gc.map Fl.val).length by simpa using hj),
        pyMinZ_eq, pyMaxZ_eq, List.length_map]
    have e1 : evalAt 1 ((gc :: axes).map .array)
        (List.replicate ((gc :: axes).map GridDim.array).length 0) (storedNode (gc :: axes) (j :: idx)) c
        = (1 - lam (.array gc) (gc.getD j 0)) * evalAt 1 (axes.map .array)
            (List.replicate (axes.map GridDim.array).length 0) (storedNode axes idx)
            (fun r => c (((cell (.array gc) (gc.getD j 0)).toNat + 0) :: r))
          + lam (.array gc) (gc.getD j 0) * evalAt 1 (axes.map .array)
            (List.replicate (axes.map GridDim.array).length 0) (storedNode axes idx)
            (fun r => c (((cell (.array gc) (gc.getD j 0)).toNat + 1) :: r)) := by
      simp only [storedNode, List.zipWith_cons_cons, List.map_cons, List.length_cons,
        List.replicate_succ, evalAt, weights, if_true, sumL,
        List.mapIdx_cons, List.mapIdx_nil, List.foldl_cons, List.foldl_nil]
    rw [e1]
    have r0 := Rounding.rnd_zero R
    ext
    rcases Nat.eq_zero_or_pos j with rfl | hpos
    · have hc0 : cell (.array gc) (gc.getD 0 0) = 0 := by rw [hcell]; omega
      have hl : (lam (.array gc) (gc.getD 0 0)).val = 0 := by
        simp only [lam, Fl.div_val, Fl.sub_val, hc0, Int.toNat_zero, sub_self, r0, zero_div]
      rw [hc0]
      simp only [Int.toNat_zero, Fl.add_val, Fl.mul_val, Fl.sub_val, Fl.one_val, hl,
        sub_zero, h1, one_mul, zero_mul, r0, add_zero, ih 0 hc]
      rw [show R.rnd (c (0 :: idx)).val = (c (0 :: idx)).val from hc]
      exact hc
    · have hc0 : (cell (.array gc) (gc.getD j 0)).toNat + 1 = j := by rw [hcell]; omega
      have hl : (lam (.array gc) (gc.getD j 0)).val = 1 := by
        have hne : R.rnd ((gc.getD ((cell (.array gc) (gc.getD j 0)).toNat + 1) 0).val
            - (gc.getD (cell (.array gc) (gc.getD j 0)).toNat 0).val) ≠ 0 := by
          refine rnd_ne_zero hu (sub_pos.2 ?_).ne'
          rw [getD_val, getD_val]
          exact node_lt hgc (Nat.lt_succ_self _) (by rw [hc0]; simpa [nNodes] using hj)
        simp only [lam, delta, Fl.div_val, Fl.sub_val]
        rw [hc0] at hne ⊢
        rw [div_self hne, h1]
      rw [hc0]
      simp only [Fl.add_val, Fl.mul_val, Fl.sub_val, Fl.one_val, hl,
        sub_self, one_mul, zero_mul, r0, zero_add, ih j hc]
      rw [show R.rnd (c (j :: idx)).val = (c (j :: idx)).val from hc]
      exact hc

theorem storedNode_val : ∀ (axes : List (List (Fl R))) (idx : List ℕ),
    (storedNode axes idx).map Fl.val
      = nodeAt ((axes.map GridDim.array).map exactAxis) idx
  | [], idx => by simp [storedNode, nodeAt]
  | gc :: axes, [] => by simp [storedNode, nodeAt]
  | gc :: axes, i :: idx => by
    have := storedNode_val axes idx
    simp only [storedNode, nodeAt, List.zipWith_cons_cons, List.map_cons] at this ⊢
    rw [this, getD_val]
    rfl

theorem storedNode_length : ∀ (axes : List (List (Fl R))) (idx : List ℕ),
    InShape (axes.map List.length) idx → (storedNode axes idx).length = axes.length
  | [], [], _ => rfl
  | [], _ :: _, h => h.elim
  | _ :: _, [], h => h.elim
  | gc :: axes, i :: idx, h => by
    have := storedNode_length axes idx h.2
    simpa [storedNode] using this

/-- C79. With rounding, on grids all of whose axes are given as arrays, every call at a node returns
exactly the stored number, in every mode: no rounding error at all.  (`1` and the stored number are
floating-point numbers.) -/
theorem C79_nodes_exact (hu : R.u < 1) (h1 : R.rnd 1 = 1) (axes : List (List (Fl R)))
    (h : Request 1 ((axes.map GridDim.array).map exactAxis) (exactArray C) vec m none)
    (idx : List ℕ) (hidx : InShape (axes.map List.length) idx)
    (hC : ∀ tail, InShape (tailShape vec m none) tail → Representable R (C.get (idx ++ tail)))
    (mode : String) :
    Returns 1 (axes.map .array) C vec m none mode (storedNode axes idx)
      (fun tail => C.get (idx ++ tail)) := by
  have hv : ∀ gc ∈ axes, ValidAxis (.array (gc.map Fl.val)) := fun gc hgc =>
    h.grid.2 _ (List.mem_map_of_mem (List.mem_map_of_mem (f := GridDim.array) hgc))
  have hl := storedNode_length axes idx hidx
  refine ((good_val hu h).returns mode (storedNode axes idx) (by simpa using hl)).congr fun tail ht => ?_
  have hrow : rowEntry 1 mode (axes.map .array) C vec none (storedNode axes idx) tail
      = evalMode 1 mode (axes.map .array) (List.replicate (axes.map GridDim.array).length 0)
        (storedNode axes idx) (fun r => C.get (r ++ tail)) := by
    cases vec with
    | false =>
      have : tail = [] := by rw [← inShape_nil_iff]; exact ht
      subst this; rfl
    | true =>
      obtain ⟨i, rfl⟩ : ∃ i, tail = [i] := by
        match tail, ht with
        | [i], _ => exact ⟨i, rfl⟩
      rfl
  rw [hrow]
  have hin : InBox ((axes.map GridDim.array).map exactAxis) ((storedNode axes idx).map Fl.val) := by
    rw [storedNode_val]
    refine nodeAt_inBox _ idx h.grid.2 ?_
    have : gridShape ((axes.map GridDim.array).map exactAxis) = axes.map List.length := by
      simp [gridShape, List.map_map, Function.comp_def, exactAxis, nNodes]
    rw [this]; exact hidx
  have hcl : List.zipWith clampAxis (axes.map GridDim.array) (storedNode axes idx) = storedNode axes idx := by
    apply List.map_injective_iff.2 (show Function.Injective (Fl.val (R := R)) from
      fun a b hab => Fl.ext hab)
    rw [clamp_val, zipWith_clamp _ _ h.grid.2, projBox_of_inBox _ _ hin]
  have hout : (List.zipWith isOutside (axes.map GridDim.array) (storedNode axes idx)).any id = false := by
    rw [outside_val]
    exact (any_outside_iff _ _ h.grid.2 (by simpa using hl)).2 hin
  unfold evalMode
  rw [hcl, hout]
  simp only [Bool.false_eq_true, if_false, ite_self]
  exact evalAt_node_exact hu h1 axes idx (fun r => C.get (r ++ tail)) hv hidx (hC tail ht)

/-! ### Concrete cases: binary floating-point numbers with 53 digits -/

theorem binary_two_pow (p : ℕ) (k : ℤ) : Rounding.binary p ((2 : ℝ) ^ k) = (2 : ℝ) ^ k := by
  have hpos : (0 : ℝ) < (2 : ℝ) ^ k := by positivity
  have hlog : Int.log 2 |(2 : ℝ) ^ k| = k := by
    rw [abs_of_pos hpos]
    exact_mod_cast Int.log_zpow (R := ℝ) (b := 2) (by norm_num) k
  simp only [Rounding.binary, hlog]
  rw [← zpow_add₀ (by norm_num), show k + ((p : ℤ) - k) = (p : ℤ) by ring, zpow_natCast]
  have : round ((2 : ℝ) ^ p) = (2 : ℤ) ^ p := by
    have := round_intCast (α := ℝ) ((2 : ℤ) ^ p)
    push_cast at this
    exact this
  rw [this]
  push_cast
  rw [← zpow_natCast, ← zpow_add₀ (by norm_num)]
  congr 1
  ring

/-- Double precision, without overflow and underflow. -/
noncomputable def double : Rounding := Rounding.ofDigits 52

theorem double_u : double.u = (2 : ℝ) ^ (-53 : ℤ) := by
  show (2 : ℝ) ^ (-(((52 : ℕ) : ℤ) + 1)) = _
  norm_num

/-- A grid with a uniform axis and an axis given by an array. -/
noncomputable def flG : List (GridDim (Fl double)) :=
  [.uniform ⟨0⟩ ⟨1⟩ 1000, .array [⟨0⟩, ⟨1⟩, ⟨4⟩]]

/-- Vector-valued data between -1 and 1. -/
noncomputable def flC : NdArray (Fl double) :=
  ⟨[1000, 3, 2], fun idx => if idx.getD 1 0 = 0 then ⟨1⟩ else ⟨-1⟩⟩

theorem flG_request : Request 1 (flG.map exactAxis) (exactArray flC) true 2 none := by
  refine ⟨⟨by simp [flG], ?_⟩, by simp [flG, flC, exactAxis, exactArray, nNodes], Or.inl rfl, by simp⟩
  intro g hg
  simp only [flG, List.map_cons, List.map_nil, List.mem_cons, List.not_mem_nil, or_false, exactAxis] at hg
  rcases hg with rfl | rfl
  · exact ⟨by norm_num, by norm_num⟩
  · exact ⟨by simp, by norm_num [List.pairwise_cons]⟩

/-- C78 applied: in double precision the error on this grid is below `10⁻¹¹`, at every point and in
mode nearest. -/
example (x : List (Fl double)) (hx : x.length = 2) :
    ∃ E E', Returns 1 (flG.map exactAxis) (exactArray flC) true 2 none "nearest" (x.map Fl.val) E ∧
      Returns 1 flG flC true 2 none "nearest" x E' ∧
      ∀ tail, InShape (tailShape true 2 none) tail → |(E' tail).val - E tail| ≤ 1 / 10 ^ 11 := by
  have hu := double_u
  have hs : ∀ g ∈ flG, axisErr double (exactAxis g) ≤ 1 / 4 := by
    intro g hg
    simp only [flG, List.mem_cons, List.not_mem_nil, or_false] at hg
    rcases hg with rfl | rfl
    · simp only [exactAxis, axisErr, hu]; norm_num
    · simp only [exactAxis, axisErr, hu]; norm_num
  obtain ⟨E, E', h1, h2, h3⟩ := C78_linear_rounding flG_request hs "nearest" x hx (Or.inr (Or.inl rfl))
    (fun _ => 1) (by
      intro idx tail _ _
      simp only [flC]
      split_ifs <;> simp)
  refine ⟨E, E', h1, h2, fun tail ht => (h3 tail ht).trans ?_⟩
  simp only [flG, List.map_cons, List.map_nil, List.prod_cons, List.prod_nil, exactAxis, axisErr, hu]
  norm_num

/-- C79 applied: at the node `(1, 4)` of a grid of arrays, in double precision. -/
example : Returns 1 [.array [⟨0⟩, ⟨1⟩], .array [⟨1⟩, ⟨2⟩, (⟨4⟩ : Fl double)]]
    ⟨[2, 3], fun idx => if idx.getD 1 0 = 2 then ⟨8⟩ else ⟨1 / 3⟩⟩ false 0 none "linear" [⟨1⟩, ⟨4⟩]
    (fun _ => ⟨8⟩) := by
  have h1 : double.rnd 1 = 1 := by
    have := binary_two_pow 52 0
    norm_num at this
    exact this
  have h8 : double.rnd 8 = 8 := by
    have := binary_two_pow 52 3
    norm_num at this
    exact this
  have h := C79_nodes_exact (vec := false) (m := 0)
    (C := ⟨[2, 3], fun idx => if idx.getD 1 0 = 2 then (⟨8⟩ : Fl double) else ⟨1 / 3⟩⟩)
    (by rw [double_u]; norm_num) h1 [[⟨0⟩, ⟨1⟩], [⟨1⟩, ⟨2⟩, ⟨4⟩]]
    ⟨⟨by simp, by
      intro g hg
      simp only [List.map_cons, List.map_nil, List.mem_cons, List.not_mem_nil, or_false, exactAxis] at hg
      rcases hg with rfl | rfl
      · exact ⟨by simp, by norm_num [List.pairwise_cons]⟩
      · exact ⟨by simp, by norm_num [List.pairwise_cons]⟩⟩,
      by simp [exactArray, exactAxis, nNodes], Or.inl rfl, by simp⟩ [1, 2] (by decide)
    (by
      intro tail ht
      have : tail = [] := by rw [← inShape_nil_iff]; exact ht
      subst this
      exact h8) "linear"
  refine h.congr fun tail ht => ?_
  have : tail = [] := by rw [← inShape_nil_iff]; exact ht
  subst this
  rfl

end Interp.Props
