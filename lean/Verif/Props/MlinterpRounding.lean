import Verif.Proofs.MlinterpRounding
import Verif.Props.Rounding

/-!
# `interp` and `mlinterp` computed with rounding: C106, C107

The models of `interp` and `mlinterp` are run on `Fl R`, where every operation is rounded
(`Verif.Spec.Rounding`).
-/

namespace Interp.Props
open Interp.Codegen Interp.Spec Interp.Ref Interp.Mlinterp

variable {R : Rounding} {G : List (GridDim (Fl R))} {C : NdArray (Fl R)}

/-- On `Fl R`, valid grids cause no division by zero and the data have the right shape. -/
theorem flReady (hu : R.u < 1) (h : GridData (G.map exactAxis) (exactArray C)) :
    G ≠ [] ∧ (∀ g ∈ G, NoZeroDiv g) ∧ C.shape = G.map axisLen := by
  refine ⟨by simpa using h.grid.1, fun g hg =>
    noZeroDiv_val hu g (h.grid.2 _ (List.mem_map_of_mem hg)), ?_⟩
  have h1 : C.shape = gridShape (G.map exactAxis) := h.shape
  rw [h1, gridShape, List.map_map]
  exact List.map_congr_left fun g _ => (axisLen_val g).symm

theorem fl_u_lt (h : GridData (G.map exactAxis) (exactArray C))
    (hs : ∀ g ∈ G, axisErr R (exactAxis g) ≤ 1 / 4) : R.u < 1 := by
  obtain ⟨g0, hg0⟩ := List.exists_mem_of_ne_nil G (by simpa using h.grid.1)
  exact lt_of_le_of_lt (u_small (h.grid.2 _ (List.mem_map_of_mem hg0)) (hs g0 hg0)) (by norm_num)

/-- C106, `mlinterp`: at every point of the grid the computed number differs from that of exact
arithmetic by at most `(∏ (1 + eᵢ) - 1) M`, where `M` bounds the data, `eᵢ = 13 nᵢ u` for a uniform
axis with `nᵢ` nodes and `eᵢ = 13 u` for an axis given by an array.  (At a point near a node of a
uniform axis the computed cell may be the neighbour of the right one, since the quotient of two
rounded numbers is floored; the bound holds all the same.) -/
theorem C106_mlinterp_rounding (h : GridData (G.map exactAxis) (exactArray C))
    (hs : ∀ g ∈ G, axisErr R (exactAxis g) ≤ 1 / 4) (M : ℝ)
    (hM : ∀ idx, InShape (gridShape (G.map exactAxis)) idx → |(C.get idx).val| ≤ M) :
    ∃ v v', MlReturns (G.map exactAxis) (exactArray C) v ∧ MlReturns G C v' ∧
      ∀ x : List (Fl R), InBox (G.map exactAxis) (x.map Fl.val) →
        |(v' x).val - v (x.map Fl.val)| ≤ ((G.map fun g => 1 + axisErr R (exactAxis g)).prod - 1) * M := by
  obtain ⟨r1, r2, r3⟩ := flReady (fl_u_lt h hs) h
  refine ⟨_, _, mlReturns h.grid.1 h.noZero h.len, mlReturns r1 r2 r3, fun x hx => ?_⟩
  rw [mlVal_plain _ _ _ h.grid.2 (by simpa using (List.Forall₂.length_eq hx).symm)]
  exact mlVal_rounding G x C.get M (fun g hg => h.grid.2 _ (List.mem_map_of_mem hg)) hs hx hM

/-- C106, `interp`: the same bound at every point, inside or outside the grid. -/
theorem C106_interp_rounding (h : GridData (G.map exactAxis) (exactArray C))
    (hs : ∀ g ∈ G, axisErr R (exactAxis g) ≤ 1 / 4) (M : ℝ)
    (hM : ∀ idx, InShape (gridShape (G.map exactAxis)) idx → |(C.get idx).val| ≤ M) :
    ∃ v v', InterpReturns (G.map exactAxis) (exactArray C) v ∧ InterpReturns G C v' ∧
      ∀ x : List (Fl R), x.length = G.length →
        |(v' x).val - v (x.map Fl.val)| ≤ ((G.map fun g => 1 + axisErr R (exactAxis g)).prod - 1) * M := by
  obtain ⟨r1, r2, r3⟩ := flReady (fl_u_lt h hs) h
  refine ⟨_, _, h.interp, C37_styles_agree r1 r2 r3, fun x hx => ?_⟩
  have hxl : (x.map Fl.val).length = (G.map exactAxis).length := by simpa using hx
  have e : (List.zipWith projI G x).map Fl.val = projBox (G.map exactAxis) (x.map Fl.val) := by
    rw [zipWith_projI_val, zipWith_projI _ _ h.grid.2]
  rw [h.ival _ hxl, ← e]
  refine mlVal_rounding G _ C.get M (fun g hg => h.grid.2 _ (List.mem_map_of_mem hg)) hs ?_ hM
  rw [e]
  exact projBox_inBox _ _ h.grid.2 hxl

/-! ### Axes given by arrays -/

theorem arrays_len {axes : List (List (Fl R))}
    (h : GridData ((axes.map GridDim.array).map exactAxis) (exactArray C)) :
    (∀ gc ∈ axes, ValidAxis (.array (gc.map Fl.val))) ∧ (∀ l ∈ axes, 2 ≤ l.length) ∧
      gridShape ((axes.map GridDim.array).map exactAxis) = axes.map List.length := by
  have hv : ∀ gc ∈ axes, ValidAxis (.array (gc.map Fl.val)) := fun gc hgc =>
    h.grid.2 _ (List.mem_map_of_mem (List.mem_map_of_mem (f := GridDim.array) hgc))
  exact ⟨hv, fun l hl => by simpa using (hv l hl).1,
    by simp [gridShape, List.map_map, Function.comp_def, exactAxis, nNodes]⟩

/-- C107. With rounding, on grids all of whose axes are given as arrays, `mlinterp` returns at every
node exactly the stored number. -/
theorem C107_mlinterp_nodes_exact (hu : R.u < 1) (h1 : R.rnd 1 = 1) (axes : List (List (Fl R)))
    (h : GridData ((axes.map GridDim.array).map exactAxis) (exactArray C)) :
    ∃ v, MlReturns (axes.map .array) C v ∧
      ∀ idx, InShape (axes.map List.length) idx → Representable R (C.get idx) →
        v (storedNode axes idx) = C.get idx := by
  obtain ⟨r1, r2, r3⟩ := flReady hu h
  obtain ⟨hv, hl, hsh⟩ := arrays_len h
  refine ⟨_, mlReturns r1 r2 r3, fun idx hidx hC => ?_⟩
  rw [mlVal_arrays axes _ _ hl (storedNode_length axes idx hidx)]
  exact evalAt_node_exact hu h1 axes idx C.get hv hidx hC

/-- C107 for `interp`. -/
theorem C107_interp_nodes_exact (hu : R.u < 1) (h1 : R.rnd 1 = 1) (axes : List (List (Fl R)))
    (h : GridData ((axes.map GridDim.array).map exactAxis) (exactArray C)) :
    ∃ v, InterpReturns (axes.map .array) C v ∧
      ∀ idx, InShape (axes.map List.length) idx → Representable R (C.get idx) →
        v (storedNode axes idx) = C.get idx := by
  obtain ⟨r1, r2, r3⟩ := flReady hu h
  obtain ⟨hv, hl, hsh⟩ := arrays_len h
  refine ⟨_, C37_styles_agree r1 r2 r3, fun idx hidx hC => ?_⟩
  have hp : List.zipWith projI (axes.map GridDim.array) (storedNode axes idx) = storedNode axes idx := by
    apply List.map_injective_iff.2 (show Function.Injective (Fl.val (R := R)) from
      fun a b hab => Fl.ext hab)
    rw [zipWith_projI_val, zipWith_projI _ _ h.grid.2, storedNode_val]
    exact projBox_of_inBox _ _ (nodeAt_inBox _ idx h.grid.2 (by rw [hsh]; exact hidx))
  rw [ival, hp, mlVal_arrays axes _ _ hl (storedNode_length axes idx hidx)]
  exact evalAt_node_exact hu h1 axes idx C.get hv hidx hC

/-- C107: on axes given as arrays, with rounding, `mlinterp` and the linear splines in their default
mode compute exactly the same numbers at every point: their formulas round in the same way. -/
theorem C107_mlinterp_eq_linear (hu : R.u < 1) (axes : List (List (Fl R)))
    (h : GridData ((axes.map GridDim.array).map exactAxis) (exactArray C)) :
    ∃ v, MlReturns (axes.map .array) C v ∧
      ∀ x : List (Fl R), x.length = axes.length →
        Returns 1 (axes.map .array) C false 1 none "linear" x (fun _ => v x) := by
  obtain ⟨r1, r2, r3⟩ := flReady hu h
  obtain ⟨hv, hl, hsh⟩ := arrays_len h
  refine ⟨_, mlReturns r1 r2 r3, fun x hx => ?_⟩
  have hr : Request 1 ((axes.map GridDim.array).map exactAxis) (exactArray C) false 1 none := by
    refine ⟨h.grid, ?_, Or.inl rfl, fun os hos => by simp at hos⟩
    rw [h.shape]
    simp [gridShape]
  refine ((good_val hu hr).returns "linear" x (by simpa using hx)).congr fun tail ht => ?_
  have : tail = [] := inShape_nil_iff.mp ht
  subst this
  rw [mlVal_arrays axes _ _ hl hx]
  show evalMode 1 "linear" _ _ x (fun r => C.get (r ++ [])) = _
  simp [evalMode]

/-- C107: likewise `interp` and the linear splines in mode nearest. -/
theorem C107_interp_eq_nearest (hu : R.u < 1) (axes : List (List (Fl R)))
    (h : GridData ((axes.map GridDim.array).map exactAxis) (exactArray C)) :
    ∃ v, InterpReturns (axes.map .array) C v ∧
      ∀ x : List (Fl R), x.length = axes.length →
        Returns 1 (axes.map .array) C false 1 none "nearest" x (fun _ => v x) := by
  obtain ⟨r1, r2, r3⟩ := flReady hu h
  obtain ⟨hv, hl, hsh⟩ := arrays_len h
  refine ⟨_, C37_styles_agree r1 r2 r3, fun x hx => ?_⟩
  have hr : Request 1 ((axes.map GridDim.array).map exactAxis) (exactArray C) false 1 none := by
    refine ⟨h.grid, ?_, Or.inl rfl, fun os hos => by simp at hos⟩
    rw [h.shape]
    simp [gridShape]
  refine ((good_val hu hr).returns "nearest" x (by simpa using hx)).congr fun tail ht => ?_
  have : tail = [] := inShape_nil_iff.mp ht
  subst this
  have hp : List.zipWith projI (axes.map GridDim.array) x
      = List.zipWith clampAxis (axes.map GridDim.array) x := by
    apply List.map_injective_iff.2 (show Function.Injective (Fl.val (R := R)) from
      fun a b hab => Fl.ext hab)
    rw [zipWith_projI_val, zipWith_projI _ _ h.grid.2, clamp_val, zipWith_clamp _ _ h.grid.2]
  rw [ival, hp, mlVal_arrays axes _ _ hl (by simp [hx])]
  show evalMode 1 "nearest" _ _ x (fun r => C.get (r ++ [])) = _
  simp [evalMode]

/-! ### Concrete cases, in double precision -/

/-- One number per node of `flG`, between -1 and 1. -/
noncomputable def flD : NdArray (Fl double) :=
  ⟨[1000, 3], fun idx => if idx.getD 1 0 = 0 then ⟨1⟩ else ⟨-1⟩⟩

theorem flD_data : GridData (flG.map exactAxis) (exactArray flD) :=
  ⟨flG_request.grid, by simp [flG, flD, exactAxis, exactArray, nNodes, gridShape]⟩

theorem flG_small : ∀ g ∈ flG, axisErr double (exactAxis g) ≤ 1 / 4 := by
  have hu := double_u
  intro g hg
  simp only [flG, List.mem_cons, List.not_mem_nil, or_false] at hg
  rcases hg with rfl | rfl
  · simp only [exactAxis, axisErr, hu]; norm_num
  · simp only [exactAxis, axisErr, hu]; norm_num

theorem flD_le : ∀ idx, InShape (gridShape (flG.map exactAxis)) idx → |(flD.get idx).val| ≤ 1 := by
  intro idx _
  simp only [flD]
  split_ifs <;> simp

/-- C106 applied: below `10⁻¹¹` at every point. -/
example : ∃ v v', InterpReturns (flG.map exactAxis) (exactArray flD) v ∧ InterpReturns flG flD v' ∧
    ∀ x : List (Fl double), x.length = 2 → |(v' x).val - v (x.map Fl.val)| ≤ 1 / 10 ^ 11 := by
  obtain ⟨v, v', h1, h2, h3⟩ := C106_interp_rounding flD_data flG_small 1 flD_le
  refine ⟨v, v', h1, h2, fun x hx => (h3 x hx).trans ?_⟩
  simp only [flG, List.map_cons, List.map_nil, List.prod_cons, List.prod_nil, exactAxis, axisErr, double_u]
  norm_num

example : ∃ v v', MlReturns (flG.map exactAxis) (exactArray flD) v ∧ MlReturns flG flD v' ∧
    |(v' [⟨1 / 4⟩, ⟨3⟩]).val - v [1 / 4, 3]| ≤ 1 / 10 ^ 11 := by
  obtain ⟨v, v', h1, h2, h3⟩ := C106_mlinterp_rounding flD_data flG_small 1 flD_le
  refine ⟨v, v', h1, h2, (h3 [⟨1 / 4⟩, ⟨3⟩] ?_).trans ?_⟩
  · refine .cons ⟨?_, ?_⟩ (.cons ⟨?_, ?_⟩ .nil) <;>
      norm_num [exactAxis, first, last, node, nNodes, show (Int.toNat 1000) = 1000 from rfl]
  · simp only [flG, List.map_cons, List.map_nil, List.prod_cons, List.prod_nil, exactAxis, axisErr, double_u]
    norm_num

private noncomputable def arrC : NdArray (Fl double) :=
  ⟨[2, 3], fun idx => if idx.getD 1 0 = 2 then ⟨8⟩ else ⟨1 / 3⟩⟩

private theorem arrC_data : GridData
    (([[⟨0⟩, ⟨1⟩], [⟨1⟩, ⟨2⟩, (⟨4⟩ : Fl double)]].map GridDim.array).map exactAxis) (exactArray arrC) := by
  refine ⟨⟨by simp, ?_⟩, by simp [arrC, exactArray, exactAxis, nNodes, gridShape]⟩
  intro g hg
  simp only [List.map_cons, List.map_nil, List.mem_cons, List.not_mem_nil, or_false, exactAxis] at hg
  rcases hg with rfl | rfl
  · exact ⟨by simp, by norm_num [List.pairwise_cons]⟩
  · exact ⟨by simp, by norm_num [List.pairwise_cons]⟩

/-- C107 applied, at the node `(1, 4)`. -/
example : ∃ v, InterpReturns [.array [⟨0⟩, ⟨1⟩], .array [⟨1⟩, ⟨2⟩, (⟨4⟩ : Fl double)]] arrC v ∧
    v [⟨1⟩, ⟨4⟩] = ⟨8⟩ := by
  have h1 : double.rnd 1 = 1 := by
    have := binary_two_pow 52 0
    norm_num at this
    exact this
  have h8 : double.rnd 8 = 8 := by
    have := binary_two_pow 52 3
    norm_num at this
    exact this
  obtain ⟨v, h, hv⟩ := C107_interp_nodes_exact (by rw [double_u]; norm_num) h1 _ arrC_data
  exact ⟨v, h, hv [1, 2] (by decide) h8⟩

/-- C107 applied, at a point far from the nodes and outside the grid. -/
example : ∃ v, MlReturns [.array [⟨0⟩, ⟨1⟩], .array [⟨1⟩, ⟨2⟩, (⟨4⟩ : Fl double)]] arrC v ∧
    Returns 1 [.array [⟨0⟩, ⟨1⟩], .array [⟨1⟩, ⟨2⟩, (⟨4⟩ : Fl double)]] arrC false 1 none "linear"
      [⟨1 / 3⟩, ⟨7⟩] (fun _ => v [⟨1 / 3⟩, ⟨7⟩]) := by
  obtain ⟨v, h, hv⟩ := C107_mlinterp_eq_linear (by rw [double_u]; norm_num) _ arrC_data
  exact ⟨v, h, hv _ rfl⟩

end Interp.Props
