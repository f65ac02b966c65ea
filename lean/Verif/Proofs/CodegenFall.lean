import Verif.Proofs.CodegenPoint

/-! Constant mode, single point, vector values, supplied output array: the guard writes zeros but
does not return, so the zeros are overwritten. -/

set_option linter.unusedSectionVars false
set_option linter.unusedSimpArgs false

namespace Interp.Codegen
open Interp.Ref

variable {K : Type} [Add K] [Sub K] [Mul K] [Div K] [Neg K] [Zero K] [One K] [NatCast K]
  [IntCast K] [LT K] [DecidableLT K] [BEq K] [IntFloor K]

variable {k : ℕ} {G : List (GridDim K)} {C : NdArray K} {vec : Bool} {m : ℕ}
  {orders : Option (List (List ℕ))}

theorem run_coords_fall (c : Ctx K) (hx : c.x.length = c.grid.length)
    (hb : ∀ g ∈ c.grid, HasBounds false g) (s : State K) (A : NdArray K) (hA : s.out = some A)
    (hp : ∀ i (hi : i < c.grid.length), Prep false c.grid[i] (s.dims i)) :
    ∀ d, d ≤ c.grid.length → ∃ s' A',
      run c ((List.range d).flatMap (coordBlock "constant" .zeroFall)) s = .ok (s', .next) ∧
      (∀ i (hi : i < c.grid.length), Prep false c.grid[i] (s'.dims i)) ∧
      (∀ i (_ : i < d) (hx : i < c.x.length), (s'.dims i).x = some c.x[i]) ∧
      s'.nVals = s.nVals ∧ s'.vals = s.vals ∧ s'.out = some A' ∧ A'.shape = A.shape := by
  intro d
  induction d with
  | zero => intro _; exact ⟨s, A, rfl, hp, by intro i hi; omega, rfl, rfl, hA, rfl⟩
  | succ d ih =>
    intro hd
    obtain ⟨s1, A1, h1, h2, h3, h4, h5, h6, h7⟩ := ih (by omega)
    have hdx : d < c.x.length := by omega
    have hdg : d < c.grid.length := by omega
    have l1 := run_loadX c d hdx s1
    set v1 : DimVars K := { s1.dims d with x := some c.x[d] } with hv1
    have hp1 : Prep false c.grid[d] v1 := (h2 d hdg).congr rfl rfl rfl rfl rfl (fun _ => rfl)
    obtain ⟨ha, hb'⟩ := hp1.ab (hb _ (List.getElem_mem hdg))
    have hx1 : v1.x = some c.x[d] := rfl
    have hout : outside ((s1.setDim d v1).dims d) = .ok (isOutside c.grid[d] c.x[d]) := by
      rw [setDim_same]
      simp only [outside, ha, hb', hx1, var, pure_eq_ok, ok_bind]
      rfl
    have hblk : coordBlock "constant" .zeroFall d
        = [Stmt.loadX d] ++ [Stmt.constGuard d .zeroFall] := by simp [coordBlock]
    have hprep : ∀ i (hi : i < c.grid.length), Prep false c.grid[i] ((s1.setDim d v1).dims i) := by
      intro i hi
      by_cases hid : i = d
      · subst hid; rw [setDim_same]; exact hp1
      · rw [setDim_other _ _ _ _ hid]; exact h2 i hi
    have hxs : ∀ i (_ : i < d + 1) (hx : i < c.x.length),
        ((s1.setDim d v1).dims i).x = some c.x[i] := by
      intro i hi hx
      by_cases hid : i = d
      · subst hid; rw [setDim_same]
      · rw [setDim_other _ _ _ _ hid]; exact h3 i (by omega) hx
    cases hio : isOutside c.grid[d] c.x[d] with
    | false =>
      rw [hio] at hout
      refine ⟨s1.setDim d v1, A1, ?_, hprep, hxs, h4, h5, h6, h7⟩
      rw [List.range_succ, List.flatMap_append, run_append_next c _ _ _ _ h1,
        List.flatMap_singleton, hblk, run_append_next c _ _ _ _ l1]
      apply run_one
      simp only [exec, stepDim, hout, ok_bind, Bool.false_eq_true, if_false, pure_eq_ok]
    | true =>
      rw [hio] at hout
      refine ⟨{ s1.setDim d v1 with out := some ⟨A1.shape, fun _ => 0⟩ }, ⟨A1.shape, fun _ => 0⟩,
        ?_, hprep, hxs, h4, h5, rfl, h7⟩
      rw [List.range_succ, List.flatMap_append, run_append_next c _ _ _ _ h1,
        List.flatMap_singleton, hblk, run_append_next c _ _ _ _ l1]
      apply run_one
      have ho : (s1.setDim d v1).out = some A1 := h6
      simp only [exec, stepDim, hout, ok_bind, if_true, pure_eq_ok, State.getOut, ho]
      simp [fillZero, InShape]

/-- What is actually left in the output array: the linear-mode values, also outside the grid. -/
theorem evalSpline_point_out_constant (h : GoodCall k G C true m orders)
    (x : List K) (hx : x.length = G.length) (hm : PointMode "constant" G)
    (B : NdArray K) (hB : B.shape = outRest true m orders) :
    ∃ A, evalSpline G C (.point x) (some B) k orders "constant" = .ok ⟨.none, some A⟩ ∧
      A.shape = outRest true m orders ∧
      ∀ tail, InShape (outRest true m orders) tail →
        A.get tail = rowEntry k "linear" G C true orders x tail := by
  set cfg := callCfg G C false false k orders "constant" with hcfg
  have hvv : cfg.vectorValued = true := h.vecVal
  have hg : pointGuard cfg = .zeroFall := by
    rw [pointGuard, if_pos hvv]; rfl
  have hred : genReducePoint cfg = genReduceVec cfg := by
    rw [reducePoint_vec _ hvv]; simp [hcfg, callCfg]
  set c : Ctx K := { grid := G, C := C, x := x, pre := [], npts := 0 } with hc
  obtain ⟨s, h1, h2, h3, h4⟩ := point_prelude h (some B) "constant" x
  rw [show (some B : Option (NdArray K)).isNone = false from rfl] at h1 h4
  simp only [Bool.false_eq_true, false_and, if_false] at h4
  obtain ⟨s1, A1, g1, g2, g3, g4, g5, g6, g7⟩ := run_coords_fall c hx
    (hm.bounds (Or.inr rfl)) s B h4 h2 G.length le_rfl
  obtain ⟨s2, l1, l2, l3⟩ := run_locate c cfg false rfl rfl h.wf x hx s1
    (fun i hi hx' => ⟨g2 i hi, g3 i hi hx'⟩)
  obtain ⟨s3, b1, b2, b3⟩ := run_basis c k false (axisOrders orders) h.axisOrdersOk x hx s2
    (fun i hi hx' hk1 hmem => by
      by_cases hon : orders = none
      · subst hon; simp [axisOrders] at hmem
      · exact h.deriv hk1 hon _ (List.getElem_mem hi) _) l2
  obtain ⟨s4, A', r1, r2, r3, r4, r5⟩ := run_reduceVec h c rfl cfg rfl rfl hvv rfl x hx s3
    (fun i hi hx' => (b2 i hi hx').2)
    (fun hv => (b3.2.1.trans l3.2.1).trans (g4.trans (h3 hv))) A1
    ((b3.1.trans l3.1).trans g6)
    (by intro tail htail; rw [g7, hB]; exact htail)
  refine ⟨A', ?_, r5.1.trans (g7.trans hB), ?_⟩
  · rw [evalSpline_unfold_point (some B) x "constant" _ (point_code h _ _) (point_names h _ _ hm)
      (point_unify _ (Or.inr (Or.inr (Or.inl rfl))))]
    rw [show (some B : Option (NdArray K)).isNone = false from rfl]
    have hrun : run c (pointProgram cfg).prelude { out := some B } = .ok (s4, .next) := by
      have h1' := h1 (genCoords cfg .zeroFall ++ (genLocate cfg ++ ((List.range cfg.d).flatMap
        (fun i => (axisOrders orders i).map fun l => blendStmt cfg.k l i) ++ genReduceVec cfg)))
      simp only [pointProgram, hg, hred, List.append_assoc] at h1' ⊢
      refine h1'.trans ?_
      rw [genCoords_eq]
      have e1 := run_append_next c _ (genLocate cfg ++ ((List.range cfg.d).flatMap
        (fun i => (axisOrders orders i).map fun l => blendStmt cfg.k l i) ++ genReduceVec cfg))
        _ _ g1
      refine e1.trans ?_
      rw [run_append_next c _ _ _ _ l1]
      exact (run_append_next c _ _ _ _ b1).trans r1
    have hrun' := hrun
    rw [hc, hcfg] at hrun'
    rw [hrun']
    simp [r4]
  · intro tail htail
    have e := r5.2.1 tail htail
    rw [rowEntry_inside "linear" x hx (by intro h; simp at h)]
    have hz : List.zipWith (modeX "linear") G x = x := by
      apply List.ext_getElem
      · simp; omega
      · intro i h1 h2
        simp [modeX]
    rw [hz]
    exact e

end Interp.Codegen
