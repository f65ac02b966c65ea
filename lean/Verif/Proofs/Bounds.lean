import Verif.Proofs.CodegenFall

/-! Simulation: a run is either the run with an arithmetic that never tests equal to zero, or stops
with `ZeroDivisionError`.  Used to show that no access is out of bounds even when the computed
spacings vanish. -/

set_option linter.unusedSectionVars false
set_option linter.unusedSimpArgs false

namespace Interp.Codegen
open Interp.Ref

variable {K : Type} [Add K] [Sub K] [Mul K] [Div K] [Neg K] [Zero K] [One K] [NatCast K]
  [IntCast K] [LT K] [DecidableLT K] [BEq K] [IntFloor K]

/-- An equality test that is never true. -/
@[instance_reducible] def neverZero (K : Type) : BEq K := ⟨fun _ _ => false⟩

/-- Same result, or a division by zero. -/
def SameOrZeroDiv {α : Type} (r r' : Py α) : Prop := r = r' ∨ r = .error .zeroDivision

theorem SameOrZeroDiv.refl {α : Type} (r : Py α) : SameOrZeroDiv r r := Or.inl rfl

theorem SameOrZeroDiv.bind {α β : Type} {r r' : Py α} {f f' : α → Py β}
    (h : SameOrZeroDiv r r') (hf : ∀ a, SameOrZeroDiv (f a) (f' a)) :
    SameOrZeroDiv (r >>= f) (r' >>= f') := by
  rcases h with rfl | rfl
  · rcases r with e | a
    · exact Or.inl rfl
    · exact hf a
  · exact Or.inr rfl

theorem pyDiv_sim (x y : K) : SameOrZeroDiv (pyDiv x y) (@pyDiv K _ _ (neverZero K) x y) := by
  unfold pyDiv
  by_cases h : (y == 0) = true
  · right; rw [if_pos h]; rfl
  · left
    rw [if_neg h]; rfl

theorem stepDim_sim (c : Ctx K) (st : Stmt) :
    (stepDim c st = none ∧ @stepDim K _ _ _ _ _ _ _ _ _ _ _ (neverZero K) _ c st = none) ∨
    ∃ i f f', stepDim c st = some (i, f) ∧
      @stepDim K _ _ _ _ _ _ _ _ _ _ _ (neverZero K) _ c st = some (i, f') ∧
      ∀ v, SameOrZeroDiv (f v) (f' v) := by
  cases st
  case recoverUniform i =>
    refine Or.inr ⟨i, _, _, rfl, rfl, fun v => ?_⟩
    unfold stepRecoverUniform
    split
    · exact (pyDiv_sim _ _).bind fun _ => .refl _
    · exact .refl _
  case recoverNonuniform i bounds => exact Or.inr ⟨i, _, _, rfl, rfl, fun v => .refl _⟩
  case loadX i => exact Or.inr ⟨i, _, _, rfl, rfl, fun v => .refl _⟩
  case clampNearest i => exact Or.inr ⟨i, _, _, rfl, rfl, fun v => .refl _⟩
  case locateUniform i => exact Or.inr ⟨i, _, _, rfl, rfl, fun v => .refl _⟩
  case locateNonuniform i =>
    refine Or.inr ⟨i, _, _, rfl, rfl, fun v => ?_⟩
    unfold stepLocateNonuniform
    refine SameOrZeroDiv.bind (.refl _) fun gc => ?_
    refine SameOrZeroDiv.bind (.refl _) fun x => ?_
    refine SameOrZeroDiv.bind (.refl _) fun N => ?_
    refine SameOrZeroDiv.bind (.refl _) fun g1 => ?_
    refine SameOrZeroDiv.bind (.refl _) fun g0 => ?_
    exact (pyDiv_sim _ _).bind fun _ => .refl _
  case blend1 l i =>
    refine Or.inr ⟨i, _, _, rfl, rfl, fun v => ?_⟩
    unfold stepBlend1
    refine SameOrZeroDiv.bind ?_ fun _ => .refl _
    unfold blend1Vals
    split_ifs
    · exact .refl _
    · refine SameOrZeroDiv.bind (.refl _) fun t => ?_
      refine (pyDiv_sim _ _).bind fun _ => ?_
      exact (pyDiv_sim _ _).bind fun _ => .refl _
    · exact .refl _
  case blend3 l i => exact Or.inr ⟨i, _, _, rfl, rfl, fun v => .refl _⟩
  all_goals exact Or.inl ⟨rfl, rfl⟩

theorem exec_sim (c : Ctx K) (st : Stmt) (s : State K) :
    SameOrZeroDiv (exec c st s) (@exec K _ _ _ _ _ _ _ _ _ _ _ (neverZero K) _ c st s) := by
  unfold exec
  rcases stepDim_sim c st with ⟨h1, h2⟩ | ⟨i, f, f', h1, h2, h3⟩
  · rw [h1, h2]
    exact .refl _
  · rw [h1, h2]
    exact (h3 _).bind fun _ => .refl _

theorem run_sim (c : Ctx K) (L : List Stmt) : ∀ s : State K,
    SameOrZeroDiv (run c L s) (@run K _ _ _ _ _ _ _ _ _ _ _ (neverZero K) _ c L s) := by
  induction L with
  | nil => intro s; exact .refl _
  | cons st L ih =>
    intro s
    unfold run
    refine (exec_sim c st s).bind fun r => ?_
    rcases r with ⟨s', f⟩
    cases f
    · exact ih s'
    · exact .refl _
    · exact .refl _

theorem runRows_sim (G : List (GridDim K)) (C : NdArray K) (npts : ℕ) (body : List Stmt)
    (xs : List (List K)) : ∀ (nn : ℕ) (s : State K),
    SameOrZeroDiv (runRows G C npts body nn xs s)
      (@runRows K _ _ _ _ _ _ _ _ _ _ _ (neverZero K) _ G C npts body nn xs s) := by
  induction xs with
  | nil => intro nn s; exact .refl _
  | cons x xs ih =>
    intro nn s
    unfold runRows
    exact (run_sim _ _ _).bind fun r => ih _ _

theorem evalSpline_sim (G : List (GridDim K)) (C : NdArray K) (p : Points K)
    (out : Option (NdArray K)) (k : ℕ) (orders : Option (List (List ℕ))) (mode : String) :
    SameOrZeroDiv (evalSpline G C p out k orders mode)
      (@evalSpline K _ _ _ _ _ _ _ _ _ _ _ (neverZero K) _ G C p out k orders mode) := by
  unfold evalSpline
  simp only []
  refine SameOrZeroDiv.bind (.refl _) fun prog => ?_
  by_cases h1 : ¬ allNamesAssigned prog
  · rw [if_pos h1, if_pos h1]; exact Or.inl rfl
  rw [if_neg h1, if_neg h1]
  by_cases h2 : (!returnsUnify prog) = true
  · rw [if_pos h2, if_pos h2]; exact Or.inl rfl
  rw [if_neg h2, if_neg h2]
  cases p with
  | point x => exact (run_sim _ _ _).bind fun _ => .refl _
  | rows xs =>
    refine (run_sim _ _ _).bind fun r => ?_
    exact (runRows_sim _ _ _ _ _ _ _).bind fun _ => .refl _

variable {k : ℕ} {G : List (GridDim K)} {C : NdArray K} {vec : Bool} {m : ℕ}
  {orders : Option (List (List ℕ))}

/-- Derivatives of scalar data at an outside point, constant mode, in-place: the call returns 0 and
leaves the array as it was. -/
theorem evalSpline_point_out_constant_scalar {os : List (List ℕ)}
    (h : GoodCall k G C false m (some os)) (B : NdArray K) (x : List K) (hx : x.length = G.length)
    (hm : PointMode "constant" G) (hout : (List.zipWith isOutside G x).any id = true) :
    evalSpline G C (.point x) (some B) k (some os) "constant" = .ok ⟨.scalar 0, some B⟩ := by
  rw [evalSpline_unfold_point (some B) x "constant" _ (point_code h _ _) (point_names h _ _ hm)
    (point_unify _ (Or.inr (Or.inr (Or.inl rfl))))]
  obtain ⟨s, h1, h2⟩ := point_outside h (some B) x hx hm hout (.scalar 0) (some B) (by
    intro i s hs ho
    have hg : pointGuard (callCfg G C false (some B).isNone k (some os) "constant")
        = .returnZero := by
      simp [pointGuard, callCfg, h.shape_length]
    rw [hg]
    simp only [exec, stepDim, hs, ok_bind, if_true, pure_eq_ok]
    simp at ho
    simp [← ho])
  rw [h1]
  simp [h2]

end Interp.Codegen
