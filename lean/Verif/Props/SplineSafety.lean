import Verif.Proofs.Reject
import Verif.Proofs.Bounds
import Verif.Props.SplineCalls

/-!
# What `eval_spline` refuses, and memory safety: C06, C14, C16
-/

set_option linter.unusedSectionVars false
set_option linter.unusedSimpArgs false

namespace Interp.Props
open Interp.Codegen Interp.Spec Interp.Ref

section Any

variable {K : Type} [Add K] [Sub K] [Mul K] [Div K] [Neg K] [Zero K] [One K] [NatCast K]
  [IntCast K] [LT K] [DecidableLT K] [BEq K] [IntFloor K]

/-- C16. Orders other than 1 and 3 are refused, whatever the other arguments. -/
theorem C16_rejects_degree (G : List (GridDim K)) (hG : G ≠ []) (C : NdArray K) (p : Points K)
    (out : Option (NdArray K)) (k : ℕ) (h1 : k ≠ 1) (h3 : k ≠ 3)
    (orders : Option (List (List ℕ))) (mode : String) :
    ∃ e, evalSpline G C p out k orders mode = .error e := by
  apply evalSpline_code_error
  apply getCodeSpline_error
  refine genBasis_error _ 0 (List.length_pos_iff.2 hG) fun ls hls => ?_
  obtain ⟨l, hl⟩ := List.exists_mem_of_ne_nil ls (basesOrders_ne_nil _ _ _ _ hls)
  exact ⟨l, hl, blendingFormula_bad k l 0 h1 h3⟩

/-- C16. A nonuniform axis with order 3 is refused. -/
theorem C16_rejects_nonuniform_cubic (G : List (GridDim K)) (gc : List K)
    (hg : GridDim.array gc ∈ G) (C : NdArray K) (p : Points K) (out : Option (NdArray K))
    (orders : Option (List (List ℕ))) (mode : String) :
    ∃ e, evalSpline G C p out 3 orders mode = .error e := by
  apply evalSpline_code_error
  refine getCodeSpline_nonuniform _ ?_ (by simp [cfgOf])
  exact List.mem_map.2 ⟨_, hg, rfl⟩

/-- C16. A derivative request with a tuple of orders shorter or longer than the number of axes, or
with no tuple at all, is refused. -/
theorem C16_rejects_orders (G : List (GridDim K)) (hG : G ≠ []) (C : NdArray K) (p : Points K)
    (out : Option (NdArray K)) (k : ℕ) (os : List (List ℕ))
    (h : os = [] ∨ ∃ oo ∈ os, oo.length ≠ G.length) (mode : String) :
    ∃ e, evalSpline G C p out k (some os) mode = .error e := by
  have short : ∀ i < G.length, (os = [] ∨ ∃ oo ∈ os, oo.length ≤ i) →
      ∃ e, evalSpline G C p out k (some os) mode = .error e := by
    intro i hi hs
    apply evalSpline_code_error
    apply getCodeSpline_error
    refine genBasis_error _ i hi fun ls hls => ?_
    rw [show (cfgOf G C p out k (some os) mode).orders = some os from rfl,
      basesOrders_short _ os i hs] at hls
    cases hls
  rcases h with rfl | ⟨oo, hoo, hl⟩
  · exact short 0 (List.length_pos_iff.2 hG) (Or.inl rfl)
  · rcases Nat.lt_or_gt_of_ne hl with h | h
    · exact short oo.length h (Or.inr ⟨oo, hoo, le_rfl⟩)
    · exact evalSpline_long G C p out k os mode oo hoo h

/-- C14, cubic splines: a request with an order of at least 2 in some coordinate is refused. -/
theorem C14_cubic_higher_rejected (G : List (GridDim K)) (C : NdArray K) (p : Points K)
    (out : Option (NdArray K)) (os : List (List ℕ)) (oo : List ℕ) (hoo : oo ∈ os) (l : ℕ)
    (hl : l ∈ oo) (h2 : 2 ≤ l) (mode : String) :
    ∃ e, evalSpline G C p out 3 (some os) mode = .error e := by
  by_cases hlen : oo.length = G.length
  · obtain ⟨i, hi, rfl⟩ := List.getElem_of_mem hl
    apply evalSpline_code_error
    apply getCodeSpline_error
    refine genBasis_error _ i (show i < G.length from hlen ▸ hi) fun ls hls => ?_
    refine ⟨_, mem_basesOrders _ os i ls hls oo hoo, ?_⟩
    have : oo.getD i 0 = oo[i] := by
      rw [List.getD_eq_getElem?_getD, List.getElem?_eq_getElem hi]; rfl
    rw [this]
    simp [blendingFormula, cfgOf, show ¬ oo[i] ≤ 1 by omega]
  · rcases Nat.lt_or_gt_of_ne hlen with h | h
    · exact C16_rejects_orders G (by rintro rfl; simp at h) C p out 3 os
        (Or.inr ⟨oo, hoo, hlen⟩) mode
    · exact evalSpline_long G C p out 3 os mode oo hoo h

/-- A request whose sizes and shapes are right; nothing is assumed about the numbers (the bounds of
an axis may coincide or be NaN, arrays may be unsorted). -/
structure SizedRequest (k : ℕ) (G : List (GridDim K)) (C : NdArray K) (vec : Bool) (m : ℕ)
    (orders : Option (List (List ℕ))) : Prop where
  nonempty : G ≠ []
  axes : ∀ g ∈ G, 2 ≤ size g
  shape : C.shape = (G.map fun g => size g + (k - 1)) ++ (if vec then [m] else [])
  degree : k = 1 ∨ (k = 3 ∧ ∀ g ∈ G, g.gtype = .uniform)
  orders_ok : ∀ os, orders = some os → os ≠ [] ∧
    ∀ oo ∈ os, oo.length = G.length ∧ (∀ l ∈ oo, l < 10) ∧ (k = 3 → ∀ l ∈ oo, l ≤ 1)

/-- The points have one coordinate per axis and the output array, if any, has the documented shape. -/
def ArgsOk (G : List (GridDim K)) (vec : Bool) (m : ℕ) (orders : Option (List (List ℕ)))
    (out : Option (NdArray K)) : Points K → Prop
  | .point x => x.length = G.length ∧ ∀ B, out = some B → B.shape = tailShape vec m orders
  | .rows xs => (∀ x ∈ xs, x.length = G.length) ∧
      ∀ B, out = some B → B.shape = xs.length :: tailShape vec m orders

theorem no_out_of_bounds_of_good {k : ℕ} {G : List (GridDim K)} {C : NdArray K} {vec : Bool} {m : ℕ}
    {orders : Option (List (List ℕ))} (h : GoodCall k G C vec m orders) (p : Points K)
    (out : Option (NdArray K)) (hp : ArgsOk G vec m orders out p) (mode : String) :
    evalSpline G C p out k orders mode ≠ .error .outOfBounds := by
  cases p with
  | rows xs =>
    obtain ⟨hx, hB⟩ := hp
    cases out with
    | none =>
      obtain ⟨A, h1, _⟩ := evalSpline_rows_alloc h xs hx mode
      rw [h1]; simp
    | some B =>
      obtain ⟨A, h1, _⟩ := evalSpline_rows_out h xs hx mode B (hB B rfl)
      rw [h1]; simp
  | point x =>
    obtain ⟨hx, hB⟩ := hp
    by_cases hm : PointModeOk mode G
    · have hr := h.returns mode x hx
      cases vec with
      | true =>
        cases out with
        | none =>
          obtain ⟨A, h1, _⟩ := hr.pointArray hm rfl
          rw [h1]; simp
        | some B =>
          by_cases hc : mode = "constant"
          · subst hc
            obtain ⟨A, h1, _⟩ := evalSpline_point_out_constant h x hx hm B (hB B rfl)
            rw [h1]; simp
          · obtain ⟨A, h1, _⟩ := hr.pointOut hm hc (Or.inl rfl) B (hB B rfl)
            rw [h1]; simp
      | false =>
        cases orders with
        | none => rw [hr.pointScalar hm rfl rfl out]; simp
        | some os =>
          cases out with
          | none =>
            by_cases hc : mode = "constant"
            · subst hc
              rw [evalSpline_point_constant_tuple h x hm]
              simp
            · rw [hr.pointTuple hm hc rfl os rfl]; simp
          | some B =>
            by_cases hc : mode = "constant"
            · subst hc
              rcases ho : (List.zipWith isOutside G x).any id with _ | _
              · obtain ⟨A, h1, _⟩ := evalSpline_point_out h (Or.inr (by simp)) x hx "constant" hm
                  (fun _ => ho) B (hB B rfl)
                rw [h1]; simp
              · rw [evalSpline_point_out_constant_scalar h B x hx hm ho]
                simp
            · obtain ⟨A, h1, _⟩ := hr.pointOut hm hc (Or.inr (by simp)) B (hB B rfl)
              rw [h1]; simp
    · unfold PointModeOk at hm
      push Not at hm
      obtain ⟨hmode, g, hg, hgt⟩ := hm
      have : g.gtype = .nonuniform := by
        cases hh : g.gtype
        · exact (hgt hh).elim
        · rfl
      rw [evalSpline_point_nonuniform h out x mode hmode g hg this]
      simp

/-- C06. No access is out of bounds: with arrays of the right shape the call ends normally, or stops
with a division by zero or a compilation error, but never reads or writes outside an array, for any
behaviour of the arithmetic and of the conversion of numbers to integers. -/
theorem C06_no_out_of_bounds {k : ℕ} {G : List (GridDim K)} {C : NdArray K} {vec : Bool} {m : ℕ}
    {orders : Option (List (List ℕ))} (h : SizedRequest k G C vec m orders) (p : Points K)
    (out : Option (NdArray K)) (hp : ArgsOk G vec m orders out p) (mode : String) :
    evalSpline G C p out k orders mode ≠ .error .outOfBounds := by
  rcases evalSpline_sim G C p out k orders mode with hs | hs
  · rw [hs]
    refine @no_out_of_bounds_of_good K _ _ _ _ _ _ _ _ _ _ _ (neverZero K) _ k G C vec m orders
      ?_ p out hp mode
    letI : BEq K := neverZero K
    refine AnyRequest.good ⟨h.nonempty, ?_, h.shape, h.degree, h.orders_ok,
      fun _ _ _ _ _ _ => rfl⟩
    intro g hg
    have := h.axes g hg
    cases g with
    | uniform a b n =>
      refine ⟨?_, rfl⟩
      have : 2 ≤ n.toNat := this
      omega
    | array gc => exact ⟨this, fun i _ => rfl⟩
  · rw [hs]; simp

end Any

section Exact

variable {F : Type} [Field F] [LinearOrder F] [IsStrictOrderedRing F] [FloorRing F]

variable {G : List (GridDim F)} {C : NdArray F} {vec : Bool} {m : ℕ}

/-- C14, linear splines: the derivatives whose tuple contains an order of at least 2 are zero. -/
theorem C14_linear_higher_zero {os : List (List ℕ)} (h : Request 1 G C vec m (some os))
    (mode : String) (x : List F) (hx : x.length = G.length) :
    ∃ E, Returns 1 G C vec m (some os) mode x E ∧
      ∀ comp j oo, InShape (tailShape vec m none) comp → os[j]? = some oo → (∃ l ∈ oo, 2 ≤ l) →
        E (comp ++ [j]) = 0 := by
  refine ⟨_, h.good.returns mode x hx, fun comp j oo hcomp hj hl => ?_⟩
  rw [rowEntry_order 1 mode G C vec m os x comp j hcomp]
  have hoo : os.getD j [] = oo := by rw [List.getD_eq_getElem?_getD, hj]; rfl
  rw [hoo]
  have hlen := ((h.orders_ok os rfl).2 oo (List.mem_of_getElem? hj)).1
  unfold evalMode
  split_ifs
  · exact evalAt_order_ge_two G oo _ _ hlen (by simp [hx]) hl
  · rfl
  · exact evalAt_order_ge_two G oo x _ hlen hx hl
  · exact evalAt_order_ge_two G oo x _ hlen hx hl

end Exact

/-! ### Concrete cases -/

example : ∃ e, evalSpline demoG demoC (.point [1, 1]) none 2 none "linear" = .error e :=
  C16_rejects_degree demoG (by simp [demoG]) demoC _ none 2 (by decide) (by decide) none "linear"

example : ∃ e, evalSpline demoG demoC (.point [1, 1]) none 3 none "linear" = .error e :=
  C16_rejects_nonuniform_cubic demoG [0, 1, 3] (by simp [demoG]) demoC _ none none "linear"

example : ∃ e, evalSpline demoG demoC (.point [1, 1]) none 1 (some [[0, 1], [1]]) "linear"
    = .error e :=
  C16_rejects_orders demoG (by simp [demoG]) demoC _ none 1 [[0, 1], [1]]
    (Or.inr ⟨[1], by simp, by simp [demoG]⟩) "linear"

example : ∃ e, evalSpline demoG1 demoC1 (.point [1]) none 3 (some [[0], [2]]) "linear" = .error e :=
  C14_cubic_higher_rejected demoG1 demoC1 _ none [[0], [2]] [2] (by simp) 2 (by simp) le_rfl "linear"

/-- The hypotheses of C06 are met even by a degenerate axis (equal bounds, repeated nodes). -/
example : evalSpline (K := ℚ) [.uniform 1 1 2, .array [0, 0]] ⟨[2, 2], fun _ => 0⟩
    (.rows [[1, 0], [7, -3]]) none 1 (some [[1, 1]]) "constant" ≠ .error .outOfBounds := by
  refine C06_no_out_of_bounds (vec := false) (m := 0) ?_ _ none ?_ _
  · refine ⟨by simp, ?_, by simp [size], Or.inl rfl, by simp⟩
    intro g hg
    simp only [List.mem_cons, List.not_mem_nil, or_false] at hg
    rcases hg with rfl | rfl <;> simp [size]
  · exact ⟨by simp, by simp⟩

example := C14_linear_higher_zero (G := demoG) (C := demoC) (vec := false) (m := 0)
  (os := [[0, 1], [2, 0]]) ⟨demo_grid, by simp [demoC, demoG, nNodes], Or.inl rfl, by simp [demoG]⟩
  "linear" [1, 1] rfl

end Interp.Props
