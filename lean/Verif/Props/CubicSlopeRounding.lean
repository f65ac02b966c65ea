import Verif.Proofs.CubicSlopeRounding
import Verif.Props.CubicRounding

/-!
# Derivatives of cubic splines computed with rounding: C132

The models of `filter_cubic`, `prefilter` and `eval_spline` with derivative orders are run on `Fl R`,
where every operation is rounded (`Verif.Spec.Rounding`).
-/

set_option linter.unusedSectionVars false

namespace Interp.Props
open Interp.Codegen Interp.Spec Interp.Ref Interp.Filter

variable {R : Rounding} {G : List (GridDim (Fl R))} {D C' : NdArray (Fl R)} {C : NdArray ℝ}
  {vec : Bool} {m : ℕ} {os : List (List ℕ)}

/-- A request for derivatives that is legitimate in exact arithmetic is legitimate with rounding. -/
theorem good_val_orders (hu : R.u < 1) {C : NdArray (Fl R)}
    (h : Request 3 (G.map exactAxis) (exactArray C) vec m (some os)) :
    GoodCall 3 G C vec m (some os) :=
  have h0 : Request 3 (G.map exactAxis) (exactArray C) vec m none :=
    ⟨h.grid, h.shape, h.degree, by simp⟩
  have g0 := good_val hu h0
  { ne := g0.ne
    wf := g0.wf
    shape := g0.shape
    hk := g0.hk
    uni := g0.uni
    ords := fun os' e => by simpa using h.orders_ok os' e
    names := fun os' e p hp q hq hpq x c _ => by
      obtain ⟨hp1, hp2⟩ := (h.orders_ok os' e).2 p hp
      obtain ⟨hq1, -⟩ := (h.orders_ok os' e).2 q hq
      rcases valName_collision p q (hp1.trans hq1.symm) hpq with rfl | ⟨⟨l, hl, hl'⟩, -⟩
      · rfl
      · have := hp2 rfl l hl; omega
    deriv := fun hk => by omega }

theorem rowEntry_orders {K : Type} [Add K] [Sub K] [Mul K] [Div K] [Neg K] [Zero K] [One K] [NatCast K]
    [IntCast K] [LT K] [DecidableLT K] [BEq K] [IntFloor K] (k : ℕ) (mode : String) (G : List (GridDim K))
    (C : NdArray K) (x : List K) (comp : List ℕ) {j : ℕ} {oo : List ℕ}
    (hc : InShape (if vec then [m] else []) comp) (hj : os[j]? = some oo) :
    rowEntry k mode G C vec (some os) x (comp ++ [j])
      = evalMode k mode G oo x (fun r => C.get (r ++ comp)) := by
  have hg : os.getD j [] = oo := by simp [List.getD, hj]
  cases vec with
  | false =>
    have : comp = [] := by rw [← inShape_nil_iff]; exact hc
    subst this
    show evalMode k mode G (os.getD j []) x _ = _
    rw [hg]
    rfl
  | true =>
    obtain ⟨i, rfl⟩ : ∃ i, comp = [i] := by
      match comp, hc with
      | [i], _ => exact ⟨i, rfl⟩
    show evalMode k mode G (os.getD j []) x _ = _
    rw [hg]
    rfl

/-- Extrapolation modes: bounds on the grid carry over to derivatives. -/
theorem evalMode_close_orders (hG : ∀ g ∈ G.map exactAxis, ValidAxis g) (mode : String)
    (oo : List ℕ) (x : List (Fl R)) (hx : x.length = G.length)
    (hmode : InBox (G.map exactAxis) (x.map Fl.val) ∨ mode = "nearest" ∨ mode = "constant")
    (c' : List ℕ → Fl R) (c : List ℕ → ℝ) (B : ℝ) (hB : 0 ≤ B)
    (key : ∀ y : List (Fl R), InBox (G.map exactAxis) (y.map Fl.val) →
      |(evalAt 3 G oo y c').val - evalAt 3 (G.map exactAxis) oo (y.map Fl.val) c| ≤ B) :
    |(evalMode 3 mode G oo x c').val - evalMode 3 mode (G.map exactAxis) oo (x.map Fl.val) c| ≤ B := by
  unfold evalMode
  rw [outside_val, ← clamp_val]
  by_cases hn : mode = "nearest"
  · simp only [hn, if_true]
    apply key
    rw [clamp_val, zipWith_clamp _ _ hG]
    exact projBox_inBox _ _ hG (by simpa using hx)
  · simp only [hn, if_false]
    by_cases hc : mode = "constant"
    · simp only [hc, if_true]
      rcases ho : (List.zipWith isOutside (G.map exactAxis) (x.map Fl.val)).any id with _ | _
      · simp only [Bool.false_eq_true, if_false]
        exact key x ((any_outside_iff _ _ hG (by simpa using hx)).1 ho)
      · simp only [if_true]
        simpa [Fl.zero_val] using hB
    · simp only [hc, if_false]
      refine key x ?_
      rcases hmode with h' | h' | h'
      · exact h'
      · exact (hn h').elim
      · exact (hc h').elim

/-- C132. Derivatives: on the grid (in every mode), and everywhere in modes nearest and constant, each
computed value or first partial derivative, possibly mixed, of a cubic spline with given coefficients
differs from that of exact arithmetic by at most `(∏ (1 + eᵢ) - 1) S M`, where `M` bounds the
coefficients, `eᵢ = 90 nᵢ u`, and `S` has a factor `2 (nᵢ - 1) / (bᵢ - aᵢ)` for each axis along which the
derivative is taken.  (`eᵢ ≤ 1/2` is required.) -/
theorem C132_derivative_rounding {C : NdArray (Fl R)}
    (h : Request 3 (G.map exactAxis) (exactArray C) vec m (some os))
    (hs : ∀ g ∈ G, cubicErr R (exactAxis g) ≤ 1 / 2) (mode : String) (x : List (Fl R))
    (hx : x.length = G.length)
    (hmode : InBox (G.map exactAxis) (x.map Fl.val) ∨ mode = "nearest" ∨ mode = "constant")
    (M : List ℕ → ℝ)
    (hM : ∀ idx comp, InShape (G.map fun g => nNodes g + 2) idx →
      InShape (if vec then [m] else []) comp → |(C.get (idx ++ comp)).val| ≤ M comp) :
    ∃ E E', Returns 3 (G.map exactAxis) (exactArray C) vec m (some os) mode (x.map Fl.val) E ∧
      Returns 3 G C vec m (some os) mode x E' ∧
      ∀ comp j oo, InShape (if vec then [m] else []) comp → os[j]? = some oo →
        |(E' (comp ++ [j])).val - E (comp ++ [j])|
          ≤ ((G.map fun g => 1 + cubicErr R (exactAxis g)).prod - 1)
            * (derivScale (G.map exactAxis) oo * M comp) := by
  have hG : ∀ g ∈ G, ValidAxis (exactAxis g) := fun g hg => h.grid.2 _ (List.mem_map_of_mem hg)
  have hun : ∀ g ∈ G, (exactAxis g).gtype = .uniform := by
    rcases h.degree with h' | ⟨-, h'⟩
    · norm_num at h'
    · exact fun g hg => h' _ (List.mem_map_of_mem hg)
  obtain ⟨g0, hg0⟩ := List.exists_mem_of_ne_nil G (by simpa using h.grid.1)
  have hu0 := Rounding.u_nonneg R
  have hu : R.u < 1 := by
    have h1 := hs g0 hg0
    have h2 : (2 : ℝ) ≤ nNodes (exactAxis g0) := by exact_mod_cast ValidAxis.two_le (hG g0 hg0)
    unfold cubicErr at h1
    nlinarith
  have hcs : coefShape 3 (G.map exactAxis) = G.map fun g => nNodes g + 2 := by
    simp [coefShape, nNodes_exact, Function.comp_def, nCoef]
  refine ⟨_, _, h.good.returns mode _ (by simpa using hx), (good_val_orders hu h).returns mode x hx,
    fun comp j oo ht hj => ?_⟩
  rw [rowEntry_orders 3 mode _ _ _ comp ht hj, rowEntry_orders 3 mode _ _ _ comp ht hj]
  have hoo : oo ∈ os := List.mem_of_getElem? hj
  obtain ⟨hol, ho1⟩ := (h.orders_ok os rfl).2 oo hoo
  have hM0 : 0 ≤ M comp :=
    (abs_nonneg _).trans (hM _ comp (by rw [← hcs]; exact coefShape_origin _) ht)
  refine evalMode_close_orders h.grid.2 mode oo x hx hmode _ _ _
    (mul_nonneg (by linarith [errFactor3_one_le (R := R) G, show errFactor3 R G
      = (G.map fun g => 1 + cubicErr R (exactAxis g)).prod from rfl])
      (mul_nonneg (derivScale_nonneg _ _ h.grid.2) hM0)) fun y hy => ?_
  exact deriv3_rounding G oo y (fun r => C.get (r ++ comp)) (M comp) hG hun hs (by simpa using hol) (ho1 rfl) hy
    (fun idx hidx => hM idx comp (by rw [← hcs]; exact hidx) ht)

/-- C132. Interpolation: filtering and then differentiating, both with rounding, gives the values and
partial derivatives of the interpolating spline of exact arithmetic up to
`(∏ (1 + eᵢ) (5 + 540 u) - 5^d) S M`, where `M` bounds the data. -/
theorem C132_interpolation_rounding (hu : R.u ≤ 1 / 1000)
    (h : FilterRequest (G.map exactAxis) (exactArray D) vec m)
    (hC : FilterOutcome (G.map exactAxis) (exactArray D) vec m C) (hC' : FilterOutcome G D vec m C')
    (hos : os ≠ [] ∧ ∀ oo ∈ os, oo.length = G.length ∧ ∀ l ∈ oo, l ≤ 1)
    (hs : ∀ g ∈ G, cubicErr R (exactAxis g) ≤ 1 / 2) (mode : String) (x : List (Fl R))
    (hx : x.length = G.length)
    (hmode : InBox (G.map exactAxis) (x.map Fl.val) ∨ mode = "nearest" ∨ mode = "constant")
    (M : List ℕ → ℝ)
    (hM : ∀ idx comp, InShape (gridShape G) idx →
      InShape (if vec then [m] else []) comp → |(D.get (idx ++ comp)).val| ≤ M comp) :
    ∃ E E', Returns 3 (G.map exactAxis) C vec m (some os) mode (x.map Fl.val) E ∧
      Returns 3 G C' vec m (some os) mode x E' ∧
      ∀ comp j oo, InShape (if vec then [m] else []) comp → os[j]? = some oo →
        |(E' (comp ++ [j])).val - E (comp ++ [j])|
          ≤ ((G.map fun g => (1 + cubicErr R (exactAxis g)) * (5 + 540 * R.u)).prod - 5 ^ G.length)
            * (derivScale (G.map exactAxis) oo * M comp) := by
  obtain ⟨hs', hclose⟩ := (C102_filter_rounding hu h).2 hC' hC
  obtain ⟨hsC, hvC⟩ := filterOutcome_spec h hC
  have hG : ∀ g ∈ G, ValidAxis (exactAxis g) := fun g hg => h.grid.2 _ (List.mem_map_of_mem hg)
  have hun : ∀ g ∈ G, (exactAxis g).gtype = .uniform := fun g hg =>
    h.uniform _ (List.mem_map_of_mem hg)
  have hu0 := Rounding.u_nonneg R
  have hu1 : R.u < 1 := by linarith
  have hcs : coefShape 3 (G.map exactAxis) = G.map fun g => nNodes g + 2 := by
    simp [coefShape, nNodes_exact, Function.comp_def, nCoef]
  have hgs : gridShape (G.map exactAxis) = gridShape G := by
    simp [gridShape, nNodes_exact, Function.comp_def]
  have hok : ∀ os', some os = some os' → os' ≠ [] ∧
      ∀ oo ∈ os', oo.length = (G.map exactAxis).length ∧ (3 = 3 → ∀ l ∈ oo, l ≤ 1) := by
    intro os' e
    injection e with e
    subst e
    exact ⟨hos.1, fun oo hoo => ⟨by simpa using (hos.2 oo hoo).1, fun _ => (hos.2 oo hoo).2⟩⟩
  have hreqC : Request 3 (G.map exactAxis) C vec m (some os) :=
    ⟨h.grid, hsC, Or.inr ⟨rfl, h.uniform⟩, hok⟩
  have hreq' : Request 3 (G.map exactAxis) (exactArray C') vec m (some os) :=
    ⟨h.grid, (by rw [show (exactArray C').shape = C'.shape from rfl, hs', ← coefsShape_exact]; rfl),
      Or.inr ⟨rfl, h.uniform⟩, hok⟩
  refine ⟨_, _, hreqC.good.returns mode _ (by simpa using hx),
    (good_val_orders hu1 hreq').returns mode x hx, fun comp j oo ht hj => ?_⟩
  rw [rowEntry_orders 3 mode _ _ _ comp ht hj, rowEntry_orders 3 mode _ _ _ comp ht hj]
  obtain ⟨hol, ho1⟩ := hos.2 oo (List.mem_of_getElem? hj)
  have hol' : oo.length = (G.map exactAxis).length := by simpa using hol
  set d := G.length with hd
  set ε := (5 + 540 * R.u) with hε
  have hprod : (G.map fun g => (1 + cubicErr R (exactAxis g)) * (5 + 540 * R.u)).prod
      = errFactor3 R G * ε ^ d := by
    rw [hd, hε, errFactor3, List.prod_map_mul]
    simp
  rw [hprod]
  set P := errFactor3 R G with hP
  have hP1 : 1 ≤ P := errFactor3_one_le G
  have hM0 : 0 ≤ M comp :=
    (abs_nonneg _).trans (hM _ comp (by rw [← hgs]; exact origin_inShape _ h.grid.2) ht)
  have hS := derivScale_nonneg (G.map exactAxis) oo h.grid.2
  set S := derivScale (G.map exactAxis) oo with hSdef
  have hε5 : (5 : ℝ) ^ d ≤ ε ^ d := by
    have : (5 : ℝ) ≤ ε := by rw [hε]; linarith
    gcongr
  have hε0 : 0 ≤ ε ^ d := le_trans (by positivity) hε5
  have cl : ∀ idx, InShape (coefShape 3 (G.map exactAxis)) idx →
      |(C'.get (idx ++ comp)).val - C.get (idx ++ comp)| ≤ (ε ^ d - 5 ^ d) * M comp := fun idx hidx =>
    hclose comp (M comp) ht (fun r hr => hM r comp hr ht) idx (by rw [← hcs]; exact hidx)
  have cb : ∀ idx, InShape (coefShape 3 (G.map exactAxis)) idx →
      |C.get (idx ++ comp)| ≤ 5 ^ d * M comp := fun idx hidx => by
    have hl : idx.length = (unitAxes (G.map exactAxis)).length := by
      have := inShape_length hidx
      simpa [coefShape, unitAxes] using this
    rw [hvC _ (by
      rw [coefsShape]
      refine inShape_append ?_ ht
      rw [hcs] at hidx
      simpa [nNodes_exact, Function.comp_def] using hidx), coefs, tfilt_append _ _ _ _ hl]
    have := tfilt_abs_le (as := unitAxes (G.map exactAxis)) (es := [])
      (D := fun r => (exactArray D).get (r ++ comp)) (M := M comp) (idx := idx) h.good
      (fun r hr => by
        rw [List.append_nil, dsh_unitAxes, hgs] at hr
        exact hM r comp hr ht)
      (by rw [List.append_nil, ← h.match.coefShape]; exact hidx)
    simpa [unitAxes, hd] using this
  have cb' : ∀ idx, InShape (coefShape 3 (G.map exactAxis)) idx →
      |(C'.get (idx ++ comp)).val| ≤ ε ^ d * M comp := fun idx hidx => by
    have := close_abs (cl idx hidx) (cb idx hidx)
    linarith
  have hSM : 0 ≤ S * M comp := mul_nonneg hS hM0
  refine evalMode_close_orders h.grid.2 mode oo x hx hmode _ _ _ ?_ fun y hy => ?_
  · refine mul_nonneg ?_ hSM
    nlinarith
  have r1 := deriv3_rounding G oo y (fun r => C'.get (r ++ comp)) (ε ^ d * M comp) hG hun hs hol ho1 hy cb'
  have r2 : |evalAt 3 (G.map exactAxis) oo (y.map Fl.val) (fun r => (C'.get (r ++ comp)).val)
      - evalAt 3 (G.map exactAxis) oo (y.map Fl.val) (fun r => C.get (r ++ comp))|
        ≤ S * ((ε ^ d - 5 ^ d) * M comp) := by
    have e := evalAt_linear 3 (G.map exactAxis) oo (y.map Fl.val)
      (fun r => (C'.get (r ++ comp)).val) (fun r => C.get (r ++ comp)) 1 (-1)
    rw [show evalAt 3 (G.map exactAxis) oo (y.map Fl.val) (fun r => (C'.get (r ++ comp)).val)
        - evalAt 3 (G.map exactAxis) oo (y.map Fl.val) (fun r => C.get (r ++ comp))
        = evalAt 3 (G.map exactAxis) oo (y.map Fl.val)
          (fun r => 1 * (C'.get (r ++ comp)).val + -1 * C.get (r ++ comp)) by rw [e]; ring]
    refine deriv3_abs_le _ _ _ _ _ h.grid.2 h.uniform hol' ho1 hy fun idx hidx => ?_
    have := cl idx hidx
    rwa [show 1 * (C'.get (idx ++ comp)).val + -1 * C.get (idx ++ comp)
      = (C'.get (idx ++ comp)).val - C.get (idx ++ comp) by ring]
  have tri := abs_sub_le (evalAt 3 G oo y (fun r => C'.get (r ++ comp))).val
    (evalAt 3 (G.map exactAxis) oo (y.map Fl.val) (fun r => (C'.get (r ++ comp)).val))
    (evalAt 3 (G.map exactAxis) oo (y.map Fl.val) (fun r => C.get (r ++ comp)))
  refine tri.trans ((add_le_add r1 r2).trans (le_of_eq ?_))
  ring

/-! ### A concrete case in double precision -/

/-- In double precision, on the grid of 100 × 50 nodes and for the data of C103, the computed value,
both partial derivatives and the mixed derivative have an error of at most one millionth. -/
example : ∃ C', filterCubic crG crD = .ok C' ∧ ∃ C, filterCubic (crG.map exactAxis) (exactArray crD) = .ok C ∧
    ∀ x : List (Fl double), x.length = 2 →
      ∃ E E', Returns 3 (crG.map exactAxis) C true 2 (some [[0, 0], [1, 0], [0, 1], [1, 1]]) "nearest"
          (x.map Fl.val) E ∧
        Returns 3 crG C' true 2 (some [[0, 0], [1, 0], [0, 1], [1, 1]]) "nearest" x E' ∧
        ∀ i < 2, ∀ j < 4, |(E' [i, j]).val - E [i, j]| ≤ 1 / 10 ^ 6 := by
  have hu := double_u
  have hu' : double.u ≤ 1 / 1000 := by rw [hu]; norm_num
  obtain ⟨C', hC'⟩ := (C102_filter_rounding (C' := crD) (C := exactArray crD) hu' crG_request).1.1
  obtain ⟨C, hC, -⟩ := crG_request.alloc
  refine ⟨C', hC', C, hC, fun x hx => ?_⟩
  have t1 : Int.toNat 100 = 100 := rfl
  have t2 : Int.toNat 50 = 50 := rfl
  have hs : ∀ g ∈ crG, cubicErr double (exactAxis g) ≤ 1 / 2 := by
    intro g hg
    simp only [crG, List.mem_cons, List.not_mem_nil, or_false] at hg
    rcases hg with rfl | rfl
    · simp only [exactAxis, cubicErr, nNodes, hu, t1, t2]; norm_num
    · simp only [exactAxis, cubicErr, nNodes, hu, t1, t2]; norm_num
  obtain ⟨E, E', h1, h2, h3⟩ := C132_interpolation_rounding hu' crG_request (.alloc hC) (.alloc hC')
    (os := [[0, 0], [1, 0], [0, 1], [1, 1]]) (by simp [crG]) hs
    "nearest" x hx (Or.inr (Or.inl rfl)) (fun _ => 1) (by
      intro idx comp _ _
      simp only [crD]
      split_ifs <;> simp)
  refine ⟨E, E', h1, h2, fun i hi j hj => ?_⟩
  have hj' : j = 0 ∨ j = 1 ∨ j = 2 ∨ j = 3 := by omega
  rcases hj' with rfl | rfl | rfl | rfl <;>
  · refine (h3 [i] _ _ ⟨hi, trivial⟩ rfl).trans ?_
    simp only [crG, List.map_cons, List.map_nil, List.prod_cons, List.prod_nil, exactAxis, cubicErr, nNodes,
      hu, List.length_cons, List.length_nil, t1, t2, derivScale]
    norm_num

end Interp.Props
