import Verif.Proofs.SrcNumbaInit
import Verif.Props.CubicGradient
import Verif.Props.SourceFilter

/-!
# What the source text of `eval_cubic_numba.py` computes: C112
-/

set_option linter.unusedSectionVars false

namespace Interp.Props
open Interp Interp.Spec.PySrc Interp.Spec.PySrc.Numba Interp.CubicNumba Interp.Ref Interp.Spec

/-- The texts of `eval_cubic_numba.py` as a program: the statements outside functions, L14-31, and the twenty functions. -/
def numbaFile : Option Prog :=
  loadLines [evalCubicSpline1Text, evalCubicSpline2Text, evalCubicSpline3Text, evalCubicSpline4Text,
    vecEvalCubicSpline1Text, vecEvalCubicSpline2Text, vecEvalCubicSpline3Text, vecEvalCubicSpline4Text,
    evalCubicSplines1Text, evalCubicSplines2Text, evalCubicSplines3Text, evalCubicSplines4Text,
    vecEvalCubicSplines1Text, vecEvalCubicSplines2Text, vecEvalCubicSplines3Text, vecEvalCubicSplines4Text,
    vecEvalCubicSplinesG1Text, vecEvalCubicSplinesG2Text, vecEvalCubicSplinesG3Text, vecEvalCubicSplinesG4Text] numbaInitText

theorem shows_ok {K α β : Type} {x : Py α} {y : Py (β × Heap K)} {R : α → β → Heap K → Prop} (h : Shows x y R) {a : α} (hx : x = .ok a) :
    ∃ b h', y = .ok (b, h') ∧ R a b h' := by
  subst hx
  rcases y with e | ⟨b, h'⟩
  · exact h.elim
  · exact ⟨b, h', rfl, h⟩

section
variable {K : Type} [Add K] [Sub K] [Mul K] [Div K] [Neg K] [Zero K] [One K] [NatCast K] [IntCast K]
  [LT K] [DecidableLT K] [LE K] [DecidableLE K] [BEq K] [IntFloor K] [Interp.Smolyak.Trig K]

/-- What the functions are given: arrays number `ra` and `rb` are the vectors `a` and `b`, array number `rc` is `C`. -/
structure Given (h : Heap K) (ra rb rc : ℕ) (a b : List K) (C : NdArray K) : Prop where
  a : HasVec h ra a
  b : HasVec h rb b
  C : h[rc]? = some C

/-- C112. `eval_cubic_spline_1`, ..., `eval_cubic_spline_4`: the returned number is that of the model, or the same exception is raised;
no array is changed. -/
theorem C112_eval_cubic_spline (L : LitLaws K) (h6 : (((6 : ℕ) : K) == 0) = false) : ∃ P, numbaFile = some P ∧
    ∀ d, 1 ≤ d → d ≤ 4 → ∀ n ≥ 2, ∀ (h : Heap K) (ra rb rc rx : ℕ) (a b x : List K) (C : NdArray K) (orders : List ℤ),
      Given h ra rb rc a b C → HasVec h rx x → d ≤ orders.length →
      Shows (evalSplineD d a b orders C x)
        (callName P n ("eval_cubic_spline_" ++ toString d) [.arr ra [none], .arr rb [none], .ints orders, .arr rc (whole d), .arr rx [none]] h)
        (fun y v h' => v = .flt y ∧ h' = h) := by
  refine ⟨_, numba_load, fun d h1 h4 n hn h ra rb rc rx a b x C orders ⟨⟨A, ha, hA⟩, ⟨B, hb, hB⟩, hc⟩ ⟨X, hx, hX⟩ ho => ?_⟩
  obtain ⟨n, rfl⟩ : ∃ m, n = m + 2 := ⟨n - 2, by omega⟩
  have O := numba_outside L h6 n
  have key : ∀ F : FunDef, F = evalSplineFun ("eval_cubic_spline_" ++ toString d) (axesOf d) → find ("eval_cubic_spline_" ++ toString d) numbaProg.funs = some F →
      (axesOf d).length = d → Shows (evalSplineD d a b orders C x)
        (callName numbaProg (n + 2) ("eval_cubic_spline_" ++ toString d)
          [.arr ra [none], .arr rb [none], .ints orders, .arr rc (whole d), .arr rx [none]] h) (fun y v h' => v = .flt y ∧ h' = h) := by
    rintro F rfl hF hd
    rw [callName, glob_fun hF, pure_bind, callN_fn]
    have := evalSpline_run L O (axes_axesOf d) ("eval_cubic_spline_" ++ toString d) ha hA hb hB hc hx hX (by rw [hd]; exact ho)
    rw [hd] at this
    exact shows_of_sim (this.mono fun y o e => by rw [e]; exact ⟨rfl, rfl⟩)
  interval_cases d <;> exact key _ rfl rfl rfl

/-- C112. `vec_eval_cubic_spline_1`, ..., `vec_eval_cubic_spline_4`: only `out` is changed; it must be no other argument. -/
theorem C112_vec_eval_cubic_spline (L : LitLaws K) (h6 : (((6 : ℕ) : K) == 0) = false) : ∃ P, numbaFile = some P ∧
    ∀ d, 1 ≤ d → d ≤ 4 → ∀ n ≥ 2, ∀ (h : Heap K) (ra rb rc rx ro k : ℕ) (a b : List K) (pts : List (List K)) (C X D : NdArray K) (orders : List ℤ),
      Given h ra rb rc a b C → h[rx]? = some X → IsMat X k pts → h[ro]? = some D → ro ∉ [ra, rb, rc, rx] → d ≤ orders.length →
      Shows (vecEvalSplineD d a b orders C pts D)
        (callName P n ("vec_eval_cubic_spline_" ++ toString d)
          [.arr ra [none], .arr rb [none], .ints orders, .arr rc (whole d), .arr rx [none, none], .arr ro [none]] h)
        (fun D' v h' => v = .none ∧ h' = h.set ro D') := by
  refine ⟨_, numba_load, fun d h1 h4 n hn h ra rb rc rx ro k a b pts C X D orders ⟨⟨A, ha, hA⟩, ⟨B, hb, hB⟩, hc⟩ hx hX hr hne ho => ?_⟩
  simp only [List.mem_cons, List.not_mem_nil, or_false, not_or] at hne
  obtain ⟨n, rfl⟩ : ∃ m, n = m + 2 := ⟨n - 2, by omega⟩
  have O := numba_outside L h6 n
  have key : ∀ F : FunDef, F = vecEvalSplineFun ("vec_eval_cubic_spline_" ++ toString d) (axesOf d) → find ("vec_eval_cubic_spline_" ++ toString d) numbaProg.funs = some F →
      (axesOf d).length = d → Shows (vecEvalSplineD d a b orders C pts D)
        (callName numbaProg (n + 2) ("vec_eval_cubic_spline_" ++ toString d)
          [.arr ra [none], .arr rb [none], .ints orders, .arr rc (whole d), .arr rx [none, none], .arr ro [none]] h)
        (fun D' v h' => v = .none ∧ h' = h.set ro D') := by
    rintro F rfl hF hd
    rw [callName, glob_fun hF, pure_bind, callN_fn]
    have := vecEvalSpline_run L O (axes_axesOf d) ("vec_eval_cubic_spline_" ++ toString d) ha hA hb hB hc hx hX (by rw [hd]; exact ho) hr
      hne.1 hne.2.1 hne.2.2.1 hne.2.2.2
    rw [hd] at this
    exact shows_of_sim (this.mono fun y o e => by rw [e]; exact ⟨rfl, rfl⟩)
  interval_cases d <;> exact key _ rfl rfl rfl

/-- C112. `eval_cubic_splines_1`, ..., `eval_cubic_splines_4`: only `vals` is changed; it must not be `coefs`. -/
theorem C112_eval_cubic_splines (L : LitLaws K) (h6 : (((6 : ℕ) : K) == 0) = false) : ∃ P, numbaFile = some P ∧
    ∀ d, 1 ≤ d → d ≤ 4 → ∀ n ≥ 2, ∀ (h : Heap K) (ra rb rc rx ro : ℕ) (a b x : List K) (C D : NdArray K) (orders : List ℤ),
      Given h ra rb rc a b C → HasVec h rx x → h[ro]? = some D → C.shape.length = d + 1 → ro ≠ rc → d ≤ orders.length →
      Shows (evalSplinesD d a b orders C x D)
        (callName P n ("eval_cubic_splines_" ++ toString d)
          [.arr ra [none], .arr rb [none], .ints orders, .arr rc (whole (d + 1)), .arr rx [none], .arr ro [none]] h)
        (fun D' v h' => v = .none ∧ h' = h.set ro D') := by
  refine ⟨_, numba_load, fun d h1 h4 n hn h ra rb rc rx ro a b x C D orders ⟨⟨A, ha, hA⟩, ⟨B, hb, hB⟩, hc⟩ ⟨X, hx, hX⟩ hr hC hne ho => ?_⟩
  obtain ⟨n, rfl⟩ : ∃ m, n = m + 2 := ⟨n - 2, by omega⟩
  have O := numba_outside L h6 n
  have key : ∀ F : FunDef, F = evalSplinesFun ("eval_cubic_splines_" ++ toString d) (axesOf d) → find ("eval_cubic_splines_" ++ toString d) numbaProg.funs = some F →
      (axesOf d).length = d → Shows (evalSplinesD d a b orders C x D)
        (callName numbaProg (n + 2) ("eval_cubic_splines_" ++ toString d)
          [.arr ra [none], .arr rb [none], .ints orders, .arr rc (whole (d + 1)), .arr rx [none], .arr ro [none]] h)
        (fun D' v h' => v = .none ∧ h' = h.set ro D') := by
    rintro F rfl hF hd
    rw [callName, glob_fun hF, pure_bind, callN_fn]
    have := evalSplines_run L O (axes_axesOf d) ("eval_cubic_splines_" ++ toString d) ha hA hb hB hc (by rw [hd]; exact hC) hx hX
      (by rw [hd]; exact ho) hr hne
    rw [hd] at this
    exact shows_of_sim (this.mono fun y o e => by rw [e]; exact ⟨rfl, rfl⟩)
  interval_cases d <;> exact key _ rfl rfl rfl

/-- C112. `vec_eval_cubic_splines_1`, ..., `vec_eval_cubic_splines_4`: only `vals` is changed; it must be neither `coefs` nor `points`. -/
theorem C112_vec_eval_cubic_splines (L : LitLaws K) (h6 : (((6 : ℕ) : K) == 0) = false) : ∃ P, numbaFile = some P ∧
    ∀ d, 1 ≤ d → d ≤ 4 → ∀ n ≥ 2, ∀ (h : Heap K) (ra rb rc rx ro k : ℕ) (a b : List K) (pts : List (List K)) (C X D : NdArray K) (orders : List ℤ),
      Given h ra rb rc a b C → h[rx]? = some X → IsMat X k pts → h[ro]? = some D → C.shape.length = d + 1 → ro ∉ [rc, rx] → d ≤ orders.length →
      Shows (vecEvalSplinesD d a b orders C pts D)
        (callName P n ("vec_eval_cubic_splines_" ++ toString d)
          [.arr ra [none], .arr rb [none], .ints orders, .arr rc (whole (d + 1)), .arr rx [none, none], .arr ro [none, none]] h)
        (fun D' v h' => v = .none ∧ h' = h.set ro D') := by
  refine ⟨_, numba_load, fun d h1 h4 n hn h ra rb rc rx ro k a b pts C X D orders ⟨⟨A, ha, hA⟩, ⟨B, hb, hB⟩, hc⟩ hx hX hr hC hne ho => ?_⟩
  simp only [List.mem_cons, List.not_mem_nil, or_false, not_or] at hne
  obtain ⟨n, rfl⟩ : ∃ m, n = m + 2 := ⟨n - 2, by omega⟩
  have O := numba_outside L h6 n
  have key : ∀ F : FunDef, F = vecEvalSplinesFun ("vec_eval_cubic_splines_" ++ toString d) (axesOf d) → find ("vec_eval_cubic_splines_" ++ toString d) numbaProg.funs = some F →
      (axesOf d).length = d → Shows (vecEvalSplinesD d a b orders C pts D)
        (callName numbaProg (n + 2) ("vec_eval_cubic_splines_" ++ toString d)
          [.arr ra [none], .arr rb [none], .ints orders, .arr rc (whole (d + 1)), .arr rx [none, none], .arr ro [none, none]] h)
        (fun D' v h' => v = .none ∧ h' = h.set ro D') := by
    rintro F rfl hF hd
    rw [callName, glob_fun hF, pure_bind, callN_fn]
    have := vecEvalSplines_run L O (axes_axesOf d) ("vec_eval_cubic_splines_" ++ toString d) ha hA hb hB hc (by rw [hd]; exact hC) hx hX
      (by rw [hd]; exact ho) hr hne.1 hne.2
    rw [hd] at this
    exact shows_of_sim (this.mono fun y o e => by rw [e]; exact ⟨rfl, rfl⟩)
  interval_cases d <;> exact key _ rfl rfl rfl

/-- C112. `vec_eval_cubic_splines_G_1`, ..., `vec_eval_cubic_splines_G_4`: only `vals` and `dvals` are changed; they must be different
arrays and neither `coefs` nor `points`. -/
theorem C112_vec_eval_cubic_splines_G (L : LitLaws K) (h6 : (((6 : ℕ) : K) == 0) = false) : ∃ P, numbaFile = some P ∧
    ∀ d, 1 ≤ d → d ≤ 4 → ∀ n ≥ 2, ∀ (h : Heap K) (ra rb rc rx rv rd k : ℕ) (a b : List K) (pts : List (List K)) (C X V D : NdArray K)
      (orders : List ℤ), Given h ra rb rc a b C → h[rx]? = some X → IsMat X k pts → h[rv]? = some V → h[rd]? = some D →
      C.shape.length = d + 1 → rv ∉ [rc, rx] → rd ∉ [rc, rx, rv] → d ≤ orders.length →
      Shows (vecEvalSplinesGD d a b orders C pts V D)
        (callName P n ("vec_eval_cubic_splines_G_" ++ toString d)
          [.arr ra [none], .arr rb [none], .ints orders, .arr rc (whole (d + 1)), .arr rx [none, none], .arr rv [none, none],
            .arr rd [none, none, none]] h)
        (fun s v h' => v = .none ∧ h' = (h.set rv s.1).set rd s.2) := by
  refine ⟨_, numba_load, fun d h1 h4 n hn h ra rb rc rx rv rd k a b pts C X V D orders ⟨⟨A, ha, hA⟩, ⟨B, hb, hB⟩, hc⟩ hx hX hv hr hC n1 n2 ho => ?_⟩
  simp only [List.mem_cons, List.not_mem_nil, or_false, not_or] at n1 n2
  obtain ⟨n, rfl⟩ : ∃ m, n = m + 2 := ⟨n - 2, by omega⟩
  have O := numba_outside L h6 n
  have key : ∀ F : FunDef, F = vecEvalSplinesGFun ("vec_eval_cubic_splines_G_" ++ toString d) (axesOf d) → find ("vec_eval_cubic_splines_G_" ++ toString d) numbaProg.funs = some F →
      (axesOf d).length = d → Shows (vecEvalSplinesGD d a b orders C pts V D)
        (callName numbaProg (n + 2) ("vec_eval_cubic_splines_G_" ++ toString d)
          [.arr ra [none], .arr rb [none], .ints orders, .arr rc (whole (d + 1)), .arr rx [none, none], .arr rv [none, none],
            .arr rd [none, none, none]] h)
        (fun s v h' => v = .none ∧ h' = (h.set rv s.1).set rd s.2) := by
    rintro F rfl hF hd
    rw [callName, glob_fun hF, pure_bind, callN_fn]
    have := vecEvalSplinesG_run L O (axes_axesOf d) ("vec_eval_cubic_splines_G_" ++ toString d) ha hA hb hB hc (by rw [hd]; exact hC) hx hX
      (by rw [hd]; exact ho) hv hr n1.1 n2.1 n1.2 n2.2.1 n2.2.2
    rw [hd] at this
    exact shows_of_sim (this.mono fun y o e => by rw [e]; exact ⟨rfl, rfl⟩)
  interval_cases d <;> exact key _ rfl rfl rfl

end

section exact
variable {F : Type} [Field F] [LinearOrder F] [IsStrictOrderedRing F] [FloorRing F] [Interp.Smolyak.Trig F]

theorem six_field : (((6 : ℕ) : F) == 0) = false := by
  rw [beq_eq_false_iff_ne]
  norm_num

end exact

/-- C112. What executing the text of `vec_eval_cubic_splines_G_d` on real numbers leaves in `vals` and `dvals`, for one to four
dimensions and arrays of the right shapes: the values of the spline that `eval_cubic` evaluates and, at points within the grid, its
partial derivatives.  Nothing else is changed. -/
theorem C112_gradient : ∃ P, numbaFile = some P ∧
    ∀ (T : List (ℝ × ℝ × ℤ)) (C : NdArray ℝ) (m : ℕ), Request 3 (gridZ T) C true m none → T ≠ [] → T.length ≤ 4 →
    ∀ (xs : List (List ℝ)), (∀ x ∈ xs, x.length = T.length) →
    ∀ (h : Heap ℝ) (ra rb rc rx rv rd k : ℕ) (X V D : NdArray ℝ), Given h ra rb rc (T.map (·.1)) (T.map (·.2.1)) C →
      h[rx]? = some X → IsMat X k xs → h[rv]? = some V → V.shape = [xs.length, m] → h[rd]? = some D → D.shape = [xs.length, T.length, m] →
      rv ∉ [rc, rx] → rd ∉ [rc, rx, rv] →
    ∃ (f : List ℝ → List ℕ → ℝ) (V' D' : NdArray ℝ), (∀ x, x.length = T.length → Returns 3 (gridZ T) C true m none "linear" x (f x)) ∧
      (∀ n ≥ 2, callName P n ("vec_eval_cubic_splines_G_" ++ toString T.length)
        [.arr ra [none], .arr rb [none], .ints (T.map (·.2.2)), .arr rc (whole (T.length + 1)), .arr rx [none, none], .arr rv [none, none],
          .arr rd [none, none, none]] h = .ok (.none, (h.set rv V').set rd D')) ∧
      V'.shape = [xs.length, m] ∧ D'.shape = [xs.length, T.length, m] ∧
      ∀ i x, xs[i]? = some x → ∀ k < m, V'.get [i, k] = f x [k] ∧
        ∀ q t, x[q]? = some t → (∀ g, (gridZ T)[q]? = some g → first g ≤ t ∧ t ≤ last g) →
          HasDerivAt (fun t => f (x.set q t) [k]) (D'.get [i, q, k]) t := by
  obtain ⟨P, hP, H⟩ := C112_vec_eval_cubic_splines_G (K := ℝ) litLaws_field six_field
  refine ⟨P, hP, fun T C m hq hT h4 xs hxs h ra rb rc rx rv rd k X V D hG hx hX hv hV hd hD n1 n2 => ?_⟩
  obtain ⟨f, V', D', e1, e2, e3, e4, e5⟩ := C26_gradient_partial hq h4 xs hxs (some V) (some D) (fun _ => 0)
    (by rintro B hB; cases hB; exact hV) (by rintro B hB; cases hB; exact hD)
  have h1 : 1 ≤ T.length := List.length_pos_iff.mpr hT
  refine ⟨f, V', D', e1, fun n hn => ?_, e3, e4, e5⟩
  have hC : C.shape.length = T.length + 1 := by
    rw [hq.shape]; simp [gridZ]
  have := H T.length h1 h4 n hn h ra rb rc rx rv rd k _ _ xs C X V D (T.map (·.2.2)) hG hx hX hv hd hC n1 n2 (by simp)
  simp only [vecEvalCubicSplinesG, List.length_map, Option.getD_some, h1, h4, and_self, if_true] at e2
  obtain ⟨v, h', hy, rfl, rfl⟩ := shows_ok this e2
  exact hy

/-- The hypotheses can be met: the text of `eval_cubic_spline_1` at the point 2 outside the grid `0, 1`, with the coefficients
1, 0, 0, 1, on rational numbers. -/
example : ∃ P, numbaFile = some P ∧ ∀ n ≥ 2,
    callName P n "eval_cubic_spline_1" [.arr 0 [none], .arr 1 [none], .ints [2], .arr 2 [none], .arr 3 [none]]
      [demoVec [0], demoVec [1], ⟨[4], fun idx => if idx = [0] ∨ idx = [3] then 1 else 0⟩, demoVec [(2 : ℚ)]] =
      .ok (.flt (2 / 3), [demoVec [0], demoVec [1], ⟨[4], fun idx => if idx = [0] ∨ idx = [3] then 1 else 0⟩, demoVec [2]]) := by
  obtain ⟨P, hP, H⟩ := C112_eval_cubic_spline (K := ℚ) litLaws_rat six_field
  refine ⟨P, hP, fun n hn => ?_⟩
  have := H 1 (by norm_num) (by norm_num) n hn
    [demoVec [0], demoVec [1], ⟨[4], fun idx => if idx = [0] ∨ idx = [3] then 1 else 0⟩, demoVec [(2 : ℚ)]] 0 1 2 3 [0] [1] [2] _ [2]
    ⟨⟨_, rfl, demoVec_isVec _⟩, ⟨_, rfl, demoVec_isVec _⟩, rfl⟩ ⟨_, rfl, demoVec_isVec _⟩ (by simp)
  have e : evalSplineD 1 [(0 : ℚ)] [1] [2] ⟨[4], fun idx => if idx = [0] ∨ idx = [3] then 1 else 0⟩ [2] = .ok (2 / 3) := by
    decide +kernel
  obtain ⟨v, h', hy, rfl, rfl⟩ := shows_ok this e
  exact hy

end Interp.Props
