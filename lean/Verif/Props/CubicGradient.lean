import Verif.Proofs.CubicNumba
import Verif.Props.SplineCalls
import Verif.Props.SplineCalculus

/-!
# The specialised cubic evaluators and their gradient (C26, C77)

`T` lists the axes `(a, b, n)`; the functions of `eval_cubic_numba.py` receive the three columns.
The model is generic in the dimension; the code has the versions `T.length = 1, 2, 3, 4`.
-/

set_option linter.unusedSectionVars false
set_option linter.unusedSimpArgs false

namespace Interp.Props
open Interp.Codegen Interp.Ref Interp.Spec Interp.CubicNumba

section anyArith
variable {K : Type} [Add K] [Sub K] [Mul K] [Div K] [Neg K] [Zero K] [One K] [NatCast K]
  [IntCast K] [LT K] [DecidableLT K] [BEq K] [IntFloor K]

variable {T : List (K × K × ℤ)} {C : NdArray K} {m : ℕ}

theorem valueAt_returns (h1 : ∀ x : K, x * 1 = x) {vec : Bool}
    (h : AnyRequest 3 (gridZ T) C vec m none) (x : List K) (hx : x.length = T.length) :
    Returns 3 (gridZ T) C vec m none "linear" x (valueAt T C x) := by
  refine (h.good.returns "linear" x (by simpa [gridZ] using hx)).congr fun tail ht => ?_
  have : (if vec then tail.take 1 else []) = tail := by
    cases vec with
    | false =>
      have : tail = [] := by rw [← inShape_nil_iff]; exact ht
      subst this; rfl
    | true =>
      match tail, ht with
      | [j], _ => rfl
  simp only [rowEntry, this, valueAt]
  rw [combo_eq_evalAt h1 T x _ hx]
  rfl

/-- C77, one spline.  In any arithmetic in which multiplying by one changes nothing (so also with
floating point numbers), `eval_cubic_spline_d` and `vec_eval_cubic_spline_d` give, bit for bit, the
numbers of `eval_cubic`. -/
theorem C77_specialised_scalar (h1 : ∀ x : K, x * 1 = x)
    (h : AnyRequest 3 (gridZ T) C false m none) :
    ∃ V : List K → K,
      (∀ x, x.length = T.length →
        Returns 3 (gridZ T) C false m none "linear" x (fun _ => V x) ∧
        evalSplineD T.length (T.map (·.1)) (T.map (·.2.1)) (T.map (·.2.2)) C x = .ok (V x)) ∧
      ∀ (xs : List (List K)) (B : NdArray K), (∀ x ∈ xs, x.length = T.length) →
        B.shape = [xs.length] →
        ∃ A, vecEvalSplineD T.length (T.map (·.1)) (T.map (·.2.1)) (T.map (·.2.2)) C xs B = .ok A ∧
          A.shape = B.shape ∧ ∀ i x, xs[i]? = some x → A.get [i] = V x := by
  have hC : C.shape = (gridZ T).map fun g => size g + 2 := by simpa using h.shape
  refine ⟨fun x => valueAt T C x [], fun x hx => ⟨?_, evalSplineD_ok h.axes hC hx⟩, ?_⟩
  · refine (valueAt_returns h1 h x hx).congr fun tail ht => ?_
    have : tail = [] := by rw [← inShape_nil_iff]; exact ht
    rw [this]
  · intro xs B hx hB
    obtain ⟨A, e1, e2, e3⟩ := vecEvalSplineD_ok h.axes hC xs hx B hB
    refine ⟨A, e1, e2, fun i x hi => ?_⟩
    obtain ⟨hi', rfl⟩ := List.getElem?_eq_some_iff.1 hi
    exact e3 i hi'

/-- C77, several splines: `eval_cubic_splines_d`, `vec_eval_cubic_splines_d` and the values computed
by `vec_eval_cubic_splines_G_d` are the numbers of `eval_cubic`. -/
theorem C77_specialised_vector (h1 : ∀ x : K, x * 1 = x)
    (h : AnyRequest 3 (gridZ T) C true m none) :
    ∃ V : List K → List ℕ → K,
      (∀ x, x.length = T.length →
        Returns 3 (gridZ T) C true m none "linear" x (V x) ∧
        ∀ B : NdArray K, B.shape = [m] →
        ∃ A, evalSplinesD T.length (T.map (·.1)) (T.map (·.2.1)) (T.map (·.2.2)) C x B = .ok A ∧
          A.shape = B.shape ∧ ∀ k < m, A.get [k] = V x [k]) ∧
      ∀ (xs : List (List K)) (B : NdArray K), (∀ x ∈ xs, x.length = T.length) →
        B.shape = [xs.length, m] →
        (∃ A, vecEvalSplinesD T.length (T.map (·.1)) (T.map (·.2.1)) (T.map (·.2.2)) C xs B = .ok A ∧
          A.shape = B.shape ∧ ∀ i x, xs[i]? = some x → ∀ k < m, A.get [i, k] = V x [k]) ∧
        ∀ B' : NdArray K, B'.shape = [xs.length, T.length, m] →
          ∃ A D, vecEvalSplinesGD T.length (T.map (·.1)) (T.map (·.2.1)) (T.map (·.2.2)) C xs B B'
              = .ok (A, D) ∧
            A.shape = B.shape ∧ D.shape = B'.shape ∧
            ∀ i x, xs[i]? = some x → ∀ k < m, A.get [i, k] = V x [k] := by
  have hC : C.shape = ((gridZ T).map fun g => size g + 2) ++ [m] := by simpa using h.shape
  refine ⟨valueAt T C, fun x hx => ⟨valueAt_returns h1 h x hx, fun B hB => ?_⟩,
    fun xs B hx hB => ⟨?_, fun B' hB' => ?_⟩⟩
  · exact evalSplinesD_ok h.axes hC hx B hB
  · obtain ⟨A, e1, e2, e3⟩ := vecEvalSplinesD_ok h.axes hC xs hx B hB
    refine ⟨A, e1, e2, fun i x hi => ?_⟩
    obtain ⟨hi', rfl⟩ := List.getElem?_eq_some_iff.1 hi
    exact e3 i hi'
  · obtain ⟨A, D, e1, e2, e3, e4⟩ := vecEvalSplinesGD_ok h.axes hC xs hx B B' hB hB'
    refine ⟨A, D, e1, e2, e3, fun i x hi k hk => ?_⟩
    obtain ⟨hi', rfl⟩ := List.getElem?_eq_some_iff.1 hi
    exact (e4 i hi' k hk).1

/-- C26 in more than four dimensions: nothing is computed, the arrays come back as they were. -/
theorem C26_five_fails (a b : List K) (orders : List ℤ) (C : NdArray K) (xs : List (List K))
    (B B' : NdArray K) (garbage : List ℕ → K) (h : 4 < a.length) :
    vecEvalCubicSplinesG a b orders C xs (some B) (some B') garbage = .ok (B, B') := by
  simp only [vecEvalCubicSplinesG]
  rw [if_neg (by omega)]
  rfl

end anyArith

section exact
variable {F : Type} [Field F] [LinearOrder F] [IsStrictOrderedRing F] [FloorRing F]

theorem dphi_eq {t : F} (h0 : 0 ≤ t) (h1 : t ≤ 1) (d : F) (j : ℕ) :
    dphi t d j = blend3Vals 1 t d j := by
  simp only [dphi, blend3Vals, dAd]
  rw [if_neg (not_lt.2 h0), if_neg (not_lt.2 h1)]
  norm_num
  ring

/-- On the part of the axis spanned by the grid, the gradient code computes what `eval_spline`
computes for derivative order one. -/
theorem combo_dwts : ∀ (T : List (F × F × ℤ)) (x : List F) (q : ℕ) (c : List ℕ → F) (t : F),
    x.length = T.length → (∀ g ∈ gridZ T, ValidAxis g) → x[q]? = some t →
    (∀ g, (gridZ T)[q]? = some g → first g ≤ t ∧ t ≤ last g) →
    combo (dwts q T x) c
      = evalAt 3 (gridZ T) ((List.replicate (gridZ T).length 0).set q 1) x c
  | [], [], _, _, _, _, _, h, _ => by simp at h
  | (a, b, n) :: T, x :: xs, q, c, t, hl, hv, hq, hin => by
    have hl' : xs.length = T.length := by simpa using hl
    cases q with
    | zero =>
      obtain rfl : x = t := by simpa using hq
      obtain ⟨i1, i2⟩ := hin (.uniform a b n) (by simp [gridZ])
      have hval := hv (.uniform a b n) (by simp [gridZ])
      obtain ⟨l1, l2⟩ := lam_mem hval i1 i2
      have ih := fun c => combo_eq_evalAt (fun x : F => mul_one x) T xs c hl'
      simp only [gridZ, List.map_cons, List.length_cons, List.replicate_succ, List.set_cons_zero,
        dwts] at ih ⊢
      rw [evalAt_three]
      simp only [gwt, combo, ih, dphi_eq l1 l2]
    | succ q =>
      have ih := fun c => combo_dwts T xs q c t hl'
        (fun g hg => hv g (by simp only [gridZ, List.map_cons, List.mem_cons]; exact Or.inr hg))
        (by simpa using hq) (fun g hg => hin g (by simpa [gridZ] using hg))
      simp only [gridZ, List.map_cons, List.length_cons, List.replicate_succ, List.set_cons_succ,
        dwts] at ih ⊢
      rw [evalAt_three]
      simp only [pwt, combo, ih, phi_eq (fun x : F => mul_one x) _ (delta (.uniform a b n) x)]

end exact

section real
variable {T : List (ℝ × ℝ × ℤ)} {C : NdArray ℝ} {m : ℕ}

/-- C26, the part that holds.  In one to four dimensions `vec_eval_cubic_splines_G` returns the values
of the splines and, in entry `[i, q, k]` of the second array, the partial derivative of component
`k` with respect to coordinate `q` at point number `i`, provided this coordinate is within the grid
(the other coordinates may be anywhere), whether the output arrays are supplied or not.
Missing: points with coordinate `q` outside the grid, where it is false. -/
theorem C26_gradient_partial (h : Request 3 (gridZ T) C true m none) (h4 : T.length ≤ 4)
    (xs : List (List ℝ)) (hx : ∀ x ∈ xs, x.length = T.length)
    (values dvalues : Option (NdArray ℝ)) (garbage : List ℕ → ℝ)
    (hv : ∀ B, values = some B → B.shape = [xs.length, m])
    (hd : ∀ B, dvalues = some B → B.shape = [xs.length, T.length, m]) :
    ∃ (V : List ℝ → List ℕ → ℝ) (A D : NdArray ℝ),
      (∀ x, x.length = T.length → Returns 3 (gridZ T) C true m none "linear" x (V x)) ∧
      vecEvalCubicSplinesG (T.map (·.1)) (T.map (·.2.1)) (T.map (·.2.2)) C xs values dvalues garbage
        = .ok (A, D) ∧
      A.shape = [xs.length, m] ∧ D.shape = [xs.length, T.length, m] ∧
      ∀ i x, xs[i]? = some x → ∀ k < m, A.get [i, k] = V x [k] ∧
        ∀ q t, x[q]? = some t → (∀ g, (gridZ T)[q]? = some g → first g ≤ t ∧ t ≤ last g) →
          HasDerivAt (fun t => V (x.set q t) [k]) (D.get [i, q, k]) t := by
  have hw : ∀ g ∈ gridZ T, WF g := fun g hg => wf_of_valid (h.grid.2 g hg)
  have hC : C.shape = ((gridZ T).map fun g => size g + 2) ++ [m] := by
    have := h.shape
    simp only [size_eq]
    simpa using this
  have hT : 1 ≤ T.length := by
    have := h.grid.1
    rcases T with _ | ⟨t, T⟩
    · exact absurd rfl this
    · simp
  have hm : C.shape.getLastD 0 = m := by rw [hC]; simp
  obtain ⟨A, D, e1, e2, e3, e4⟩ := vecEvalSplinesGD_ok hw hC xs hx
    (values.getD ⟨[xs.length, m], garbage⟩) (dvalues.getD ⟨[xs.length, T.length, m], garbage⟩)
    (by cases values with
      | none => rfl
      | some B => exact hv B rfl)
    (by cases dvalues with
      | none => rfl
      | some B => exact hd B rfl)
  have hfam := fam_spec h
  have hval : ∀ x comp, x.length = T.length →
      valueAt T C x comp = fam 3 (gridZ T) C (List.replicate (gridZ T).length 0) x comp :=
    fun x comp hx => combo_eq_evalAt (fun x : ℝ => mul_one x) T x _ hx
  refine ⟨fam 3 (gridZ T) C (List.replicate (gridZ T).length 0), A, D,
    fun x hx => hfam.value x (by simpa [gridZ] using hx), ?_, ?_, ?_, ?_⟩
  · simp only [vecEvalCubicSplinesG, List.length_map, hm]
    rw [if_pos ⟨hT, h4⟩]
    exact e1
  · rw [e2]
    cases values with
    | none => rfl
    | some B => exact hv B rfl
  · rw [e3]
    cases dvalues with
    | none => rfl
    | some B => exact hd B rfl
  · intro i x hi k hk
    obtain ⟨hi', rfl⟩ := List.getElem?_eq_some_iff.1 hi
    have hl := hx _ (List.getElem_mem hi')
    obtain ⟨r1, r2⟩ := e4 i hi' k hk
    refine ⟨by rw [r1, hval _ _ hl], fun q t hq hin => ?_⟩
    have hqT : q < T.length := by
      rw [← hl]; exact (List.getElem?_eq_some_iff.1 hq).1
    rw [r2 q hqT, gradAt, combo_dwts T _ q _ t hl h.grid.2 hq hin]
    have hgl : (gridZ T).length = T.length := by simp [gridZ]
    have hg : (gridZ T)[q]? = some (gridZ T)[q] := List.getElem?_eq_getElem (by omega)
    have hmem : (gridZ T)[q] ∈ gridZ T := List.getElem_mem _
    have hva := h.grid.2 _ hmem
    generalize (gridZ T)[q] = g at *
    obtain ⟨u, _, rfl⟩ := List.mem_map.1 hmem
    have := hasDerivAt_evalAt 3 0 1 1 (gridZ T) ((List.replicate (gridZ T).length 0).set q 1)
      xs[i] q _ t hg hq (by simp [hgl, hqT]) (by simp) (by rw [hl, hgl])
      (fun c => by rw [div_one]; exact hasDerivAt_axisOp_three hva c t)
      (fun r => C.get (r ++ [k]))
    simp only [div_one, List.set_set] at this
    rw [show (List.replicate (gridZ T).length 0).set q 0 = List.replicate (gridZ T).length 0 from by
      apply List.ext_getElem <;> simp [List.getElem_set]] at this
    exact this

/-- The axis of the counterexample and its coefficients. -/
def outT : List (ℝ × ℝ × ℤ) := [(0, 1, 2)]
def outC : NdArray ℝ := ⟨[4, 1], fun idx => if idx = [3, 0] then 1 else 0⟩

theorem out_request : Request 3 (gridZ outT) outC true 1 none := by
  refine ⟨⟨by simp [gridZ, outT], fun g hg => ?_⟩, by simp [gridZ, outT, outC, nNodes],
    Or.inr ⟨rfl, ?_⟩, by simp⟩
  · simp only [gridZ, outT, List.map_cons, List.map_nil, List.mem_cons, List.not_mem_nil,
      or_false] at hg
    subst hg
    exact ⟨by norm_num, by norm_num⟩
  · intro g hg
    simp only [gridZ, outT, List.map_cons, List.map_nil, List.mem_cons, List.not_mem_nil,
      or_false] at hg
    subst hg; rfl

/-- C26 is false outside the grid: the values extrapolate linearly, the gradient is that of the cubic
polynomial of the last cell.  With the nodes 0 and 1 and these coefficients, the gradient returned
at 2 is 2, the values have slope 1/2 there. -/
theorem C26_gradient_fails :
    ∃ (V : List ℝ → List ℕ → ℝ) (A D : NdArray ℝ),
      (∀ x, x.length = 1 → Returns 3 (gridZ outT) outC true 1 none "linear" x (V x)) ∧
      vecEvalCubicSplinesG [0] [1] [2] outC [[2]] none none (fun _ => 0) = .ok (A, D) ∧
      D.get [0, 0, 0] = 2 ∧ HasDerivAt (fun t => V [t] [0]) (1 / 2) 2 := by
  obtain ⟨A, D, e1, e2, e3, e4⟩ := vecEvalSplinesGD_ok (T := outT) (C := outC) (m := 1)
    (fun g hg => wf_of_valid (out_request.grid.2 g hg)) (by simp [gridZ, outT, outC, size])
    [[2]] (by simp [outT]) ⟨[1, 1], fun _ => 0⟩ ⟨[1, 1, 1], fun _ => 0⟩ rfl rfl
  refine ⟨fam 3 (gridZ outT) outC [0], A, D, fun x hx => ?_, ?_, ?_, ?_⟩
  · exact (fam_spec out_request).value x hx
  · exact e1
  · rw [(e4 0 (by simp) 0 (by norm_num)).2 0 (by simp [outT])]
    have hc : cell (.uniform (0:ℝ) 1 2) 2 = 0 := by
      have := cell_right (a := (0:ℝ)) (b := 1) (n := 2) (x := 2) (j := 0)
        ⟨by norm_num, by norm_num⟩ (by norm_num) (by norm_num [upos])
      simpa using this
    simp [gradAt, outT, dwts, gwt, combo, outC, hc, dphi, lam, delta, dAd, Ad]
    norm_num
  · have := hasDerivAt_axisOp_three (a := 0) (b := 1) (n := 2)
      (by exact ⟨by norm_num, by norm_num⟩) (fun j => outC.get ([j] ++ [0])) 2
    have e : axisOp 3 1 (.uniform (0:ℝ) 1 2) 2 (fun j => outC.get ([j] ++ [0])) = 1 / 2 := by
      rw [(cubic_right (j := 0) (by exact ⟨by norm_num, by norm_num⟩) (by norm_num)
        (by norm_num [upos]) _).2]
      norm_num [cubS, outC]
    rw [e] at this
    exact this.congr_of_eventuallyEq (by
      refine Filter.Eventually.of_forall fun t => ?_
      simp only [fam, gridZ, outT, List.map_cons, List.map_nil]
      rw [evalAt_cons]
      rfl)

/-! ### Concrete instances -/

noncomputable def gradT : List (ℝ × ℝ × ℤ) := [(-1, 2, 2), (0, 1, 4)]

theorem gradT_request : Request 3 (gridZ gradT) realC3 true 2 none := real_request3

/-- Two points; the second is outside along the first axis, where only the derivative along the
second axis is claimed. -/
example : ∃ (V : List ℝ → List ℕ → ℝ) (A D : NdArray ℝ),
    (∀ x, x.length = 2 → Returns 3 (gridZ gradT) realC3 true 2 none "linear" x (V x)) ∧
    vecEvalCubicSplinesG [-1, 0] [2, 1] [2, 4] realC3 [[0, 1/2], [5, 1/3]] none none (fun _ => 7)
      = .ok (A, D) ∧
    HasDerivAt (fun t => V [t, 1/2] [1]) (D.get [0, 0, 1]) 0 ∧
    HasDerivAt (fun t => V [5, t] [1]) (D.get [1, 1, 1]) (1/3) := by
  obtain ⟨V, A, D, h1, h2, -, -, h3⟩ := C26_gradient_partial gradT_request (by simp [gradT])
    [[0, 1/2], [5, 1/3]] (by simp [gradT]) none none (fun _ => 7) (by simp) (by simp)
  refine ⟨V, A, D, h1, h2, ?_, ?_⟩
  · refine (h3 0 _ rfl 1 (by norm_num)).2 0 0 rfl fun g hg => ?_
    obtain rfl : _ = g := Option.some.inj hg
    norm_num [first, last, node, nNodes, show Int.toNat 2 = 2 from rfl, show Int.toNat 4 = 4 from rfl]
  · refine (h3 1 _ rfl 1 (by norm_num)).2 1 (1/3) rfl fun g hg => ?_
    obtain rfl : _ = g := Option.some.inj hg
    norm_num [first, last, node, nNodes, show Int.toNat 2 = 2 from rfl, show Int.toNat 4 = 4 from rfl]

theorem gradT_any : AnyRequest 3 (gridZ gradT) realC3 true 2 none where
  nonempty := by simp [gridZ, gradT]
  axes g hg := wf_of_valid (gradT_request.grid.2 g hg)
  shape := by simp [gridZ, gradT, realC3, size]
  degree := gradT_request.degree
  orders_ok := by simp
  scale := by simp

example : ∃ V : List ℝ → List ℕ → ℝ,
    Returns 3 (gridZ gradT) realC3 true 2 none "linear" [9, 1/2] (V [9, 1/2]) ∧
    ∃ A, evalSplinesD 2 [-1, 0] [2, 1] [2, 4] realC3 [9, 1/2] ⟨[2], fun _ => 5⟩ = .ok A ∧
      A.get [1] = V [9, 1/2] [1] := by
  obtain ⟨V, h1, -⟩ := C77_specialised_vector (fun x : ℝ => mul_one x) gradT_any
  obtain ⟨r1, r2⟩ := h1 [9, 1/2] rfl
  obtain ⟨A, e1, -, e2⟩ := r2 ⟨[2], fun _ => 5⟩ rfl
  exact ⟨V, r1, A, e1, e2 1 (by norm_num)⟩

end real

end Interp.Props
