import Verif.Props.SourceNumba
import Verif.Props.SourceOldFilter
import Verif.Props.CubicError

/-!
# From the data to the values, text by text: C116

The text of `filter_coeffs` in `filter_cubic.py` is executed on the data, then the text of `eval_cubic_spline_d` or `vec_eval_cubic_spline_d` in
`eval_cubic_numba.py` on the coefficients that it has returned. The statements mention the texts, the grid and the data only.
-/

set_option linter.unusedSectionVars false

namespace Interp.Props
open Interp Interp.Spec Interp.Spec.PySrc Interp.Filter Interp.CubicNumba
open Interp.Codegen Interp.Ref

section
variable {F : Type} [Field F] [LinearOrder F] [IsStrictOrderedRing F] [FloorRing F] [Interp.Smolyak.Trig F]

/-- Axes `(a, b, n)`, one to four, each with `a < b` and at least two nodes, and data of the shape of the grid. -/
structure UniformData (T : List (F × F × ℕ)) (D : NdArray F) : Prop where
  nonempty : T ≠ []
  dim : T.length ≤ 4
  axes : ∀ t ∈ T, t.1 < t.2.1 ∧ 2 ≤ t.2.2
  shape : D.shape = T.map (·.2.2)

theorem UniformData.request {T : List (F × F × ℕ)} {D : NdArray F} (h : UniformData T D) : FilterRequest (gridOf T) D false 0 where
  grid := by
    refine ⟨by simpa [gridOf] using h.nonempty, fun g hg => ?_⟩
    obtain ⟨t, ht, rfl⟩ := List.mem_map.mp hg
    obtain ⟨h1, h2⟩ := h.axes t ht
    exact ⟨h1, by simpa using (by exact_mod_cast h2 : (2 : ℤ) ≤ (t.2.2 : ℤ))⟩
  uniform g hg := by
    obtain ⟨t, -, rfl⟩ := List.mem_map.mp hg
    rfl
  dim := by simpa [gridOf] using h.dim
  shape := by simp [h.shape, gridShape_gridOf]

/-- Executing the texts on the data `D` gives the function `V`: whatever else is in memory, `filter_coeffs` returns a new array `C`, after
which `eval_cubic_spline_d` returns `V x` at every point `x`, and `vec_eval_cubic_spline_d` writes `V x` for every row `x` of the matrix of
points; nothing else is changed. The memory may have grown between the two calls. -/
def TextSpline (T : List (F × F × ℕ)) (D : NdArray F) (V : List F → F) : Prop :=
  ∃ P P', oldFile = some P ∧ numbaFile = some P' ∧ ∀ (h : Heap F) (rd ra rb : ℕ), h[rd]? = some D → HasVec h ra (T.map (·.1)) →
    HasVec h rb (T.map (·.2.1)) → ∀ n ≥ 6, ∃ r t,
      callName P n "filter_coeffs" [.arr ra [none], .arr rb [none], .ints (T.map fun t => (t.2.2 : ℤ)), .arr rd (whole T.length)] h =
        .ok (.arr r (whole T.length), h ++ t) ∧ h.length ≤ r ∧
      (∀ (u : Heap F) (rx : ℕ) (x : List F), HasVec (h ++ t ++ u) rx x → x.length = T.length → ∀ n ≥ 2,
        callName P' n ("eval_cubic_spline_" ++ toString T.length)
          [.arr ra [none], .arr rb [none], .ints (T.map fun t => (t.2.2 : ℤ)), .arr r (whole T.length), .arr rx [none]] (h ++ t ++ u) =
          .ok (.flt (V x), h ++ t ++ u)) ∧
      ∀ (u : Heap F) (rx ro k : ℕ) (xs : List (List F)) (X B : NdArray F), (h ++ t ++ u)[rx]? = some X → IsMat X k xs →
        (∀ x ∈ xs, x.length = T.length) → (h ++ t ++ u)[ro]? = some B → B.shape = [xs.length] → ro ∉ [ra, rb, r, rx] → ∀ n ≥ 2,
        ∃ A, callName P' n ("vec_eval_cubic_spline_" ++ toString T.length)
          [.arr ra [none], .arr rb [none], .ints (T.map fun t => (t.2.2 : ℤ)), .arr r (whole T.length), .arr rx [none, none], .arr ro [none]]
            (h ++ t ++ u) = .ok (.none, (h ++ t ++ u).set ro A) ∧
          A.shape = [xs.length] ∧ ∀ i x, xs[i]? = some x → A.get [i] = V x

theorem hasVec_app {K : Type} [Add K] [Sub K] [Mul K] [Div K] [Neg K] [Zero K] [One K] [NatCast K] [IntCast K]
    [LT K] [DecidableLT K] [LE K] [DecidableLE K] [BEq K] [IntFloor K] [Interp.Smolyak.Trig K] {h : Heap K} {r : ℕ} {l : List K} (H : HasVec h r l) (t : Heap K) :
    HasVec (h ++ t) r l := by
  obtain ⟨A, h1, h2⟩ := H
  exact ⟨A, by rw [List.getElem?_append_left (List.getElem?_eq_some_iff.mp h1).1]; exact h1, h2⟩

/-- Coefficients that agree entry by entry give the same values. -/
theorem same_returns {G : List (GridDim F)} {D C C' : NdArray F} {vec : Bool} {m : ℕ} (h : FilterRequest G D vec m)
    (hC : FilterOutcome G D vec m C') (hs : C.Same C') {x : List F} (hx : x.length = G.length) {E : List ℕ → F}
    (hE : Returns 3 G C' vec m none "linear" x E) : Returns 3 G C vec m none "linear" x E := by
  obtain ⟨hs', hv'⟩ := filterOutcome_spec h hC
  have hsC : C.shape = coefsShape G vec m := hs.1.trans hs'
  have hv : ∀ idx, InShape (coefsShape G vec m) idx → C.get idx = coefs G D.get idx :=
    fun idx hi => (hs.2 idx (hsC.symm ▸ hi)).trans (hv' idx hi)
  refine ((h.request hsC).good.returns "linear" x hx).congr fun tail ht => ?_
  rw [← ((h.request hs').good.returns "linear" x hx).unique hx hE tail ht]
  have ht' : InShape (if vec then [m] else []) tail := by simpa [tailShape] using ht
  rw [rowEntry_plain 3 _ G C vec m _ tail ht, rowEntry_plain 3 _ G C' vec m _ tail ht, evalMode_linear, evalMode_linear,
    h.eval_eq hv _ _ tail (by simp) hx ht', h.eval_eq hv' _ _ tail (by simp) hx ht']

/-- The values of the texts are those of `eval_cubic` with the coefficients of `filter_cubic`. -/
theorem textSpline_exists {T : List (F × F × ℕ)} {D : NdArray F} (H : UniformData T D) : ∃ V C, TextSpline T D V ∧
    FilterOutcome (gridOf T) D false 0 C ∧ ∀ x, x.length = T.length → Returns 3 (gridOf T) C false 0 none "linear" x fun _ => V x := by
  have hr := H.request
  have h1 : 1 ≤ T.length := List.length_pos_iff.mpr H.nonempty
  obtain ⟨⟨C', hC', -⟩, -⟩ := C19_filter_total hr
  obtain ⟨C, hC, hsame⟩ := C27_old_filter_agrees_array T hr (.alloc hC')
  obtain ⟨P, hP, HF⟩ := C113_filter_coeffs (K := F) litLaws_field (by simp) (by simp)
  obtain ⟨P', hP', HE⟩ := C112_eval_cubic_spline (K := F) litLaws_field six_field
  obtain ⟨P'', hP'', HV⟩ := C112_vec_eval_cubic_spline (K := F) litLaws_field six_field
  obtain rfl : P' = P'' := by rw [hP'] at hP''; exact Option.some.inj hP''
  set Z : List (F × F × ℤ) := T.map fun t => (t.1, t.2.1, (t.2.2 : ℤ)) with hZ
  have hZG : gridZ Z = gridOf T := by simp [gridZ, gridOf, Z, Function.comp_def]
  have hZl : Z.length = T.length := by simp [Z]
  obtain ⟨hs', -⟩ := filterOutcome_spec hr (.alloc hC')
  have hsC : C.shape = coefsShape (gridOf T) false 0 := hsame.1.trans hs'
  have hA : AnyRequest 3 (gridZ Z) C false 0 none := by
    rw [hZG]
    exact AnyRequest.of_request (hr.request hsC) (by simp)
  obtain ⟨V, hV, hVs⟩ := C77_specialised_scalar (fun x => mul_one x) hA
  have e1 : Z.map (·.1) = T.map (·.1) := by simp [Z, Function.comp_def]
  have e2 : Z.map (·.2.1) = T.map (·.2.1) := by simp [Z, Function.comp_def]
  have e3 : Z.map (·.2.2) = T.map fun t => (t.2.2 : ℤ) := by simp [Z, Function.comp_def]
  rw [hZl, hZG, e1, e2, e3] at hV
  rw [hZl, e1, e2, e3] at hVs
  refine ⟨V, C', ⟨P, P', hP, hP', fun h rd ra rb hd ha hb n hn => ?_⟩, .alloc hC', fun x hx => ?_⟩
  · have hDl : D.shape.length = T.length := by simp [H.shape]
    have key := HF n hn h (.arr ra [none]) (.arr rb [none]) (T.map (·.1)) (T.map (·.2.1)) (T.map (·.2.2)) rd D
      (.inr (.inr ⟨ra, rfl, ha⟩)) (.inr (.inr ⟨rb, rfl, hb⟩)) (by simp) (by simp) hd
    simp only [List.map_map, Function.comp_def, List.length_map, hDl] at key
    obtain ⟨v, h', hy, ⟨t, rfl⟩, r, rfl, hrl, hrC⟩ := shows_ok key hC
    refine ⟨r, t, hy, hrl, fun u rx x hx hxl n hn => ?_, fun u rx ro k xs X B hx hX hxs hB hBs hro n hn => ?_⟩
    · have hG : Given (h ++ t ++ u) ra rb r (T.map (·.1)) (T.map (·.2.1)) C :=
        ⟨hasVec_app (hasVec_app ha t) u, hasVec_app (hasVec_app hb t) u, by
          rw [List.getElem?_append_left (List.getElem?_eq_some_iff.mp hrC).1]; exact hrC⟩
      obtain ⟨v, h', hy, rfl, rfl⟩ := shows_ok (HE T.length h1 H.dim n hn (h ++ t ++ u) ra rb r rx _ _ x C (T.map fun t => (t.2.2 : ℤ)) hG hx
        (by simp)) (hV x hxl).2
      exact hy
    · have hG : Given (h ++ t ++ u) ra rb r (T.map (·.1)) (T.map (·.2.1)) C :=
        ⟨hasVec_app (hasVec_app ha t) u, hasVec_app (hasVec_app hb t) u, by
          rw [List.getElem?_append_left (List.getElem?_eq_some_iff.mp hrC).1]; exact hrC⟩
      obtain ⟨A, eA, sA, vA⟩ := hVs xs B hxs hBs
      have kk := HV T.length h1 H.dim n hn (h ++ t ++ u) ra rb r rx ro k _ _ xs C X B (T.map fun t => (t.2.2 : ℤ))
        hG hx hX hB hro (by simp)
      rw [eA] at kk
      obtain ⟨v, h', hy, rfl, rfl⟩ := shows_ok kk rfl
      exact ⟨A, hy, sA.trans hBs, vA⟩
  · have hx' : x.length = (gridOf T).length := by simpa [gridOf] using hx
    obtain ⟨E, hE⟩ : ∃ E, Returns 3 (gridOf T) C' false 0 none "linear" x E := ⟨_, (hr.request hs').good.returns "linear" x hx'⟩
    have := same_returns hr (.alloc hC') hsame hx' hE
    refine hE.congr fun tail ht => ?_
    exact this.unique hx' (hV x hx).1 tail ht

/-- A vector. -/
def vecOf (l : List F) : NdArray F := ⟨[l.length], fun idx => l.getD (idx.headD 0) 0⟩

theorem vecOf_isVec (l : List F) : IsVec (vecOf l) l := ⟨rfl, fun i hi => by simp [vecOf, hi]⟩

/-- C116. The texts determine the function: two functions that both describe what the texts compute agree at every point. -/
theorem C116_unique {T : List (F × F × ℕ)} {D : NdArray F} (H : UniformData T D) {V V' : List F → F} (hV : TextSpline T D V) (hV' : TextSpline T D V')
    (x : List F) (hx : x.length = T.length) : V x = V' x := by
  obtain ⟨P, P', hP, hP', HV⟩ := hV
  obtain ⟨Q, Q', hQ, hQ', HV'⟩ := hV'
  obtain rfl : P = Q := by rw [hP] at hQ; exact Option.some.inj hQ
  obtain rfl : P' = Q' := by rw [hP'] at hQ'; exact Option.some.inj hQ'
  obtain ⟨r, t, e1, -, e2, -⟩ := HV [D, vecOf (T.map (·.1)), vecOf (T.map (·.2.1))] 0 1 2 rfl ⟨_, rfl, vecOf_isVec _⟩ ⟨_, rfl, vecOf_isVec _⟩ 6 le_rfl
  obtain ⟨r', t', e1', -, e2', -⟩ := HV' [D, vecOf (T.map (·.1)), vecOf (T.map (·.2.1))] 0 1 2 rfl ⟨_, rfl, vecOf_isVec _⟩ ⟨_, rfl, vecOf_isVec _⟩ 6 le_rfl
  rw [e1] at e1'
  simp only [Except.ok.injEq, Prod.mk.injEq, Val.arr.injEq, and_true, List.append_cancel_left_eq] at e1'
  obtain ⟨rfl, rfl⟩ := e1'
  have hh : HasVec ([D, vecOf (T.map (·.1)), vecOf (T.map (·.2.1))] ++ t ++ [vecOf x]) (3 + t.length) x := by
    refine ⟨_, ?_, vecOf_isVec x⟩
    have : 3 + t.length = ([D, vecOf (T.map (·.1)), vecOf (T.map (·.2.1))] ++ t).length := by
      simp only [List.length_append, List.length_cons, List.length_nil]
    rw [this, List.getElem?_append_right le_rfl, Nat.sub_self]
    rfl
  have k1 := e2 [vecOf x] _ x hh hx 2 le_rfl
  have k2 := e2' [vecOf x] _ x hh hx 2 le_rfl
  rw [k1] at k2
  simpa using k2

/-- C116. Data on a uniform grid of one to four dimensions can be filtered and evaluated with the texts. -/
theorem C116_total {T : List (F × F × ℕ)} {D : NdArray F} (H : UniformData T D) : ∃ V, TextSpline T D V := by
  obtain ⟨V, C, hV, -⟩ := textSpline_exists H
  exact ⟨V, hV⟩

theorem gridOf_nodeAt (T : List (F × F × ℕ)) (idx : List ℕ) : nodeAt (gridOf T) idx =
    List.zipWith (fun (t : F × F × ℕ) (i : ℕ) => t.1 + (i : F) * ((t.2.1 - t.1) / ((t.2.2 : F) - 1))) T idx := by
  simp [nodeAt, gridOf, List.zipWith_map_left, node]

/-- What the texts compute, in terms of `eval_cubic`. -/
theorem textSpline_returns {T : List (F × F × ℕ)} {D : NdArray F} (H : UniformData T D) {V : List F → F} (hV : TextSpline T D V) : ∃ C,
    FilterOutcome (gridOf T) D false 0 C ∧ ∀ x, x.length = T.length → Returns 3 (gridOf T) C false 0 none "linear" x fun _ => V x := by
  obtain ⟨W, C, hW, hC, hR⟩ := textSpline_exists H
  refine ⟨C, hC, fun x hx => (hR x hx).congr fun tail ht => C116_unique H hW hV x hx⟩

/-- C116. At every node the texts give back the datum. -/
theorem C116_interpolates {T : List (F × F × ℕ)} {D : NdArray F} (H : UniformData T D) {V : List F → F} (hV : TextSpline T D V) (idx : List ℕ)
    (hidx : InShape D.shape idx) :
    V (List.zipWith (fun (t : F × F × ℕ) (i : ℕ) => t.1 + (i : F) * ((t.2.1 - t.1) / ((t.2.2 : F) - 1))) T idx) = D.get idx := by
  obtain ⟨C, hC, hR⟩ := textSpline_returns H hV
  have hi : InShape (gridShape (gridOf T)) idx := by rw [gridShape_gridOf, ← H.shape]; exact hidx
  have hl : (nodeAt (gridOf T) idx).length = (gridOf T).length := nodeAt_length _ idx hi
  have := (hR (nodeAt (gridOf T) idx) (by simpa [gridOf] using hl)).unique hl (C18_cubic_interpolates H.request hC "linear" idx hi) [] (by simp [tailShape, InShape])
  rw [gridOf_nodeAt] at this
  simpa using this

/-- C116. Functions that are affine in each variable are reproduced everywhere, also outside the grid. -/
theorem C116_multiaffine {T : List (F × F × ℕ)} {D : NdArray F} (H : UniformData T D) {V : List F → F} (hV : TextSpline T D V) (f : List F → F)
    (hf : MultiAffine T.length f) (hD : ∀ idx, InShape D.shape idx →
      D.get idx = f (List.zipWith (fun (t : F × F × ℕ) (i : ℕ) => t.1 + (i : F) * ((t.2.1 - t.1) / ((t.2.2 : F) - 1))) T idx))
    (x : List F) (hx : x.length = T.length) : V x = f x := by
  obtain ⟨C, hC, hR⟩ := textSpline_returns H hV
  have hx' : x.length = (gridOf T).length := by simpa [gridOf] using hx
  refine (hR x hx).unique hx' (C23_cubic_reproduces_multiaffine H.request hC (fun _ => f) (fun _ => by simpa [gridOf] using hf) ?_ x hx') []
    (by simp [tailShape, InShape])
  intro idx tail hi ht
  have : tail = [] := by rw [← inShape_nil_iff]; exact ht
  subst this
  rw [List.append_nil, gridOf_nodeAt]
  exact hD idx (by rw [H.shape, ← gridShape_gridOf]; exact hi)

/-- The distance of the nodes of a uniform axis. -/
theorem mesh_uniform {t : F × F × ℕ} (ht : 2 ≤ t.2.2) : MeshLe (GridDim.uniform t.1 t.2.1 (t.2.2 : ℤ)) ((t.2.1 - t.1) / ((t.2.2 : F) - 1)) := by
  intro i _
  simp only [node]
  push_cast
  ring_nf
  exact le_rfl

end

section real

theorem first_last_uniform {t : ℝ × ℝ × ℕ} (ht : 2 ≤ t.2.2) :
    first (GridDim.uniform t.1 t.2.1 (t.2.2 : ℤ)) = t.1 ∧ last (GridDim.uniform t.1 t.2.1 (t.2.2 : ℤ)) = t.2.1 := by
  have h3 : ((t.2.2 : ℝ) - 1) ≠ 0 := by
    have : (2 : ℝ) ≤ (t.2.2 : ℝ) := by exact_mod_cast ht
    linarith
  refine ⟨by simp [first, node], ?_⟩
  simp only [last, node, nNodes, Int.toNat_natCast, Int.cast_natCast]
  rw [Nat.cast_sub (by omega)]
  push_cast
  field_simp
  ring

/-- Points between the ends of the axes. -/
def Inside (T : List (ℝ × ℝ × ℕ)) (x : List ℝ) : Prop := List.Forall₂ (fun (t : ℝ × ℝ × ℕ) s => t.1 ≤ s ∧ s ≤ t.2.1) T x

theorem inside_iff {T : List (ℝ × ℝ × ℕ)} {D : NdArray ℝ} (H : UniformData T D) (y : List ℝ) : Inside T y ↔ InBox (gridOf T) y := by
  rw [InBox, gridOf, List.forall₂_map_left_iff, Inside]
  refine ⟨fun h => ?_, fun h => ?_⟩ <;> refine (List.forall₂_iff_get.mpr ⟨h.length_eq, fun i h1 h2 => ?_⟩) <;>
    have := h.get h1 h2 <;> have hm := first_last_uniform (H.axes (T.get ⟨i, h1⟩) (List.get_mem _ _)).2
  · rw [hm.1, hm.2]
    exact this
  · rw [hm.1, hm.2] at this
    exact this

/-- The data are the values of `f` at the nodes. -/
def ValuesOf (T : List (ℝ × ℝ × ℕ)) (D : NdArray ℝ) (f : List ℝ → ℝ) : Prop := ∀ idx, InShape D.shape idx →
  D.get idx = f (List.zipWith (fun (t : ℝ × ℝ × ℕ) (i : ℕ) => t.1 + (i : ℝ) * ((t.2.1 - t.1) / ((t.2.2 : ℝ) - 1))) T idx)

theorem ValuesOf.samples {T : List (ℝ × ℝ × ℕ)} {D : NdArray ℝ} {f : List ℝ → ℝ} (h : ValuesOf T D f) (H : UniformData T D) :
    Samples (gridOf T) D false 0 fun _ => f := by
  intro idx tail hi ht
  have : tail = [] := by rw [← inShape_nil_iff]; exact ht
  subst this
  rw [List.append_nil, gridOf_nodeAt]
  exact h idx (by rw [H.shape, ← gridShape_gridOf]; exact hi)

/-- The distance of the nodes of axis `i`. -/
noncomputable def stepOf (T : List (ℝ × ℝ × ℕ)) (i : ℕ) : ℝ :=
  ((T.getD i (0, 0, 0)).2.1 - (T.getD i (0, 0, 0)).1) / (((T.getD i (0, 0, 0)).2.2 : ℝ) - 1)

theorem mesh_stepOf {T : List (ℝ × ℝ × ℕ)} {D : NdArray ℝ} (H : UniformData T D) (i : ℕ) (g : GridDim ℝ) (hg : (gridOf T)[i]? = some g) :
    MeshLe g (stepOf T i) := by
  simp only [gridOf, List.getElem?_map, Option.map_eq_some_iff] at hg
  obtain ⟨t, ht, rfl⟩ := hg
  have e : T.getD i (0, 0, 0) = t := by simp [List.getD, ht]
  simp only [stepOf, e]
  exact mesh_uniform (H.axes t (List.mem_of_getElem? ht)).2

/-- C116. The error of the texts in exact arithmetic, for the values of a function with second derivatives bounded by `M i` along axis `i`. -/
theorem C116_second_order {T : List (ℝ × ℝ × ℕ)} {D : NdArray ℝ} (H : UniformData T D) {V : List ℝ → ℝ} (hV : TextSpline T D V) (f : List ℝ → ℝ)
    (hD : ValuesOf T D f) (M : ℕ → ℝ) (hM : ∀ i, 0 ≤ M i)
    (hf : ∀ i t, T[i]? = some t → ∀ y, Inside T y → SecondDerivLe (fun s => f (y.set i s)) t.1 t.2.1 (M i))
    (x : List ℝ) (hx : Inside T x) : |V x - f x| ≤ ∑ i ∈ Finset.range T.length, (5 / 2) ^ i * (M i * stepOf T i ^ 2 / 2) := by
  obtain ⟨C, hC, hR⟩ := textSpline_returns H hV
  have hxl : x.length = T.length := hx.length_eq.symm
  have hgl : (gridOf T).length = T.length := by simp [gridOf]
  obtain ⟨E, hE, hb⟩ := C88_cubic_error_smooth H.request hC (fun _ => f) (hD.samples H) M (stepOf T) (mesh_stepOf H) hM (by
      intro tail i g _ hg y hy
      simp only [gridOf, List.getElem?_map, Option.map_eq_some_iff] at hg
      obtain ⟨t, ht, rfl⟩ := hg
      obtain ⟨e1, e2⟩ := first_last_uniform (H.axes t (List.mem_of_getElem? ht)).2
      rw [e1, e2]
      exact hf i t ht y ((inside_iff H y).mpr hy)) "linear" x ((inside_iff H x).mp hx)
  have := (hR x hxl).unique (hxl.trans hgl.symm) hE [] (by simp [tailShape, InShape])
  rw [this]
  rw [hgl] at hb
  exact hb [] (by simp [tailShape, InShape])

/-- C116. The same for a function with bounded fourth derivatives that satisfies the natural conditions: at most a constant times the fourth
power of the distance of the nodes. -/
theorem C116_fourth_order {T : List (ℝ × ℝ × ℕ)} {D : NdArray ℝ} (H : UniformData T D) {V : List ℝ → ℝ} (hV : TextSpline T D V) (f : List ℝ → ℝ)
    (hD : ValuesOf T D f) (M : ℕ → ℝ) (hM : ∀ i, 0 ≤ M i)
    (hf : ∀ i t, T[i]? = some t → ∀ y, Inside T y → NaturalFourth (fun s => f (y.set i s)) t.1 t.2.1 (M i))
    (x : List ℝ) (hx : Inside T x) : |V x - f x| ≤ ∑ i ∈ Finset.range T.length, (5 / 2) ^ i * (7 / 64 * (M i * stepOf T i ^ 4)) := by
  obtain ⟨C, hC, hR⟩ := textSpline_returns H hV
  have hxl : x.length = T.length := hx.length_eq.symm
  have hgl : (gridOf T).length = T.length := by simp [gridOf]
  obtain ⟨E, hE, hb⟩ := C90_cubic_fourth_order H.request hC (fun _ => f) (hD.samples H) M (stepOf T) (mesh_stepOf H) hM (by
      intro tail i g _ hg y hy
      simp only [gridOf, List.getElem?_map, Option.map_eq_some_iff] at hg
      obtain ⟨t, ht, rfl⟩ := hg
      obtain ⟨e1, e2⟩ := first_last_uniform (H.axes t (List.mem_of_getElem? ht)).2
      rw [e1, e2]
      exact hf i t ht y ((inside_iff H y).mpr hy)) "linear" x ((inside_iff H x).mp hx)
  have := (hR x hxl).unique (hxl.trans hgl.symm) hE [] (by simp [tailShape, InShape])
  rw [this]
  rw [hgl] at hb
  exact hb [] (by simp [tailShape, InShape])

/-- C116. With enough nodes the texts approximate any continuous function as well as wanted. -/
theorem C116_converges {d : ℕ} (a b : Fin d → ℝ) (f : (Fin d → ℝ) → ℝ) (hf : ContinuousOn f (Set.Icc a b)) (ε : ℝ) (hε : 0 < ε) :
    ∃ N, ∀ (T : List (ℝ × ℝ × ℕ)) (D : NdArray ℝ) (V : List ℝ → ℝ), UniformData T D → TextSpline T D V → T.length = d →
      (∀ i t, T[(i : Fin d).val]? = some t → t.1 = a i ∧ t.2.1 = b i ∧ N ≤ t.2.2) → ValuesOf T D (fun y => f fun i => y.getD i 0) →
      ∀ x ∈ Set.Icc a b, |V (List.ofFn x) - f x| ≤ ε := by
  obtain ⟨δ, hδ, HC⟩ := C89_cubic_convergence a b f hf ε hε
  obtain ⟨N, hN⟩ : ∃ N : ℕ, ∀ i, (b i - a i) / δ ≤ N := by
    refine ⟨∑ i, ⌈(b i - a i) / δ⌉₊, fun i => (Nat.le_ceil _).trans ?_⟩
    exact_mod_cast Finset.single_le_sum (f := fun i => ⌈(b i - a i) / δ⌉₊) (fun _ _ => Nat.zero_le _) (Finset.mem_univ i)
  refine ⟨N + 2, fun T D V H hV hd hT hD x hx => ?_⟩
  obtain ⟨C, hC, hR⟩ := textSpline_returns H hV
  have hgl : (gridOf T).length = T.length := by simp [gridOf]
  obtain ⟨E, hE, hb⟩ := HC (gridOf T) D C H.request hC (by rw [hgl, hd]) (by
      intro i g hg
      simp only [gridOf, List.getElem?_map, Option.map_eq_some_iff] at hg
      obtain ⟨t, ht, rfl⟩ := hg
      obtain ⟨e1, e2⟩ := first_last_uniform (H.axes t (List.mem_of_getElem? ht)).2
      obtain ⟨ha, hb, hn⟩ := hT i t ht
      refine ⟨e1.trans ha, e2.trans hb, ?_⟩
      intro j hj
      refine (mesh_uniform (H.axes t (List.mem_of_getElem? ht)).2 j hj).trans ?_
      have h1 : ((N : ℝ) + 2) ≤ t.2.2 := by exact_mod_cast hn
      have h2 := hN i
      rw [div_le_iff₀ hδ] at h2
      have h0 : (0 : ℝ) ≤ N := Nat.cast_nonneg N
      rw [div_le_iff₀ (by linarith), ha, hb]
      nlinarith) (hD.samples H) "linear" x hx
  have hl : (List.ofFn x).length = T.length := by simp [hd]
  have := (hR (List.ofFn x) hl).unique (hl.trans hgl.symm) hE [] (by simp [tailShape, InShape])
  rw [this]
  exact hb

/-- C116. The function that the texts compute in exact arithmetic is continuously differentiable, everywhere. -/
theorem C116_smooth {T : List (ℝ × ℝ × ℕ)} {D : NdArray ℝ} (H : UniformData T D) {V : List ℝ → ℝ} (hV : TextSpline T D V) :
    ContDiff ℝ 1 fun x : Fin T.length → ℝ => V (List.ofFn x) := by
  obtain ⟨C, hC, hR⟩ := textSpline_returns H hV
  have hgl : (gridOf T).length = T.length := by simp [gridOf]
  obtain ⟨f, hf, hs, -⟩ := C21_cubic_smooth (H.request.request (filterOutcome_spec H.request hC).1)
  have key : ∀ x : Fin T.length → ℝ, V (List.ofFn x) = f [] (fun i => x (Fin.cast hgl i)) := by
    intro x
    have h1 := hf fun i => x (Fin.cast hgl i)
    rw [show List.ofFn (fun i => x (Fin.cast hgl i)) = List.ofFn x from (List.ofFn_congr hgl.symm x).symm] at h1
    exact (hR (List.ofFn x) (by simp)).unique (by simp [hgl]) h1 [] (by simp [tailShape, InShape])
  rw [show (fun x : Fin T.length → ℝ => V (List.ofFn x)) = fun x => f [] (fun i => x (Fin.cast hgl i)) from funext key]
  exact (hs []).comp (contDiff_pi.mpr fun i => contDiff_apply ℝ ℝ (Fin.cast hgl i))

/-- Component `k` of vector-valued data. -/
def component (T : List (ℝ × ℝ × ℕ)) (D : NdArray ℝ) (k : ℕ) : NdArray ℝ := ⟨T.map (·.2.2), fun idx => D.get (idx ++ [k])⟩

/-- The values of vector-valued splines are those of the splines of the components. -/
theorem component_returns {T : List (ℝ × ℝ × ℕ)} {D C : NdArray ℝ} {m : ℕ} (h : FilterRequest (gridOf T) D true m)
    (hC : FilterOutcome (gridOf T) D true m C) {k : ℕ} (hk : k < m) {V : List ℝ → ℝ} (hV : TextSpline T (component T D k) V)
    (H : UniformData T (component T D k)) {x : List ℝ} (hx : x.length = T.length) {C' : NdArray ℝ} (hs : C'.Same C) {E : List ℕ → ℝ}
    (hE : Returns 3 (gridOf T) C' true m none "linear" x E) : E [k] = V x := by
  obtain ⟨Ck, hCk, hR⟩ := textSpline_returns H hV
  have hx' : x.length = (gridOf T).length := by simpa [gridOf] using hx
  obtain ⟨s1, v1⟩ := filterOutcome_spec h hC
  obtain ⟨s2, v2⟩ := filterOutcome_spec H.request hCk
  have hsC : C'.shape = coefsShape (gridOf T) true m := hs.1.trans s1
  have hv : ∀ idx, InShape (coefsShape (gridOf T) true m) idx → C'.get idx = coefs (gridOf T) D.get idx :=
    fun idx hi => (hs.2 idx (hsC.symm ▸ hi)).trans (v1 idx hi)
  have ht : InShape (tailShape true m none) [k] := by simp [tailShape, InShape, hk]
  have e1 := hE.unique hx' ((h.request hsC).good.returns "linear" x hx') [k] ht
  have e2 := (hR x hx).unique hx' ((H.request.request s2).good.returns "linear" x hx') [] (by simp [tailShape, InShape])
  rw [rowEntry_plain 3 _ (gridOf T) C' true m _ [k] ht, evalMode_linear, h.eval_eq hv _ _ [k] (by simp) hx' (by simp [InShape, hk])] at e1
  rw [rowEntry_plain 3 _ (gridOf T) Ck false 0 _ [] (by simp [tailShape, InShape]), evalMode_linear,
    H.request.eval_eq v2 _ _ [] (by simp) hx' (by simp [InShape])] at e2
  rw [e1, e2]
  simp only [component, List.append_nil]

/-- C116. Vector-valued data: the text of `filter_mcoeffs`, then that of `vec_eval_cubic_splines_G_d`. The values that are written are those of
the components; the derivatives that are written are, at points within the grid, the partial derivatives of the functions whose values are
written. Nothing else is changed. -/
theorem C116_gradient : ∃ P P', oldFile = some P ∧ numbaFile = some P' ∧
    ∀ (T : List (ℝ × ℝ × ℕ)) (D : NdArray ℝ) (m : ℕ) (V : ℕ → List ℝ → ℝ), D.shape = T.map (·.2.2) ++ [m] →
    T ≠ [] → T.length ≤ 4 → (∀ t ∈ T, t.1 < t.2.1 ∧ 2 ≤ t.2.2) → (∀ k < m, TextSpline T (component T D k) (V k)) →
    ∀ (h : Heap ℝ) (rd ra rb : ℕ), h[rd]? = some D → HasVec h ra (T.map (·.1)) → HasVec h rb (T.map (·.2.1)) → ∀ n ≥ 7, ∃ t,
      callName P n "filter_mcoeffs" [.arr ra [none], .arr rb [none], .ints (T.map fun t => (t.2.2 : ℤ)), .arr rd (whole (T.length + 1))] h =
        .ok (.arr h.length (whole (T.length + 1)), h ++ t) ∧
      ∀ (u : Heap ℝ) (rx rv rg k : ℕ) (xs : List (List ℝ)) (X B G : NdArray ℝ), (h ++ t ++ u)[rx]? = some X → IsMat X k xs →
        (∀ x ∈ xs, x.length = T.length) → (h ++ t ++ u)[rv]? = some B → B.shape = [xs.length, m] → (h ++ t ++ u)[rg]? = some G →
        G.shape = [xs.length, T.length, m] → rv ∉ [h.length, rx] → rg ∉ [h.length, rx, rv] →
        ∃ A A', (∀ n ≥ 2, callName P' n ("vec_eval_cubic_splines_G_" ++ toString T.length)
          [.arr ra [none], .arr rb [none], .ints (T.map fun t => (t.2.2 : ℤ)), .arr h.length (whole (T.length + 1)), .arr rx [none, none],
            .arr rv [none, none], .arr rg [none, none, none]] (h ++ t ++ u) = .ok (.none, ((h ++ t ++ u).set rv A).set rg A')) ∧
          A.shape = [xs.length, m] ∧ A'.shape = [xs.length, T.length, m] ∧
          ∀ i x, xs[i]? = some x → ∀ k < m, A.get [i, k] = V k x ∧
            ∀ q t s, T[q]? = some t → x[q]? = some s → t.1 ≤ s → s ≤ t.2.1 → HasDerivAt (fun s => V k (x.set q s)) (A'.get [i, q, k]) s := by
  obtain ⟨P, hP, HF⟩ := C113_filter_mcoeffs (K := ℝ) litLaws_field (by simp) (by simp)
  obtain ⟨P', hP', HG⟩ := C112_gradient
  refine ⟨P, P', hP, hP', fun T D m V hDs hT h4 hax hV h rd ra rb hd ha hb n hn => ?_⟩
  have HD : ∀ k, UniformData T (component T D k) := fun k => ⟨hT, h4, hax, rfl⟩
  have h1 : 1 ≤ T.length := List.length_pos_iff.mpr hT
  have hr0 := (HD 0).request
  have hr : FilterRequest (gridOf T) D true m := ⟨hr0.grid, hr0.uniform, hr0.dim, by simp [hDs, gridShape_gridOf]⟩
  obtain ⟨⟨C₀, hC₀, -⟩, -⟩ := C19_filter_total hr
  obtain ⟨C, hC, hsame⟩ := C27_old_mfilter_agrees T D (m := m) (by simp [hDs]) (fun i hi => by
    obtain ⟨E, e, hE⟩ := reshape_same (D.sliceLast i)
    rw [show (D.sliceLast i).shape = T.map (·.2.2) by simp [NdArray.sliceLast, hDs]] at e
    exact ⟨E, e, hE⟩) hr (.alloc hC₀)
  have hDl : D.shape.length = T.length + 1 := by simp [hDs]
  have key := HF n hn h (.arr ra [none]) (.arr rb [none]) (T.map (·.1)) (T.map (·.2.1)) (T.map (·.2.2)) rd D
    (.inr (.inr ⟨ra, rfl, ha⟩)) (.inr (.inr ⟨rb, rfl, hb⟩)) (by simp) (by simp) hd (by omega)
  simp only [List.map_map, Function.comp_def, List.length_map, hDl] at key
  obtain ⟨v, h', hy, rfl, C', t, rfl, hs⟩ := shows_ok key hC
  refine ⟨C' :: t, hy, fun u rx rv rg kk xs X B G hx hX hxs hB hBs hG hGs n1 n2 => ?_⟩
  have hsC : C'.Same C₀ := hs.symm.trans hsame
  obtain ⟨s1, -⟩ := filterOutcome_spec hr (.alloc hC₀)
  set Z : List (ℝ × ℝ × ℤ) := T.map fun t => (t.1, t.2.1, (t.2.2 : ℤ)) with hZ
  have hZG : gridZ Z = gridOf T := by simp [gridZ, gridOf, Z, Function.comp_def]
  have hZl : Z.length = T.length := by simp [Z]
  have e1 : Z.map (·.1) = T.map (·.1) := by simp [Z, Function.comp_def]
  have e2 : Z.map (·.2.1) = T.map (·.2.1) := by simp [Z, Function.comp_def]
  have e3 : Z.map (·.2.2) = T.map fun t => (t.2.2 : ℤ) := by simp [Z, Function.comp_def]
  have hgiv : Given (h ++ C' :: t ++ u) ra rb h.length (Z.map (·.1)) (Z.map (·.2.1)) C' := by
    rw [e1, e2]
    exact ⟨hasVec_app (hasVec_app ha _) u, hasVec_app (hasVec_app hb _) u, by simp⟩
  obtain ⟨f, A, A', hf, hcall, sA, sA', hall⟩ := HG Z C' m (by rw [hZG]; exact hr.request (hsC.1.trans s1)) (by simpa [Z] using hT)
    (by rw [hZl]; exact h4) xs (by rw [hZl]; exact hxs) (h ++ C' :: t ++ u) ra rb h.length rx rv rg kk X B G hgiv hx hX hB hBs hG (by rw [hZl]; exact hGs)
    n1 n2
  rw [hZl, hZG] at hf
  simp only [hZl, e3] at hcall sA'
  have hfV : ∀ x, x.length = T.length → ∀ k < m, f x [k] = V k x := fun x hx k hk =>
    component_returns hr (.alloc hC₀) hk (hV k hk) (HD k) hx hsC (hf x hx)
  refine ⟨A, A', hcall, sA, sA', fun i x hx k hk => ?_⟩
  have hxl := hxs x (List.mem_of_getElem? hx)
  obtain ⟨j1, j2⟩ := hall i x hx k hk
  refine ⟨j1.trans (hfV x hxl k hk), fun q t s ht hs h1 h2 => ?_⟩
  have := j2 q s hs (by
    rw [hZG]
    intro g hg
    simp only [gridOf, List.getElem?_map, ht, Option.map_some, Option.some.injEq] at hg
    subst hg
    obtain ⟨w1, w2⟩ := first_last_uniform (hax t (List.mem_of_getElem? ht)).2
    rw [w1, w2]
    exact ⟨h1, h2⟩)
  rw [show (fun s => V k (x.set q s)) = fun s => f (x.set q s) [k] from funext fun s => (hfV _ (by simpa using hxl) k hk).symm]
  exact this

end real

/-- The hypotheses can be met. -/
example : ∃ V, TextSpline [((0 : ℚ), 1, 3), (0, 2, 4)] ⟨[3, 4], fun idx => (idx.sum : ℚ)⟩ V ∧ V [1, 2 / 3] = 3 := by
  have H : UniformData [((0 : ℚ), 1, 3), (0, 2, 4)] ⟨[3, 4], fun idx => (idx.sum : ℚ)⟩ := ⟨by simp, by simp, by simp, rfl⟩
  obtain ⟨V, hV⟩ := C116_total H
  refine ⟨V, hV, ?_⟩
  have := C116_interpolates H hV [2, 1] (by simp [InShape])
  norm_num at this
  exact this

/-- The text of the spline through eleven values of the sine, at any point of the interval. -/
example : ∃ V, TextSpline [((0 : ℝ), 1, 11)] ⟨[11], fun idx => Real.sin (1 * ((idx.headD 0 : ℝ) / 10))⟩ V ∧
    ∀ t, 0 ≤ t → t ≤ 1 → |V [t] - Real.sin (1 * t)| ≤ 1 / 200 := by
  have H : UniformData [((0 : ℝ), 1, 11)] ⟨[11], fun idx => Real.sin (1 * ((idx.headD 0 : ℝ) / 10))⟩ := ⟨by simp, by simp, by simp, rfl⟩
  obtain ⟨V, hV⟩ := C116_total H
  refine ⟨V, hV, fun t h0 h1 => ?_⟩
  have := C116_second_order H hV (fun y => Real.sin (1 * y.headD 0)) (by
      intro idx hi
      obtain ⟨i, rfl⟩ : ∃ i, idx = [i] := by
        match idx, hi with
        | [i], _ => exact ⟨i, rfl⟩
      simp
      norm_num
      ring_nf) (fun _ => 1) (by simp) (by
      intro i t ht y hy
      obtain ⟨rfl, rfl⟩ : i = 0 ∧ t = ((0 : ℝ), 1, 11) := by
        rcases i with _ | i
        · simpa using ht.symm
        · simp at ht
      obtain ⟨s, rfl⟩ : ∃ s, y = [s] := by
        cases hy with
        | cons a b => cases b; exact ⟨_, rfl⟩
      refine ⟨fun t _ => (sin_deriv 1 t).continuousAt.continuousWithinAt, _, _, fun t _ =>
        ⟨sin_deriv 1 t, cos_deriv 1 t, ?_⟩⟩
      simpa using Real.abs_sin_le_one t) [t] (.cons ⟨h0, h1⟩ .nil)
  refine this.trans ?_
  norm_num [stepOf]

end Interp.Props
