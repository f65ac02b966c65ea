import Verif.Props.SourceFilter
import Verif.Props.GeneratedCode
import Verif.Props.SourceEndToEnd

/-!
# From the data to the values with the texts in current use: C120

The text of `_filter_cubic` in `prefilter_cubic.py` is executed on the data, then the text that `codegen.py` makes from its templates for the
call `eval_spline(grid, C, points, order=3, extrap_mode=mode)`, with the coefficients that the first text has returned. The statements mention
the texts, the grid and the data only.
-/

set_option linter.unusedSectionVars false

namespace Interp.Props
open Interp Interp.Spec Interp.Filter
open Interp.Spec.PySrc (Heap callName whole)
open Interp.Codegen Interp.CodegenText Interp.Ref
open Interp.Spec.Text
open Interp.Spec.PyLang (IsPoints pLines callFunction vecVal)

section
variable {F : Type} [Field F] [LinearOrder F] [IsStrictOrderedRing F] [FloorRing F] [Interp.Smolyak.Trig F]

/-- Executing the text of `_filter_cubic` on the axes `(a, b, n)` and the data `D`, whatever else is in memory, returns a new array with the
contents `C`. -/
def FilterText (T : List (F × F × ℕ)) (D C : NdArray F) : Prop :=
  ∃ P, filterFile = some P ∧ ∀ (h : Heap F) (rd : ℕ), h[rd]? = some D → ∀ n ≥ 6, ∃ t,
    callName P n "_filter_cubic" [.tup (T.map fun t => .tup [.flt t.1, .flt t.2.1, .int (t.2.2 : ℤ)]), .arr rd (whole T.length)] h =
      .ok (.arr h.length (whole T.length), h ++ C :: t)

/-- The texts applied to the data `D` compute the function `V`: the filter returns an array, and with this array as coefficients the text
generated for one point, given as a tuple or as an array, returns `V x`, and the text generated for a matrix of points returns an array with
`V x` for every row `x`. -/
def CurrentSpline (T : List (F × F × ℕ)) (D : NdArray F) (mode : String) (V : List F → F) : Prop :=
  ∃ C, FilterText T D C ∧
    (∀ x, x.length = T.length → TextReturns (gridOf T) C false 3 none mode (.tup (x.map .flt)) (.flt (V x)) ∧
      TextReturns (gridOf T) C false 3 none mode (vecVal x) (.flt (V x))) ∧
    ∀ (xs : List (List F)) (X : NdArray F), (∀ x ∈ xs, x.length = T.length) → X.shape = [xs.length, T.length] →
      (∀ n y i z, xs[n]? = some y → y[i]? = some z → X.get [n, i] = z) →
      ∃ A, TextReturns (gridOf T) C true 3 none mode (.arr X) (.arr A) ∧ A.shape = [xs.length] ∧ ∀ i x, xs[i]? = some x → A.get [i] = V x

/-- A text returns at most one value. -/
theorem textReturns_unique {G : List (GridDim F)} {C : NdArray F} {rows : Bool} {k : ℕ} {orders : Option (List (List ℕ))} {mode : String}
    {pv v w : Interp.Spec.PyLang.Val F} (h1 : TextReturns G C rows k orders mode pv v) (h2 : TextReturns G C rows k orders mode pv w) : v = w := by
  obtain ⟨t, B, N, env, ht, hB, hv⟩ := h1
  obtain ⟨t', B', N', env', ht', hB', hw⟩ := h2
  obtain rfl : t = t' := by rw [ht] at ht'; cases ht'; rfl
  have e1 := hB (max N N') (le_max_left _ _)
  rw [hB' (max N N') (le_max_right _ _)] at e1
  obtain rfl : B' = B := Option.some.inj e1
  rw [hv] at hw
  cases hw
  rfl

theorem filterText_unique {T : List (F × F × ℕ)} {D C C' : NdArray F} (h1 : FilterText T D C) (h2 : FilterText T D C') : C = C' := by
  obtain ⟨P, hP, H⟩ := h1
  obtain ⟨P', hP', H'⟩ := h2
  obtain rfl : P = P' := by rw [hP] at hP'; exact Option.some.inj hP'
  obtain ⟨t, e⟩ := H [D] 0 rfl 6 le_rfl
  obtain ⟨t', e'⟩ := H' [D] 0 rfl 6 le_rfl
  rw [e] at e'
  simp only [Except.ok.injEq, Prod.mk.injEq, true_and, List.append_cancel_left_eq, List.cons.injEq] at e'
  exact e'.1

/-- The text of the filter returns what `filter_cubic` returns. -/
theorem filterText_of {T : List (F × F × ℕ)} {D : NdArray F} (H : UniformData T D) : ∃ C, FilterText T D C ∧ FilterOutcome (gridOf T) D false 0 C := by
  obtain ⟨⟨C, hC, -⟩, -⟩ := C19_filter_total H.request
  obtain ⟨P, hP, HF⟩ := C109_filter (K := F) litLaws_field (by simp) (by simp)
  refine ⟨C, ⟨P, hP, fun h rd hd n hn => ?_⟩, .alloc hC⟩
  have hv : List.Forall₂ (Interp.Spec.PySrc.AxisVal h) (T.map fun t => .tup [.flt t.1, .flt t.2.1, .int (t.2.2 : ℤ)]) (gridOf T) := by
    rw [gridOf, List.forall₂_map_left_iff, List.forall₂_map_right_iff]
    exact List.forall₂_same.mpr fun t _ => rfl
  have hDl : D.shape.length = T.length := by simp [H.shape]
  have key := HF h rd D _ (gridOf T) hd hv n hn
  rw [hDl] at key
  obtain ⟨v, h', hy, rfl, t, rfl⟩ := shows_ok key hC
  exact ⟨t, hy⟩

theorem currentSpline_exists {T : List (F × F × ℕ)} {D : NdArray F} (H : UniformData T D) (mode : String) : ∃ V C, CurrentSpline T D mode V ∧
    FilterText T D C ∧ FilterOutcome (gridOf T) D false 0 C ∧
    ∀ x, x.length = T.length → Returns 3 (gridOf T) C false 0 none mode x fun _ => V x := by
  obtain ⟨C, hF, hC⟩ := filterText_of H
  have hr := H.request
  obtain ⟨hs, -⟩ := filterOutcome_spec hr hC
  have hgl : (gridOf T).length = T.length := by simp [gridOf]
  have hG : gridOf T ≠ [] := hr.grid.1
  have hpm : PointModeOk mode (gridOf T) := fun _ => hr.uniform
  have key : ∀ x, ∃ v : F, x.length = T.length → Returns 3 (gridOf T) C false 0 none mode x fun _ => v := by
    intro x
    by_cases hx : x.length = T.length
    · have h1 := (hr.request hs).good.returns mode x (hx.trans hgl.symm)
      refine ⟨rowEntry 3 mode (gridOf T) C false none x [], fun _ => h1.congr fun tail ht => ?_⟩
      have : tail = [] := by simpa [tailShape, inShape_nil_iff] using ht
      rw [this]
    · exact ⟨0, fun h => absurd h hx⟩
  choose V hV using key
  refine ⟨V, C, ⟨C, hF, fun x hx => ⟨?_, ?_⟩, fun xs X hxs hX hX' => ?_⟩, hF, hC, hV⟩
  · exact C97_text_scalar hG (hV x hx) (hx.trans hgl.symm) hpm rfl rfl _ (.tuple x (by omega))
  · exact C97_text_scalar hG (hV x hx) (hx.trans hgl.symm) hpm rfl rfl _ (.vector x (by omega))
  · have hxs' : ∀ y ∈ xs, y.length = (gridOf T).length := fun y hy => (hxs y hy).trans hgl.symm
    have hX2 : X.shape = [xs.length, (gridOf T).length] := by rw [hX, hgl]
    obtain ⟨A, hA, sA, -⟩ := C97_text_rows hG (hV (List.replicate T.length 0) (by simp)) xs hxs' X hX2 hX'
    refine ⟨A, hA, sA, fun i x hi => ?_⟩
    obtain ⟨A', hA', -, vA⟩ := C97_text_rows hG (hV x (hxs x (List.mem_of_getElem? hi))) xs hxs' X hX2 hX'
    have := textReturns_unique hA hA'
    cases this
    exact vA i hi [] (by simp [tailShape, InShape])

/-- C120. The texts determine the function. -/
theorem C120_unique {T : List (F × F × ℕ)} {D : NdArray F} {mode : String} {V V' : List F → F} (hV : CurrentSpline T D mode V)
    (hV' : CurrentSpline T D mode V') (x : List F) (hx : x.length = T.length) : V x = V' x := by
  obtain ⟨C, hF, h1, -⟩ := hV
  obtain ⟨C', hF', h2, -⟩ := hV'
  obtain rfl := filterText_unique hF hF'
  have := textReturns_unique (h1 x hx).1 (h2 x hx).1
  simpa using this

/-- C120. Data on a uniform grid of one to four dimensions can be filtered and evaluated with the texts, for every value of `extrap_mode`. -/
theorem C120_total {T : List (F × F × ℕ)} {D : NdArray F} (H : UniformData T D) (mode : String) : ∃ V, CurrentSpline T D mode V := by
  obtain ⟨V, C, h, -⟩ := currentSpline_exists H mode
  exact ⟨V, h⟩

theorem currentSpline_returns {T : List (F × F × ℕ)} {D : NdArray F} (H : UniformData T D) {mode : String} {V : List F → F}
    (hV : CurrentSpline T D mode V) : ∃ C, FilterText T D C ∧ FilterOutcome (gridOf T) D false 0 C ∧
      ∀ x, x.length = T.length → Returns 3 (gridOf T) C false 0 none mode x fun _ => V x := by
  obtain ⟨W, C, hW, hF, hC, hR⟩ := currentSpline_exists H mode
  exact ⟨C, hF, hC, fun x hx => (hR x hx).congr fun _ _ => C120_unique hW hV x hx⟩

/-- C120. The texts in current use and the texts of `filter_cubic.py` and `eval_cubic_numba.py` compute the same function from the same data. -/
theorem C120_same_function {T : List (F × F × ℕ)} {D : NdArray F} (H : UniformData T D) {V W : List F → F} (hV : CurrentSpline T D "linear" V)
    (hW : TextSpline T D W) (x : List F) (hx : x.length = T.length) : V x = W x := by
  obtain ⟨C, -, hC, hR⟩ := currentSpline_returns H hV
  obtain ⟨C', hC', hR'⟩ := textSpline_returns H hW
  have hx' : x.length = (gridOf T).length := by simpa [gridOf] using hx
  obtain ⟨s1, v1⟩ := filterOutcome_spec H.request hC
  obtain ⟨s2, v2⟩ := filterOutcome_spec H.request hC'
  have hsame : C.Same C' := ⟨s1.trans s2.symm, fun idx hi => by rw [v1 idx (s1 ▸ hi), v2 idx (s1 ▸ hi)]⟩
  exact (hR x hx).unique hx' (same_returns H.request hC' hsame hx' (hR' x hx)) [] (by simp [tailShape, InShape])

/-- The same statement about a function that agrees at all points. -/
theorem TextSpline.congr {T : List (F × F × ℕ)} {D : NdArray F} {V W : List F → F} (hW : TextSpline T D W)
    (h : ∀ x, x.length = T.length → V x = W x) : TextSpline T D V := by
  obtain ⟨P, P', hP, hP', H⟩ := hW
  refine ⟨P, P', hP, hP', fun hp rd ra rb hd ha hb n hn => ?_⟩
  obtain ⟨r, t, e, hr, h1, h2⟩ := H hp rd ra rb hd ha hb n hn
  refine ⟨r, t, e, hr, fun u rx x hx hxl n hn => ?_, fun u rx ro k xs X B hx hX hxs hB hBs hro n hn => ?_⟩
  · rw [h x hxl]
    exact h1 u rx x hx hxl n hn
  · obtain ⟨A, e1, e2, e3⟩ := h2 u rx ro k xs X B hx hX hxs hB hBs hro n hn
    exact ⟨A, e1, e2, fun i x hi => by rw [h x (hxs x (List.mem_of_getElem? hi))]; exact e3 i x hi⟩

theorem CurrentSpline.legacy {T : List (F × F × ℕ)} {D : NdArray F} (H : UniformData T D) {V : List F → F} (hV : CurrentSpline T D "linear" V) :
    TextSpline T D V := by
  obtain ⟨W, hW⟩ := C116_total H
  exact hW.congr fun x hx => C120_same_function H hV hW x hx

/-- C120. At every node the texts give back the datum, in every mode. -/
theorem C120_interpolates {T : List (F × F × ℕ)} {D : NdArray F} (H : UniformData T D) {mode : String} {V : List F → F}
    (hV : CurrentSpline T D mode V) (idx : List ℕ) (hidx : InShape D.shape idx) :
    V (List.zipWith (fun (t : F × F × ℕ) (i : ℕ) => t.1 + (i : F) * ((t.2.1 - t.1) / ((t.2.2 : F) - 1))) T idx) = D.get idx := by
  obtain ⟨C, -, hC, hR⟩ := currentSpline_returns H hV
  have hi : InShape (gridShape (gridOf T)) idx := by rw [gridShape_gridOf, ← H.shape]; exact hidx
  have hl : (nodeAt (gridOf T) idx).length = (gridOf T).length := nodeAt_length _ idx hi
  have := (hR (nodeAt (gridOf T) idx) (by simpa [gridOf] using hl)).unique hl (C18_cubic_interpolates H.request hC mode idx hi) [] (by simp [tailShape, InShape])
  rw [gridOf_nodeAt] at this
  simpa using this

/-- C120. Functions that are affine in each variable are reproduced everywhere in mode `linear`, also outside the grid. -/
theorem C120_multiaffine {T : List (F × F × ℕ)} {D : NdArray F} (H : UniformData T D) {V : List F → F} (hV : CurrentSpline T D "linear" V)
    (f : List F → F) (hf : MultiAffine T.length f) (hD : ∀ idx, InShape D.shape idx →
      D.get idx = f (List.zipWith (fun (t : F × F × ℕ) (i : ℕ) => t.1 + (i : F) * ((t.2.1 - t.1) / ((t.2.2 : F) - 1))) T idx))
    (x : List F) (hx : x.length = T.length) : V x = f x :=
  C116_multiaffine H (hV.legacy H) f hf hD x hx

theorem first_last_field {t : F × F × ℕ} (ht : 2 ≤ t.2.2) :
    first (GridDim.uniform t.1 t.2.1 (t.2.2 : ℤ)) = t.1 ∧ last (GridDim.uniform t.1 t.2.1 (t.2.2 : ℤ)) = t.2.1 := by
  have h3 : ((t.2.2 : F) - 1) ≠ 0 := by
    have : (2 : F) ≤ (t.2.2 : F) := by exact_mod_cast ht
    linarith
  refine ⟨by simp [first, node], ?_⟩
  simp only [last, node, nNodes, Int.toNat_natCast, Int.cast_natCast]
  rw [Nat.cast_sub (by omega)]
  push_cast
  field_simp
  ring

/-- C120. In mode `nearest` the texts give the value of mode `linear` at the closest point of the grid. -/
theorem C120_nearest {T : List (F × F × ℕ)} {D : NdArray F} (H : UniformData T D) {V W : List F → F} (hV : CurrentSpline T D "nearest" V)
    (hW : CurrentSpline T D "linear" W) (x : List F) (hx : x.length = T.length) :
    V x = W (List.zipWith (fun (t : F × F × ℕ) s => max t.1 (min s t.2.1)) T x) := by
  obtain ⟨C, hF, hC, hR⟩ := currentSpline_returns H hV
  obtain ⟨C', hF', -, hR'⟩ := currentSpline_returns H hW
  obtain rfl := filterText_unique hF hF'
  have hx' : x.length = (gridOf T).length := by simpa [gridOf] using hx
  obtain ⟨E, h1, h2, -⟩ := C04_nearest (H.request.request (filterOutcome_spec H.request hC).1) x hx'
  have hp : projBox (gridOf T) x = List.zipWith (fun (t : F × F × ℕ) s => max t.1 (min s t.2.1)) T x := by
    rw [projBox, gridOf, List.zipWith_map_left]
    refine List.ext_getElem (by simp) fun i h1 h2 => ?_
    have hi : i < T.length := by simp at h1; omega
    obtain ⟨e1, e2⟩ := first_last_field (H.axes _ (List.getElem_mem hi)).2
    simp only [List.getElem_zipWith, e1, e2]
  have hl : (projBox (gridOf T) x).length = T.length := by rw [hp]; simp [hx]
  rw [(hR x hx).unique hx' h1 [] (by simp [tailShape, InShape]),
    ← (hR' _ hl).unique (by rw [hl]; simp [gridOf]) (h2 "linear") [] (by simp [tailShape, InShape]), hp]

/-- C120. In mode `constant` the texts give zero at the points outside the grid and the value of mode `linear` at the others. -/
theorem C120_constant {T : List (F × F × ℕ)} {D : NdArray F} (H : UniformData T D) {V W : List F → F} (hV : CurrentSpline T D "constant" V)
    (hW : CurrentSpline T D "linear" W) (x : List F) (hx : x.length = T.length) :
    ((∃ (i : ℕ) (t : F × F × ℕ) (s : F), T[i]? = some t ∧ x[i]? = some s ∧ (s < t.1 ∨ t.2.1 < s)) → V x = 0) ∧
    ((∀ (i : ℕ) (t : F × F × ℕ) (s : F), T[i]? = some t → x[i]? = some s → t.1 ≤ s ∧ s ≤ t.2.1) → V x = W x) := by
  obtain ⟨C, hF, hC, hR⟩ := currentSpline_returns H hV
  obtain ⟨C', hF', -, hR'⟩ := currentSpline_returns H hW
  obtain rfl := filterText_unique hF hF'
  have hx' : x.length = (gridOf T).length := by simpa [gridOf] using hx
  have hA : AnyRequest 3 (gridOf T) C false 0 none :=
    AnyRequest.of_request (H.request.request (filterOutcome_spec H.request hC).1) (by simp)
  obtain ⟨h1, h2⟩ := C05_constant_partial hA x hx'
  refine ⟨fun ⟨i, t, s, ht, hs, ho⟩ => ?_, fun hin => ?_⟩
  · exact (hR x hx).unique hx' (h1 ⟨i, .uniform t.1 t.2.1 (t.2.2 : ℤ), s, by simp [gridOf, ht], hs, ho⟩) [] (by simp [tailShape, InShape])
  · obtain ⟨E, e1, e2, -⟩ := h2 (by
      rintro ⟨i, g, s, hg, hs, ho⟩
      simp only [gridOf, List.getElem?_map, Option.map_eq_some_iff] at hg
      obtain ⟨t, ht, rfl⟩ := hg
      obtain ⟨a1, a2⟩ := hin i t s ht hs
      rcases ho with ho | ho
      · exact absurd ho (not_lt.mpr a1)
      · exact absurd ho (not_lt.mpr a2))
    rw [(hR x hx).unique hx' e1 [] (by simp [tailShape, InShape]), (hR' x hx).unique hx' e2 [] (by simp [tailShape, InShape])]

end

section real

/-- C120. The error in exact arithmetic, for the values of a function with second derivatives bounded by `M i` along axis `i`. -/
theorem C120_second_order {T : List (ℝ × ℝ × ℕ)} {D : NdArray ℝ} (H : UniformData T D) {V : List ℝ → ℝ} (hV : CurrentSpline T D "linear" V)
    (f : List ℝ → ℝ) (hD : ValuesOf T D f) (M : ℕ → ℝ) (hM : ∀ i, 0 ≤ M i)
    (hf : ∀ i t, T[i]? = some t → ∀ y, Inside T y → SecondDerivLe (fun s => f (y.set i s)) t.1 t.2.1 (M i))
    (x : List ℝ) (hx : Inside T x) : |V x - f x| ≤ ∑ i ∈ Finset.range T.length, (5 / 2) ^ i * (M i * stepOf T i ^ 2 / 2) :=
  C116_second_order H (hV.legacy H) f hD M hM hf x hx

/-- C120. The same for a function with bounded fourth derivatives that satisfies the natural conditions. -/
theorem C120_fourth_order {T : List (ℝ × ℝ × ℕ)} {D : NdArray ℝ} (H : UniformData T D) {V : List ℝ → ℝ} (hV : CurrentSpline T D "linear" V)
    (f : List ℝ → ℝ) (hD : ValuesOf T D f) (M : ℕ → ℝ) (hM : ∀ i, 0 ≤ M i)
    (hf : ∀ i t, T[i]? = some t → ∀ y, Inside T y → NaturalFourth (fun s => f (y.set i s)) t.1 t.2.1 (M i))
    (x : List ℝ) (hx : Inside T x) : |V x - f x| ≤ ∑ i ∈ Finset.range T.length, (5 / 2) ^ i * (7 / 64 * (M i * stepOf T i ^ 4)) :=
  C116_fourth_order H (hV.legacy H) f hD M hM hf x hx

/-- C120. With enough nodes the texts approximate any continuous function as well as wanted. -/
theorem C120_converges {d : ℕ} (a b : Fin d → ℝ) (f : (Fin d → ℝ) → ℝ) (hf : ContinuousOn f (Set.Icc a b)) (ε : ℝ) (hε : 0 < ε) :
    ∃ N, ∀ (T : List (ℝ × ℝ × ℕ)) (D : NdArray ℝ) (V : List ℝ → ℝ), UniformData T D → CurrentSpline T D "linear" V → T.length = d →
      (∀ i t, T[(i : Fin d).val]? = some t → t.1 = a i ∧ t.2.1 = b i ∧ N ≤ t.2.2) → ValuesOf T D (fun y => f fun i => y.getD i 0) →
      ∀ x ∈ Set.Icc a b, |V (List.ofFn x) - f x| ≤ ε := by
  obtain ⟨N, hN⟩ := C116_converges a b f hf ε hε
  exact ⟨N, fun T D V H hV => hN T D V H (hV.legacy H)⟩

/-- C120. The function that the texts compute in mode `linear` is continuously differentiable, everywhere. -/
theorem C120_smooth {T : List (ℝ × ℝ × ℕ)} {D : NdArray ℝ} (H : UniformData T D) {V : List ℝ → ℝ} (hV : CurrentSpline T D "linear" V) :
    ContDiff ℝ 1 fun x : Fin T.length → ℝ => V (List.ofFn x) := C116_smooth H (hV.legacy H)

/-- The derivative orders of a gradient: one per axis. -/
def unitOrders (d : ℕ) : List (List ℕ) := (List.range d).map fun i => (List.replicate d 0).set i 1

/-- C120. The text generated for a call with the orders of a gradient, with the coefficients of the text of the filter, returns at every point
the tuple of the partial derivatives of the function that the texts compute. -/
theorem C120_gradient {T : List (ℝ × ℝ × ℕ)} {D : NdArray ℝ} (H : UniformData T D) {V : List ℝ → ℝ} (hV : CurrentSpline T D "linear" V) :
    ∃ C, FilterText T D C ∧ ∀ x : List ℝ, x.length = T.length → ∃ g : List ℝ, g.length = T.length ∧
      TextReturns (gridOf T) C false 3 (some (unitOrders T.length)) "linear" (.tup (x.map .flt)) (.tup (g.map .flt)) ∧
      ∀ i s, x[i]? = some s → HasDerivAt (fun s => V (x.set i s)) (g.getD i 0) s := by
  obtain ⟨C, hF, hC, hR⟩ := currentSpline_returns H hV
  have hgl : (gridOf T).length = T.length := by simp [gridOf]
  have hq := H.request.request (filterOutcome_spec H.request hC).1
  obtain ⟨U, hU, hd⟩ := C25_cubic_derivative hq
  refine ⟨C, hF, fun x hx => ?_⟩
  have hx' : x.length = (gridOf T).length := hx.trans hgl.symm
  have hVU : ∀ y : List ℝ, y.length = T.length → V y = U (List.replicate T.length 0) y [] := by
    intro y hy
    have := (hR y hy).unique (hy.trans hgl.symm) (hU.value y (hy.trans hgl.symm)) [] (by simp [tailShape, InShape])
    rw [hgl] at this
    exact this
  have hne : unitOrders T.length ≠ [] := by simpa [unitOrders] using H.nonempty
  have hret := (hU.deriv (unitOrders T.length) x hx' hne (by
    intro oo ho
    simp only [unitOrders, List.mem_map, List.mem_range] at ho
    obtain ⟨i, hi, rfl⟩ := ho
    refine ⟨by simp [hgl], fun _ l hl => ?_⟩
    rcases List.mem_or_eq_of_mem_set hl with h | h
    · rw [List.eq_of_mem_replicate h]; omega
    · omega)).pointTuple (fun _ => H.request.uniform) (by decide) rfl _ rfl
  obtain ⟨v, h1, h2⟩ := textReturns H.request.grid.1 (.tuple x hx'.ge) hret
  refine ⟨(List.range (unitOrders T.length).length).map fun j => U ((unitOrders T.length).getD j []) x [], by simp [unitOrders], ?_, fun i s hs => ?_⟩
  · have : v = _ := h2
    rw [this] at h1
    exact h1
  · have hi : i < T.length := by rw [← hx]; exact (List.getElem?_eq_some_iff.mp hs).1
    have hu : (unitOrders T.length).getD i [] = (List.replicate T.length 0).set i 1 := by
      rw [List.getD_eq_getElem _ _ (by simpa [unitOrders] using hi)]
      simp [unitOrders]
    have hl : (unitOrders T.length).length = T.length := by simp [unitOrders]
    rw [hl, List.getD_eq_getElem _ _ (by simpa using hi)]
    simp only [List.getElem_map, List.getElem_range, hu]
    have := hd ((List.replicate T.length 0).set i 1) x i s [] (by simp [hgl]) hx' (by simp [hi]) hs
    rw [List.set_set] at this
    have h0 : (List.replicate T.length 0).set i 0 = List.replicate T.length 0 := by
      refine List.ext_getElem (by simp) fun j h1 h2 => ?_
      simp [List.getElem_set]
    rw [h0] at this
    refine this.congr_of_eventuallyEq (Filter.Eventually.of_forall fun t => ?_)
    exact hVU _ (by simp [hx])

end real

/-- The hypotheses can be met: a 3 × 4 grid. -/
example : ∃ V, CurrentSpline [((0 : ℚ), 1, 3), (0, 2, 4)] ⟨[3, 4], fun idx => (idx.sum : ℚ)⟩ "nearest" V ∧ V [1 / 2, 2] = 4 := by
  have H : UniformData [((0 : ℚ), 1, 3), (0, 2, 4)] ⟨[3, 4], fun idx => (idx.sum : ℚ)⟩ := by
    refine ⟨by simp, by simp, fun t ht => ?_, rfl⟩
    simp only [List.mem_cons, List.not_mem_nil, or_false] at ht
    rcases ht with rfl | rfl <;> norm_num
  obtain ⟨V, hV⟩ := C120_total H "nearest"
  refine ⟨V, hV, ?_⟩
  have := C120_interpolates H hV [1, 3] (by decide)
  norm_num at this
  exact this

end Interp.Props
