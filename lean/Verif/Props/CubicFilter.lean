import Verif.Proofs.FilterApi
import Verif.Proofs.Arrays
import Verif.Proofs.Family
import Verif.Proofs.Calculus
import Verif.Spec.FilterApi
import Mathlib.Data.Rat.Floor

/-!
# Filtering: C18, C19, C20, C23, C27, C28, C29, C30, C31, C32, C33

Exact arithmetic (C20 over the reals; the first theorem on C32 in any arithmetic).
-/

set_option linter.unusedSectionVars false

namespace Interp.Props
open Interp.Codegen Interp.Spec Interp.Ref Interp.Filter Interp.FilterRef

section exact
variable {F : Type} [Field F] [LinearOrder F] [IsStrictOrderedRing F] [FloorRing F]

variable {G : List (GridDim F)} {D C : NdArray F} {vec : Bool} {m : ℕ}

/-- All the ways of filtering lead to the closed form. -/
theorem filterOutcome_spec (h : FilterRequest G D vec m) (hC : FilterOutcome G D vec m C) :
    C.shape = coefsShape G vec m ∧
      ∀ idx, InShape (coefsShape G vec m) idx → C.get idx = coefs G D.get idx := by
  obtain ⟨A, e, hA⟩ := h.alloc
  cases hC with
  | alloc h' =>
    rw [e] at h'; injection h' with h'; subst h'; exact hA
  | inplace B hB h' =>
    obtain ⟨A, e, hA⟩ := h.into B hB
    rw [e] at h'; injection h' with h'; subst h'; exact hA
  | prefilter h' =>
    simp only [Filter.prefilter] at h'
    rw [if_neg (by norm_num), if_pos trivial, e] at h'
    simp only [ok_bind, pure_eq_ok, Except.ok.injEq, PrefilterOutcome.mk.injEq, Option.some.injEq] at h'
    rw [← h'.1]; exact hA
  | prefilterOut B hB h' =>
    obtain ⟨A, e, hA⟩ := h.into B hB
    simp only [Filter.prefilter] at h'
    rw [if_neg (by norm_num), if_pos trivial, e] at h'
    simp only [ok_bind, pure_eq_ok, Except.ok.injEq, PrefilterOutcome.mk.injEq, Option.some.injEq] at h'
    rw [← h'.2]; exact hA

/-- C19. Filtering returns normally (in particular never divides by zero), for every valid grid of
any size in dimension 1 to 4, whatever the data; allocating or in place. -/
theorem C19_filter_total (h : FilterRequest G D vec m) :
    (∃ C, filterCubic G D = .ok C ∧ C.shape = coefsShape G vec m) ∧
    (∃ C, prefilter G D none 3 = .ok ⟨some C, none⟩ ∧ C.shape = coefsShape G vec m) ∧
    ∀ B : NdArray F, B.shape = coefsShape G vec m →
      (∃ C, filterInto G D B = .ok C ∧ C.shape = coefsShape G vec m) ∧
      (∃ C, prefilter G D (some B) 3 = .ok ⟨none, some C⟩ ∧ C.shape = coefsShape G vec m) := by
  obtain ⟨A, e, hA, _⟩ := h.alloc
  refine ⟨⟨A, e, hA⟩, ⟨A, ?_, hA⟩, fun B hB => ?_⟩
  · simp only [prefilter]
    rw [if_neg (by norm_num), if_pos trivial, e]; rfl
  · obtain ⟨A, e, hA, _⟩ := h.into B hB
    refine ⟨⟨A, e, hA⟩, ⟨A, ?_, hA⟩⟩
    simp only [prefilter]
    rw [if_neg (by norm_num), if_pos trivial, e]; rfl

/-- C18. The spline with filtered coefficients takes the data values at the nodes, in every mode and
whatever the way of evaluating. -/
theorem C18_cubic_interpolates (h : FilterRequest G D vec m) (hC : FilterOutcome G D vec m C)
    (mode : String) (idx : List ℕ) (hidx : InShape (gridShape G) idx) :
    Returns 3 G C vec m none mode (nodeAt G idx) (fun tail => D.get (idx ++ tail)) := by
  obtain ⟨hs, hv⟩ := filterOutcome_spec h hC
  refine ((h.request hs).good.returns mode _ (nodeAt_length G idx hidx)).congr fun tail ht => ?_
  have ht' : InShape (if vec then [m] else []) tail := by simpa [tailShape] using ht
  rw [rowEntry_plain 3 mode G C vec m _ tail ht,
    evalMode_inBox 3 mode G _ _ _ h.grid.2 (nodeAt_inBox G idx h.grid.2 hidx),
    h.eval_eq hv _ _ tail (by simp) (nodeAt_length G idx hidx) ht']
  exact eval_tfilt_node _ idx h.match h.good (by rw [dsh_unitAxes]; exact hidx)

/-- C23. If the data sample a function affine in each coordinate (one per component), the filtered
spline returns that function at every point, inside and outside the grid. -/
theorem C23_cubic_reproduces_multiaffine (h : FilterRequest G D vec m)
    (hC : FilterOutcome G D vec m C) (f : List ℕ → List F → F)
    (hf : ∀ tail, MultiAffine G.length (f tail))
    (hD : ∀ idx tail, InShape (gridShape G) idx → InShape (tailShape vec m none) tail →
      D.get (idx ++ tail) = f tail (nodeAt G idx))
    (x : List F) (hx : x.length = G.length) :
    Returns 3 G C vec m none "linear" x (fun tail => f tail x) := by
  obtain ⟨hs, hv⟩ := filterOutcome_spec h hC
  refine ((h.request hs).good.returns "linear" x hx).congr fun tail ht => ?_
  have ht' : InShape (if vec then [m] else []) tail := by simpa [tailShape] using ht
  rw [rowEntry_plain 3 _ G C vec m _ tail ht, evalMode_linear,
    h.eval_eq hv _ _ tail (by simp) hx ht']
  rw [← eval_multiAffine (f tail) x h.match (hf tail) hx]
  refine evalAt_congr 3 (Or.inr rfl) G _ x _ _ h.grid.2 (by simp) hx ?_
  intro idx hidx
  refine tfilt_multiAffine (f tail) _ idx h.match h.good (hf tail) ?_ (h.match.coefShape ▸ hidx)
  intro r hr
  exact hD r tail (dsh_unitAxes G ▸ hr) ht

/-- C30. In-place filtering leaves exactly the array that allocating filtering returns, whatever the
array contained; scalar or vector-valued data, `filter_cubic` and `prefilter`. -/
theorem C30_inplace_eq_alloc (h : FilterRequest G D vec m) (B : NdArray F)
    (hB : B.shape = coefsShape G vec m) :
    ∃ C C', filterCubic G D = .ok C ∧ filterInto G D B = .ok C' ∧ C'.Same C ∧
      prefilter G D none 3 = .ok ⟨some C, none⟩ ∧
      prefilter G D (some B) 3 = .ok ⟨none, some C'⟩ := by
  obtain ⟨A, e, hA, fA⟩ := h.alloc
  obtain ⟨A', e', hA', fA'⟩ := h.into B hB
  refine ⟨A, A', e, e', ⟨by rw [hA, hA'], fun idx hi => ?_⟩, ?_, ?_⟩
  · rw [hA'] at hi; rw [fA idx hi, fA' idx hi]
  · simp only [prefilter]
    rw [if_neg (by norm_num), if_pos trivial, e]; rfl
  · simp only [prefilter]
    rw [if_neg (by norm_num), if_pos trivial, e']; rfl

/-- C28. Grids with the same numbers of nodes give the same coefficients, whatever the bounds. -/
theorem C28_bounds_irrelevant {G' : List (GridDim F)} {C' : NdArray F}
    (h : FilterRequest G D vec m) (h' : FilterRequest G' D vec m)
    (hC : FilterOutcome G D vec m C) (hC' : FilterOutcome G' D vec m C') : C.Same C' := by
  obtain ⟨hs, hv⟩ := filterOutcome_spec h hC
  obtain ⟨hs', hv'⟩ := filterOutcome_spec h' hC'
  have hsh : gridShape G = gridShape G' := by
    have := h.shape.symm.trans h'.shape
    exact List.append_cancel_right this
  have hcs : coefsShape G vec m = coefsShape G' vec m := by
    have : ∀ H : List (GridDim F), (H.map fun g => nNodes g + 2) = (gridShape H).map (· + 2) := by
      intro H; simp [gridShape, Function.comp_def]
    simp only [coefsShape, this, hsh]
  have hax : unitAxes G = unitAxes G' := by
    have : ∀ H : List (GridDim F), unitAxes H = (gridShape H).map fun n => ((1 : F), n) := by
      intro H; simp [gridShape, unitAxes, Function.comp_def]
    rw [this, this, hsh]
  refine ⟨by rw [hs, hs', hcs], fun idx hi => ?_⟩
  rw [hs] at hi
  rw [hv idx hi, hv' idx (hcs ▸ hi), coefs, coefs, hax]

/-- C29. Filtering is linear in the data. -/
theorem C29_filter_linear {D' E C' A : NdArray F} (s t : F)
    (h : FilterRequest G D vec m) (h' : FilterRequest G D' vec m) (hE : FilterRequest G E vec m)
    (hlin : ∀ idx, InShape E.shape idx → E.get idx = s * D.get idx + t * D'.get idx)
    (hC : FilterOutcome G D vec m C) (hC' : FilterOutcome G D' vec m C')
    (hA : FilterOutcome G E vec m A) :
    ∀ idx, InShape A.shape idx → A.get idx = s * C.get idx + t * C'.get idx := by
  obtain ⟨_, hv⟩ := filterOutcome_spec h hC
  obtain ⟨_, hv'⟩ := filterOutcome_spec h' hC'
  obtain ⟨hsA, hvA⟩ := filterOutcome_spec hE hA
  intro idx hi
  rw [hsA] at hi
  have hi' : InShape (csh (unitAxes G) ++ (if vec then [m] else [])) idx := by
    rw [csh_unitAxes]; exact hi
  rw [hv idx hi, hv' idx hi, hvA idx hi]
  simp only [coefs]
  rw [← tfilt_linear s t D.get D'.get h.good hi']
  refine tfilt_congr h.good h.good rfl ?_ hi'
  intro r hr
  rw [dsh_unitAxes] at hr
  exact hlin r (by rw [hE.shape]; exact hr)

/-- C33. Component `j` of the filtered vector-valued array is the filtered component `j`. -/
theorem C33_filter_components {j : ℕ} (hj : j < m) {A : NdArray F}
    (h : FilterRequest G D true m) (hC : FilterOutcome G D true m C)
    (hA : FilterOutcome G (D.sliceLast j) false 0 A) : (C.sliceLast j).Same A := by
  have h' : FilterRequest G (D.sliceLast j) false 0 :=
    ⟨h.grid, h.uniform, h.dim, by simp [NdArray.sliceLast, h.shape]⟩
  obtain ⟨hs, hv⟩ := filterOutcome_spec h hC
  obtain ⟨hs', hv'⟩ := filterOutcome_spec h' hA
  have e : (C.sliceLast j).shape = coefsShape G false 0 := by
    simp [NdArray.sliceLast, hs, coefsShape]
  refine ⟨by rw [e, hs'], fun idx hi => ?_⟩
  rw [e] at hi
  have hi2 : InShape (coefsShape G true m) (idx ++ [j]) := by
    have : coefsShape G true m = coefsShape G false 0 ++ [m] := by simp [coefsShape]
    rw [this]
    exact inShape_append hi ⟨hj, trivial⟩
  rw [hv' idx hi]
  show C.get (idx ++ [j]) = _
  rw [hv _ hi2, coefs, tfilt_append]
  · rfl
  · have := inShape_length hi
    simpa [coefsShape, unitAxes] using this

/-- C31. Among all arrays of coefficients, the filtered one is the only one that interpolates the
data at the nodes and is natural in every direction. -/
theorem C31_filter_unique (h : FilterRequest G D vec m) (hC : FilterOutcome G D vec m C)
    (A : NdArray F) : IsNaturalInterpolant G D vec m A ↔ A.Same C := by
  obtain ⟨hs, hv⟩ := filterOutcome_spec h hC
  constructor
  · rintro ⟨hA, hint, hnat⟩
    refine ⟨by rw [hA, hs], fun idx hi => ?_⟩
    rw [hA] at hi
    rw [hv idx hi]
    -- split the index
    obtain ⟨r, comp, rfl, hr, hc⟩ : ∃ r comp, idx = r ++ comp ∧ InShape (csh (unitAxes G)) r ∧
        InShape (if vec then [m] else []) comp := by
      rw [coefsShape, ← csh_unitAxes] at hi
      generalize csh (unitAxes G) = sh at hi
      induction sh generalizing idx with
      | nil => exact ⟨[], idx, rfl, trivial, hi⟩
      | cons n sh ih =>
        cases idx with
        | nil => exact hi.elim
        | cons i idx =>
          obtain ⟨r, c, rfl, h1, h2⟩ := ih idx hi.2
          exact ⟨i :: r, c, rfl, ⟨hi.1, h1⟩, h2⟩
    have hlen : r.length = (unitAxes G).length := by
      have := inShape_length hr
      simpa [csh] using this
    rw [coefs, tfilt_append comp _ _ _ hlen]
    refine natural_unique (fun s => D.get (s ++ comp)) (fun s => A.get (s ++ comp)) h.match h.good
      ?_ ?_ r hr
    · rw [dsh_unitAxes]; exact hnat comp hc
    · intro s hsn
      rw [dsh_unitAxes] at hsn
      have hc' : InShape (tailShape vec m none) comp := by simpa [tailShape] using hc
      have h1 := (h.request hA).good.returns "linear" _ (nodeAt_length G s hsn)
      have h2 := h1.unique (nodeAt_length G s hsn) (hint s hsn) comp hc'
      rw [rowEntry_plain 3 _ G A vec m _ comp hc', evalMode_linear] at h2
      exact h2
  · intro hA
    have hA' : A.shape = coefsShape G vec m := hA.1.trans hs
    have hval : ∀ idx, InShape (coefsShape G vec m) idx → A.get idx = coefs G D.get idx :=
      fun idx hi => (hA.2 idx (hA'.symm ▸ hi)).trans (hv idx hi)
    refine ⟨hA', fun idx hidx => ?_, fun comp hc => ?_⟩
    · refine ((h.request hA').good.returns "linear" _ (nodeAt_length G idx hidx)).congr
        fun tail ht => ?_
      have ht' : InShape (if vec then [m] else []) tail := by simpa [tailShape] using ht
      rw [rowEntry_plain 3 _ G A vec m _ tail ht, evalMode_linear,
        h.eval_eq hval _ _ tail (by simp) (nodeAt_length G idx hidx) ht']
      exact eval_tfilt_node _ idx h.match h.good (by rw [dsh_unitAxes]; exact hidx)
    · have hn := tfilt_natural (unitAxes G) (fun r => D.get (r ++ comp)) h.good
      rw [dsh_unitAxes] at hn
      intro l1 M l2 e pre post hpre hpost
      have hM : 2 ≤ M := gridShape_two_le h.grid.2 M (by rw [e]; simp)
      have hin : ∀ i < M + 2, A.get (pre ++ i :: post ++ comp)
          = tfilt (unitAxes G) (fun r => D.get (r ++ comp)) (pre ++ i :: post) := by
        intro i hi
        have hsh : coefsShape G vec m = (l1.map (· + 2) ++ (M + 2) :: l2.map (· + 2)) ++
            (if vec then [m] else []) := by
          have : (G.map fun g => nNodes g + 2) = (gridShape G).map (· + 2) := by
            simp [gridShape, Function.comp_def]
          rw [coefsShape, this, e]; simp
        have hidx : InShape (l1.map (· + 2) ++ (M + 2) :: l2.map (· + 2)) (pre ++ i :: post) :=
          inShape_append hpre ⟨hi, hpost⟩
        rw [hval _ (by rw [hsh]; exact inShape_append hidx hc), coefs, tfilt_append]
        have := inShape_length hidx
        have e' : (gridShape G).length = (l1 ++ M :: l2).length := by rw [e]
        simp only [gridShape, List.length_map, List.length_append, List.length_cons, unitAxes]
          at this e' ⊢
        omega
      obtain ⟨n1, n2⟩ := hn l1 M l2 e pre post hpre hpost
      constructor
      · simp only [hin 0 (by omega), hin 1 (by omega), hin 2 (by omega)]; exact n1
      · simp only [hin (M - 1) (by omega), hin M (by omega), hin (M + 1) (by omega)]; exact n2

/-! ### The older module -/

/-- Grid with the axes `(smin, smax, orders)`. -/
def gridOf (T : List (F × F × ℕ)) : List (GridDim F) :=
  T.map fun t => .uniform t.1 t.2.1 (t.2.2 : ℤ)

theorem gridShape_gridOf (T : List (F × F × ℕ)) : gridShape (gridOf T) = T.map (·.2.2) := by
  simp [gridShape, gridOf, Function.comp_def, nNodes]

theorem old_filter_ok {δs : List F} {D : NdArray F} {ms : List ℕ} (hl : δs.length = ms.length)
    (h1 : 1 ≤ δs.length) (h4 : δs.length ≤ 4) (hs : Solvable (δs.zip ms)) (hD : D.shape = ms) :
    ∃ C, filterData δs D = .ok (some C) ∧ Filtered (δs.zip ms) D C := by
  match δs, ms, hl, h1, h4 with
  | [], _, _, h1, _ => simp at h1
  | [d0], [m0], _, _, _ =>
    obtain ⟨C, e, h⟩ := old1_ok hs hD
    exact ⟨C, by simp [filterData, e], h⟩
  | [d0, d1], [m0, m1], _, _, _ =>
    obtain ⟨C, e, h⟩ := old2_ok hs hD
    exact ⟨C, by simp [filterData, e], h⟩
  | [d0, d1, d2], [m0, m1, m2], _, _, _ =>
    obtain ⟨C, e, h⟩ := old3_ok hs hD
    exact ⟨C, by simp [filterData, e], h⟩
  | [d0, d1, d2, d3], [m0, m1, m2, m3], _, _, _ =>
    obtain ⟨C, e, h⟩ := old4_ok hs hD
    exact ⟨C, by simp [filterData, e], h⟩

/-- C27. `filter_coeffs(smin, smax, orders, data)` returns the coefficients `filter_cubic` computes
on the grid with the same bounds and orders; `D` is `data` seen with shape `orders`. -/
theorem C27_old_filter_agrees (T : List (F × F × ℕ)) (data : NdArray F)
    (hD : data.reshape (T.map (·.2.2)) = .ok D) (h : FilterRequest (gridOf T) D false 0)
    (hC : FilterOutcome (gridOf T) D false 0 C) :
    ∃ C', filterCoeffs (T.map (·.1)) (T.map (·.2.1)) (T.map (·.2.2)) data = .ok (some C') ∧
      C'.Same C := by
  obtain ⟨hs, hv⟩ := filterOutcome_spec h hC
  have hax : ∀ t ∈ T, t.1 < t.2.1 ∧ 2 ≤ t.2.2 := by
    intro t ht
    have := h.grid.2 (.uniform t.1 t.2.1 (t.2.2 : ℤ)) (List.mem_map.mpr ⟨t, ht, rfl⟩)
    exact ⟨this.1, by have := this.2; omega⟩
  set δs : List F := T.map fun t => (t.2.1 - t.1) / ((t.2.2 : ℕ) : F) with hδs
  have hz : List.zipWith (fun w n => w / ((n : ℕ) : F))
      (List.zipWith (· - ·) (T.map (·.2.1)) (T.map (·.1))) (T.map (·.2.2)) = δs := by
    rw [hδs]
    clear hδs h hC hD hax hs hv
    clear δs
    induction T with
    | nil => rfl
    | cons t T _ => simp
  have hlen : δs.length = (T.map (·.2.2)).length := by simp [hδs]
  have hgood : Good (δs.zip (T.map (·.2.2))) := by
    apply good_zip
    · intro δ hδ
      obtain ⟨t, ht, rfl⟩ := List.mem_map.mp hδ
      obtain ⟨h1, h2⟩ := hax t ht
      have : ((t.2.2 : ℕ) : F) ≠ 0 := by
        have : t.2.2 ≠ 0 := by omega
        exact_mod_cast this
      exact div_ne_zero (by linarith) this
    · intro n hn
      obtain ⟨t, ht, rfl⟩ := List.mem_map.mp hn
      exact (hax t ht).2
  have hDs : D.shape = T.map (·.2.2) := by
    rw [h.shape, gridShape_gridOf]; simp
  have hTl : (gridOf T).length = T.length := by simp [gridOf]
  obtain ⟨C', e, hC's, hC'v⟩ := old_filter_ok hlen
    (by have := List.length_pos_iff.mpr h.grid.1; simp [hδs]; omega)
    (by have := h.dim; simp [hδs]; omega) hgood.solvable hDs
  have hcs : csh (δs.zip (T.map (·.2.2))) = coefsShape (gridOf T) false 0 := by
    rw [csh_zip hlen]; simp [coefsShape, gridOf, nNodes, Function.comp_def]
  refine ⟨C', ?_, by rw [hC's, hs, hcs], ?_⟩
  · simp only [filterCoeffs]
    rw [hz, hD, ok_bind, e]
  · intro idx hi
    rw [hC's] at hi
    rw [hC'v idx hi, hv idx (hcs ▸ hi), coefs]
    refine tfilt_congr (es := []) hgood h.good ?_ (fun _ _ => rfl) (by simpa using hi)
    rw [dsh_zip hlen, dsh_unitAxes, gridShape_gridOf]

/-- C27 when the data already have the shape of the grid (the reshaping is then the identity). -/
theorem C27_old_filter_agrees_array (T : List (F × F × ℕ))
    (h : FilterRequest (gridOf T) D false 0) (hC : FilterOutcome (gridOf T) D false 0 C) :
    ∃ C', filterCoeffs (T.map (·.1)) (T.map (·.2.1)) (T.map (·.2.2)) D = .ok (some C') ∧
      C'.Same C := by
  have hDs : D.shape = T.map (·.2.2) := by
    rw [h.shape, gridShape_gridOf]; simp
  obtain ⟨B, e, hB⟩ := reshape_same D
  rw [hDs] at e
  have h' : FilterRequest (gridOf T) B false 0 :=
    ⟨h.grid, h.uniform, h.dim, by rw [hB.1, h.shape]⟩
  obtain ⟨A, eA, sA, fA⟩ := h'.alloc
  obtain ⟨C', e', hC'⟩ := C27_old_filter_agrees T D e h' (.alloc eA)
  refine ⟨C', e', hC'.trans ⟨?_, ?_⟩⟩
  · rw [sA, (filterOutcome_spec h hC).1]
  · intro idx hi
    rw [sA] at hi
    rw [fA idx hi, (filterOutcome_spec h hC).2 idx hi]
    refine tfilt_congr (es := []) h.good h.good rfl ?_ (by
      rw [csh_unitAxes]; simpa [coefsShape] using hi)
    intro r hr
    exact hB.2 r (by rw [hB.1, h.shape, ← dsh_unitAxes]; simpa using hr)

/-- C27 for vector-valued data: `filter_mcoeffs` agrees with `filter_cubic`. `data[..., i]` is
reshaped by the code; `D[..., i]` is the result of this reshaping. -/
theorem C27_old_mfilter_agrees (T : List (F × F × ℕ)) (data : NdArray F)
    (hm : data.shape.getLastD 0 = m)
    (hD : ∀ i < m, ∃ E, (data.sliceLast i).reshape (T.map (·.2.2)) = .ok E ∧
      E.Same (D.sliceLast i))
    (h : FilterRequest (gridOf T) D true m) (hC : FilterOutcome (gridOf T) D true m C) :
    ∃ C', filterMcoeffs (T.map (·.1)) (T.map (·.2.1)) (T.map (·.2.2)) data = .ok C' ∧
      C'.Same C := by
  obtain ⟨hs, hv⟩ := filterOutcome_spec h hC
  simp only [filterMcoeffs, hm]
  have hcs : coefsShape (gridOf T) true m = (T.map (·.2.2)).map (· + 2) ++ [m] := by
    simp [coefsShape, gridOf, nNodes, Function.comp_def]
  obtain ⟨C', e, s, f⟩ := pyFor_range m (fun i C => do
      let S ← filterCoeffs (T.map (·.1)) (T.map (·.2.1)) (T.map (·.2.2)) (data.sliceLast i)
      match S with
      | some S => pure (C.setLast i S)
      | none => throw .typeErr)
    (fun k C' => C'.shape = coefsShape (gridOf T) true m ∧
      ∀ r j, j < k → InShape ((T.map (·.2.2)).map (· + 2)) r → C'.get (r ++ [j]) = C.get (r ++ [j]))
    (NdArray.zeros ((T.map (·.2.2)).map (· + 2) ++ [m])) ⟨hcs.symm, fun r j hj => by omega⟩ (by
      intro i hi C1 ⟨s1, f1⟩
      obtain ⟨E, eE, hE⟩ := hD i hi
      have hslice : (D.sliceLast i).shape = gridShape (gridOf T) ++ [] := by
        simp [NdArray.sliceLast, h.shape]
      have hrE : FilterRequest (gridOf T) E false 0 :=
        ⟨h.grid, h.uniform, h.dim, by rw [hE.1, hslice]; rfl⟩
      obtain ⟨A, eA, sA, fA⟩ := hrE.alloc
      obtain ⟨S, eS, hS⟩ := C27_old_filter_agrees T _ eE hrE (.alloc eA)
      simp only [eS, ok_bind]
      refine ⟨_, rfl, s1, ?_⟩
      intro r j hj hr
      simp only [NdArray.setLast, List.getLast?_append, List.getLast?_singleton, Option.some_or,
        Option.some.injEq, List.dropLast_concat]
      by_cases hij : j = i
      · subst hij
        rw [if_pos rfl]
        have hcs0 : coefsShape (gridOf T) false 0 = (T.map (·.2.2)).map (· + 2) := by
          simp [coefsShape, gridOf, nNodes, Function.comp_def]
        have hr0 : InShape (coefsShape (gridOf T) false 0) r := by rw [hcs0]; exact hr
        rw [hS.2 r (by rw [hS.1, sA]; exact hr0), fA r hr0,
          hv _ (by rw [hcs]; exact inShape_append hr ⟨hi, trivial⟩), coefs, coefs, tfilt_append]
        · refine tfilt_congr (es := []) h.good h.good rfl ?_ (by
            rw [csh_unitAxes]; simpa [coefsShape] using hr0)
          intro r' hr'
          exact hE.2 r' (by rw [hE.1, hslice, ← dsh_unitAxes]; exact hr')
        · have := inShape_length hr
          simpa [unitAxes, gridOf] using this
      · rw [if_neg hij]
        exact f1 r j (by omega) hr)
  refine ⟨C', e, by rw [s, hs], ?_⟩
  intro idx hi
  rw [s, hcs] at hi
  obtain ⟨r, j, rfl, h1, h2⟩ : ∃ r j, idx = r ++ [j] ∧
      InShape ((T.map (·.2.2)).map (· + 2)) r ∧ j < m := by
    generalize (T.map (·.2.2)).map (· + 2) = sh at hi
    induction sh generalizing idx with
    | nil =>
      obtain ⟨i, r, rfl, h1, h2⟩ := inShape_cons_iff.1 hi
      rw [inShape_nil_iff] at h2
      subst h2
      exact ⟨[], i, rfl, trivial, h1⟩
    | cons n sh ih =>
      cases idx with
      | nil => exact hi.elim
      | cons i idx =>
        obtain ⟨r, c, rfl, h1, h2⟩ := ih idx hi.2
        exact ⟨i :: r, c, rfl, ⟨hi.1, h1⟩, h2⟩
  exact f r j h2 h1

end exact

/-! ### k = 1 -/

section anyArith
variable {K : Type} [Add K] [Sub K] [Mul K] [Div K] [Neg K] [Zero K] [One K] [NatCast K]
  [IntCast K] [LT K] [DecidableLT K] [BEq K]

/-- C32, partial: `prefilter(grid, V, k=1)` returns the values themselves (any arithmetic, any grid
and values). Missing: with an `out` argument, `out` should receive the coefficients; it does not,
see `C32_prefilter_k1_fails`. -/
theorem C32_prefilter_k1_partial (G : List (GridDim K)) (V : NdArray K) :
    prefilter G V none 1 = .ok ⟨some V, none⟩ := rfl

/-- C32 is false with an `out` argument: `out` keeps its contents and the values are returned. -/
theorem C32_prefilter_k1_fails (G : List (GridDim K)) (V B : NdArray K) :
    prefilter G V (some B) 1 = .ok ⟨some V, some B⟩ := rfl

end anyArith

/-! ### Natural boundary conditions -/

/-- C20. For the spline obtained by filtering, the derivative that `eval_spline` returns (order `[1]`,
which is the derivative of the values by C25) has derivative zero at both ends of the axis. -/
theorem C20_natural_ends {a b : ℝ} {n : ℤ} {D C : NdArray ℝ} {vec : Bool} {m : ℕ}
    (h : FilterRequest [.uniform a b n] D vec m) (hC : FilterOutcome [.uniform a b n] D vec m C) :
    ∃ V, SplineFamily 3 [.uniform a b n] C vec m V ∧
      ∀ comp, InShape (if vec then [m] else []) comp →
        (∀ t, HasDerivAt (fun t => V [0] [t] comp) (V [1] [t] comp) t) ∧
        HasDerivWithinAt (fun t => V [1] [t] comp) 0 (Set.Icc a b) a ∧
        HasDerivWithinAt (fun t => V [1] [t] comp) 0 (Set.Icc a b) b := by
  obtain ⟨hs, hv⟩ := filterOutcome_spec h hC
  refine ⟨_, fam_spec (h.request hs), fun comp hc => ?_⟩
  have hval : ValidAxis (.uniform a b n) := h.grid.2 _ (by simp)
  have hn2 : 2 ≤ n := hval.2
  have hfam : ∀ l t, fam 3 [.uniform a b n] C [l] [t] comp
      = axisOp 3 l (.uniform a b n) t (fun j => C.get (j :: comp)) := by
    intro l t
    show evalAt 3 [.uniform a b n] (l :: []) (t :: []) _ = _
    rw [evalAt_cons]; simp [evalAt]
  -- natural line
  have hnat : NaturalLine n.toNat (fun j => C.get (j :: comp)) := by
    have := ((C31_filter_unique h hC C).2 ⟨rfl, fun _ _ => rfl⟩).2.2 comp hc [] n.toNat [] rfl [] []
      trivial trivial
    simpa using this
  have hsec : ∀ t (j : ℕ), t = node (.uniform a b n) j → j < n.toNat →
      C.get (j :: comp) - 2 * C.get ((j + 1) :: comp) + C.get ((j + 2) :: comp) = 0 →
      second a b n (fun j => C.get (j :: comp)) t = 0 := by
    intro t j ht hj h0
    rw [second, ht, lin1_node hval _ hj, h0, zero_mul]
  refine ⟨fun t => ?_, ?_, ?_⟩
  · simp only [hfam]
    exact hasDerivAt_axisOp_three hval _ t
  · have := hasDerivWithinAt_second hval (fun j => C.get (j :: comp)) a
    rw [hsec a 0 (by simp [node]) (by omega) hnat.1] at this
    simp only [hfam]
    exact this
  · have := hasDerivWithinAt_second hval (fun j => C.get (j :: comp)) b
    rw [hsec b (n.toNat - 1) ?_ (by omega) ?_] at this
    · simp only [hfam]
      exact this
    · have : last (.uniform a b n) = b := by rw [← hi_eq hval]; rfl
      exact this.symm
    · have := hnat.2
      rw [show n.toNat - 1 + 1 = n.toNat by omega, show n.toNat - 1 + 2 = n.toNat + 1 by omega]
      exact this

/-! ### The hypotheses are satisfiable -/

/-- Two-dimensional vector-valued data on a 5 × 3 grid. -/
example : FilterRequest (F := ℚ) [.uniform 0 4 5, .uniform (-1) 1 3]
    ⟨[5, 3, 2], fun idx => (idx.sum : ℚ) ^ 2⟩ true 2 where
  grid := ⟨by simp, by
    intro g hg
    simp only [List.mem_cons, List.not_mem_nil, or_false] at hg
    rcases hg with rfl | rfl <;> norm_num [ValidAxis]⟩
  uniform := by
    intro g hg
    simp only [List.mem_cons, List.not_mem_nil, or_false] at hg
    rcases hg with rfl | rfl <;> rfl
  dim := by simp
  shape := rfl

/-- The smallest grid, in dimension 1. -/
example : FilterRequest (F := ℝ) [.uniform 0 1 2] ⟨[2], fun idx => (idx.headD 0 : ℝ)⟩ false 0 where
  grid := ⟨by simp, by simp [ValidAxis]⟩
  uniform := by simp [GridDim.gtype]
  dim := by simp
  shape := rfl

end Interp.Props
