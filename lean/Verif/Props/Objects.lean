import Verif.Model.Objects
import Verif.Props.CubicFilter
import Verif.Props.LinearValues
import Verif.Props.Grids
import Verif.Props.CubicGradient
import Verif.Proofs.CubicNumba

/-!
# Spline objects interpolate on their grid (C75)

Exact arithmetic.  `T` lists the axes `(a, b, n)`.  "Value number `r`" is entry `r` of the values in
row-major order, `v.get (unravel v.shape r)`; with several components, component `j` of value number
`r` is entry `r * m + j`.
-/

set_option linter.unusedSectionVars false
set_option linter.unusedSimpArgs false

namespace Interp.Props
open Interp.Codegen Interp.Spec Interp.Ref Interp.Filter Interp.Objects

variable {F : Type} [Field F] [LinearOrder F] [IsStrictOrderedRing F] [FloorRing F]

/-- Legitimate axes. -/
def ValidAxes (T : List (F × F × ℕ)) : Prop := T ≠ [] ∧ ∀ t ∈ T, t.1 < t.2.1 ∧ 2 ≤ t.2.2

theorem ValidAxes.grid {T : List (F × F × ℕ)} (h : ValidAxes T) : ValidGrid (gridOf T) := by
  refine ⟨by simpa [gridOf] using h.1, ?_⟩
  intro g hg
  obtain ⟨t, ht, rfl⟩ := List.mem_map.mp hg
  have := h.2 t ht
  exact ⟨this.1, by omega⟩

theorem ValidAxes.pos {T : List (F × F × ℕ)} (h : ValidAxes T) : 0 < (T.map (·.2.2)).prod := by
  rw [Nat.pos_iff_ne_zero, Ne, List.prod_eq_zero_iff]
  intro h0
  obtain ⟨t, ht, e⟩ := List.mem_map.mp h0
  have := (h.2 t ht).2
  omega

theorem gridOf_uniform (T : List (F × F × ℕ)) : ∀ g ∈ gridOf T, g.gtype = .uniform := by
  intro g hg
  obtain ⟨t, ht, rfl⟩ := List.mem_map.mp hg
  rfl

theorem pyIndexNat_ok {α : Type} (l : List α) (i : ℕ) (h : i < l.length) :
    Cartesian.pyIndexNat l i = .ok l[i] := by
  simp [Cartesian.pyIndexNat, List.getElem?_eq_getElem h]

theorem gridTuple_ok (T : List (F × F × ℕ)) :
    gridTuple (T.map (·.1)) (T.map (·.2.1)) (T.map (·.2.2)) = .ok (gridOf T) := by
  rw [gridTuple, List.length_map]
  apply CubicNumba.mapM_range_listRead
  intro i hi
  rw [pyIndexNat_ok _ i (by simpa using hi), pyIndexNat_ok _ i (by simpa using hi),
    pyIndexNat_ok _ i (by simpa using hi)]
  simp

/-- The rows of `grid` for the cubic classes. -/
theorem cubic_grid (T : List (F × F × ℕ)) (h : ValidAxes T) :
    ∃ G, Cartesian.mlinspace (T.map (·.1)) (T.map (·.2.1))
        ((T.map (·.2.2)).map fun n : ℕ => (n : ℤ)) "C" = .ok G ∧
      G.shape = [(T.map (·.2.2)).prod, T.length] ∧
      ∀ r < (T.map (·.2.2)).prod, rowOf G r = nodeAt (gridOf T) (unravel (T.map (·.2.2)) r) := by
  obtain ⟨⟨A, h1, h2, h3⟩, _⟩ := C57_mlinspace (T.map (·.1)) (T.map (·.2.1))
    ((T.map (·.2.2)).map fun n : ℕ => (n : ℤ)) (by simp) (by simp) (by
      intro n hn
      simp only [List.map_map, List.mem_map] at hn
      obtain ⟨t, ht, rfl⟩ := hn
      have := (h.2 t ht).2
      simp only [Function.comp]; omega) (by simpa using h.1)
  have hs : ((T.map (·.2.2)).map fun n : ℕ => (n : ℤ)).map Int.toNat = T.map (·.2.2) := by
    simp [Function.comp_def]
  rw [hs] at h2 h3
  refine ⟨A, h1, by rw [h2]; simp, ?_⟩
  intro r hr
  have h4 := rowOf_of_rows h2 h3 hr
  rw [allIdx_eq_unravel, List.map_map, List.getElem?_map, List.getElem?_range hr] at h4
  simp only [Option.map_some, Function.comp, Option.some.injEq] at h4
  rw [← h4]
  have hl : (unravel (T.map (·.2.2)) r).length = T.length := by
    rw [unravel_length]; simp
  apply List.ext_getElem
  · simp [linPoint, nodeAt, hl, gridOf]
  · intro i h4 h5
    have hi : i < T.length := by simpa [linPoint] using h4
    have hi' : i < (unravel (T.map (·.2.2)) r).length := by omega
    simp [linPoint, nodeAt, node, hi, hi', gridOf]

theorem ravel_append : ∀ (sh idx : List ℕ) (m j : ℕ), idx.length = sh.length →
    ravel (sh ++ [m]) (idx ++ [j]) = ravel sh idx * m + j
  | [], [], m, j, _ => by simp [ravel]
  | n :: sh, i :: idx, m, j, h => by
    have ih := ravel_append sh idx m j (by simpa using h)
    simp only [List.cons_append, ravel, ih, List.prod_append, List.prod_cons, List.prod_nil]
    ring

/-- The array of values reshaped by `set_values`. -/
def reshaped (v : NdArray F) (sh : List ℕ) : NdArray F :=
  ⟨sh, fun idx => v.get (unravel v.shape (ravel sh idx))⟩

theorem reshape_ok (v : NdArray F) (sh : List ℕ) (h : v.shape.prod = sh.prod) :
    v.reshape sh = .ok (reshaped v sh) := by
  rw [NdArray.reshape, if_pos h]; rfl

theorem allFinite_true {fin : F → Bool} (hfin : ∀ t, fin t = true) (A : NdArray F) :
    allFinite fin A = true := by
  simp [allFinite, hfin]

theorem points_allFinite {fin : F → Bool} (hfin : ∀ t, fin t = true) (p : Points F) :
    Points.allFinite fin p = true := by
  cases p <;> simp [Points.allFinite, hfin]

theorem rowOf_length {G : NdArray F} {N d : ℕ} (h : G.shape = [N, d]) (r : ℕ) :
    (rowOf G r).length = d := by
  simp [rowOf, h]

theorem mem_rowsOf {G : NdArray F} {N d : ℕ} (h : G.shape = [N, d]) :
    (rowsOf G).length = N ∧ (∀ y ∈ rowsOf G, y.length = d) ∧
    ∀ r < N, (rowsOf G)[r]? = some (rowOf G r) := by
  refine ⟨by simp [rowsOf, h], ?_, ?_⟩
  · intro y hy
    obtain ⟨r, _, rfl⟩ := List.mem_map.mp hy
    exact rowOf_length h r
  · intro r hr
    simp [rowsOf, h, hr]

/-! ### `CubicSpline` -/

theorem cubicSpline_interp (fin : F → Bool) (hfin : ∀ t, fin t = true) (T : List (F × F × ℕ))
    (C : NdArray F) (values : Option (NdArray F)) (xs : List (List F))
    (hx : ∀ x ∈ xs, x.length = T.length) (garbage : List ℕ → F)
    (A : NdArray F) (hA : evalSpline (gridOf T) C (.rows xs)
      (some ⟨[xs.length], garbage⟩) 3 none "linear" = .ok ⟨.none, some A⟩) :
    (⟨T.map (·.1), T.map (·.2.1), T.map (·.2.2), values, some C⟩ : CubicSpline F).interpolate fin
      (.rows xs) none false garbage = .ok ⟨.array A, none⟩ := by
  have hlen : (∀ x ∈ xs, x.length = (T.map (·.1)).length) := by simpa using hx
  simp only [CubicSpline.interpolate, gridTuple_ok, points_allFinite hfin, ok_bind, if_false,
    Bool.false_eq_true, reduceCtorEq, not_true_eq_false, hlen, evalInto, Option.getD_none,
    (evalCubic_eq _ _ _ _ .linear).2.2.1, hA]
  simpa using hx

/-- C75 for `CubicSpline` (up to four axes; see `C26_five_fails` for more): built from any values of
the right size, called at the rows of its `grid` it returns the values, and called at row `r` alone
it returns value number `r`. -/
theorem C75_cubic_spline (fin : F → Bool) (hfin : ∀ t, fin t = true) (T : List (F × F × ℕ))
    (hT : ValidAxes T) (hd : T.length ≤ 4) (v : NdArray F)
    (hv : v.shape.prod = (T.map (·.2.2)).prod) :
    ∃ s G, CubicSpline.new fin (T.map (·.1)) (T.map (·.2.1)) (T.map (·.2.2)) (some v) = .ok s ∧
      s.grid = .ok G ∧ G.shape = [v.shape.prod, T.length] ∧
      ∀ garbage,
        (∃ A, s.call fin (.rows (rowsOf G)) garbage = .ok (.array A) ∧ A.shape = [v.shape.prod] ∧
          ∀ r < v.shape.prod, A.get [r] = v.get (unravel v.shape r)) ∧
        ∀ r < v.shape.prod,
          s.call fin (.point (rowOf G r)) garbage = .ok (.scalar (v.get (unravel v.shape r))) := by
  set D := reshaped v (T.map (·.2.2)) with hDdef
  have hreq : FilterRequest (gridOf T) D false 0 :=
    ⟨hT.grid, gridOf_uniform T, by simpa [gridOf] using hd, by
      rw [gridShape_gridOf]; simp [hDdef, reshaped]⟩
  obtain ⟨C0, e0, _, _⟩ := hreq.alloc
  obtain ⟨C, eC, hC⟩ := C27_old_filter_agrees_array T hreq (.alloc e0)
  have hnat := ((C31_filter_unique hreq (.alloc e0) C).2 hC).2.1
  obtain ⟨G, hG, hGs, hrow⟩ := cubic_grid T hT
  have hret : ∀ r < v.shape.prod, Returns 3 (gridOf T) C false 0 none "linear" (rowOf G r)
      (fun _ => v.get (unravel v.shape r)) := by
    intro r hr
    rw [hv] at hr
    rw [hrow r hr]
    refine (hnat (unravel (T.map (·.2.2)) r) (by
      rw [gridShape_gridOf]; exact unravel_inShape hr)).congr ?_
    intro tail ht
    have ht : tail = [] := inShape_nil_iff.1 ht
    subst ht
    simp only [List.append_nil, hDdef, reshaped, ravel_unravel hr]
  let s : CubicSpline F := ⟨T.map (·.1), T.map (·.2.1), T.map (·.2.2), some D, some C⟩
  refine ⟨s, G, ?_, hG, by rw [hv, hGs], ?_⟩
  · simp only [CubicSpline.new, CubicSpline.setValues, allFinite_true hfin, reshape_ok v _ hv,
      ← hDdef, eC]
    simp [s]
  · intro garbage
    rw [← hv] at hGs
    have hpos : 0 < v.shape.prod := hv ▸ hT.pos
    obtain ⟨m1, m2, m3⟩ := mem_rowsOf hGs
    constructor
    · obtain ⟨A, hA, hAs, _⟩ := (hret 0 hpos).rowsOut (rowsOf G)
        ⟨[(rowsOf G).length], garbage⟩ (by simpa [gridOf] using m2) rfl
      refine ⟨A, ?_, by rw [hAs, ← m1], ?_⟩
      · simp only [CubicSpline.call]
        rw [cubicSpline_interp fin hfin T C _ _ m2 garbage A hA]
        rfl
      · intro r hr
        obtain ⟨A', hA', _, h3⟩ := (hret r hr).rowsOut (rowsOf G)
          ⟨[(rowsOf G).length], garbage⟩ (by simpa [gridOf] using m2) rfl
        rw [hA] at hA'
        cases hA'
        exact h3 r (m3 r hr) [] trivial
    · intro r hr
      have hx : ∀ x ∈ [rowOf G r], x.length = T.length := by
        simpa using rowOf_length hGs r
      obtain ⟨A, hA, hAs, h3⟩ := (hret r hr).rowsOut [rowOf G r]
        ⟨[[rowOf G r].length], garbage⟩ (by simpa [gridOf] using hx) rfl
      simp only [CubicSpline.call]
      rw [cubicSpline_interp fin hfin T C _ _ hx garbage A hA, ok_bind]
      have hAs : A.shape = [1] := hAs
      simp only [firstEntry, hAs]
      rw [if_neg (by decide), h3 0 rfl [] trivial]
      rfl

/-! ### `CubicSplines` -/

theorem cubicSplines_interp (fin : F → Bool) (hfin : ∀ t, fin t = true) (T : List (F × F × ℕ))
    (C : NdArray F) (m : ℕ) (hm : C.shape.getLastD 0 = m) (values : Option (NdArray F))
    (xs : List (List F)) (hx : ∀ x ∈ xs, x.length = T.length) (garbage : List ℕ → F)
    (A : NdArray F) (hA : evalSpline (gridOf T) C (.rows xs)
      (some ⟨[xs.length, m], garbage⟩) 3 none "linear" = .ok ⟨.none, some A⟩) :
    (⟨T.map (·.1), T.map (·.2.1), T.map (·.2.2), values, some C⟩ : CubicSplines F).interpolate fin
      (.rows xs) garbage = .ok A := by
  have hlen : ¬ ¬ (∀ x ∈ xs, x.length = (T.map (·.1)).length) := by simpa using hx
  have hck : (⟨T.map (·.1), T.map (·.2.1), T.map (·.2.2), values, some C⟩ :
      CubicSplines F).checked fin (.rows xs) = .ok (xs, C) := by
    simp only [CubicSplines.checked]
    rw [if_neg hlen, points_allFinite hfin]
    rfl
  simp only [CubicSplines.interpolate, hck, ok_bind, gridTuple_ok, evalInto, hm,
    (evalCubic_eq _ _ _ _ .linear).2.2.1, hA]
  rfl

/-- The object built from the values. -/
theorem cubicSplines_new (fin : F → Bool) (hfin : ∀ t, fin t = true) (T : List (F × F × ℕ))
    (hT : ValidAxes T) (hd : T.length ≤ 4) (v : NdArray F) (sh : List ℕ) (m : ℕ)
    (hvs : v.shape = sh ++ [m]) (hv : sh.prod = (T.map (·.2.2)).prod) :
    ∃ C, CubicSplines.new fin (T.map (·.1)) (T.map (·.2.1)) (T.map (·.2.2)) (some v)
        = .ok ⟨T.map (·.1), T.map (·.2.1), T.map (·.2.2),
            some (reshaped v (T.map (·.2.2) ++ [m])), some C⟩ ∧
      IsNaturalInterpolant (gridOf T) (reshaped v (T.map (·.2.2) ++ [m])) true m C := by
  set D := reshaped v (T.map (·.2.2) ++ [m]) with hDdef
  have hvp : v.shape.prod = (T.map (·.2.2) ++ [m]).prod := by
    rw [hvs, List.prod_append, List.prod_append, hv]
  have hreq : FilterRequest (gridOf T) D true m :=
    ⟨hT.grid, gridOf_uniform T, by simpa [gridOf] using hd, by
      rw [gridShape_gridOf]; simp [hDdef, reshaped]⟩
  obtain ⟨C0, e0, _, _⟩ := hreq.alloc
  obtain ⟨C, eC, hC⟩ := C27_old_mfilter_agrees T D (m := m) (by simp [hDdef, reshaped])
    (fun i _ => by
      have := reshape_same (D.sliceLast i)
      rwa [show (D.sliceLast i).shape = T.map (·.2.2) by
        simp [hDdef, reshaped, NdArray.sliceLast]] at this) hreq (.alloc e0)
  refine ⟨C, ?_, (C31_filter_unique hreq (.alloc e0) C).2 hC⟩
  have hlast : v.shape.getLast? = some m := by rw [hvs]; simp
  simp only [CubicSplines.new, CubicSplines.setValues, hlast, reshape_ok v _ hvp, ← hDdef,
    allFinite_true hfin, eC]
  simp

/-- C75 for `CubicSplines`. -/
theorem C75_cubic_splines (fin : F → Bool) (hfin : ∀ t, fin t = true) (T : List (F × F × ℕ))
    (hT : ValidAxes T) (hd : T.length ≤ 4) (v : NdArray F) (sh : List ℕ) (m : ℕ)
    (hvs : v.shape = sh ++ [m]) (hv : sh.prod = (T.map (·.2.2)).prod) :
    ∃ s G, CubicSplines.new fin (T.map (·.1)) (T.map (·.2.1)) (T.map (·.2.2)) (some v) = .ok s ∧
      s.grid = .ok G ∧ G.shape = [sh.prod, T.length] ∧
      ∀ garbage,
        (∃ A, s.call fin (.rows (rowsOf G)) garbage = .ok A ∧ A.shape = [sh.prod, m] ∧
          ∀ r < sh.prod, ∀ j < m, A.get [r, j] = v.get (unravel v.shape (r * m + j))) ∧
        ∀ r < sh.prod, ∃ A, s.call fin (.point (rowOf G r)) garbage = .ok A ∧ A.shape = [m] ∧
          ∀ j < m, A.get [j] = v.get (unravel v.shape (r * m + j)) := by
  obtain ⟨C, hnew, hnat⟩ := cubicSplines_new fin hfin T hT hd v sh m hvs hv
  set D := reshaped v (T.map (·.2.2) ++ [m]) with hDdef
  have hm : C.shape.getLastD 0 = m := by rw [hnat.1, coefsShape]; simp
  obtain ⟨G, hG, hGs, hrow⟩ := cubic_grid T hT
  have hret : ∀ r < sh.prod, Returns 3 (gridOf T) C true m none "linear" (rowOf G r)
      (fun tail => v.get (unravel v.shape (r * m + tail.headD 0))) := by
    intro r hr
    rw [hv] at hr
    rw [hrow r hr]
    refine (hnat.2.1 (unravel (T.map (·.2.2)) r) (by
      rw [gridShape_gridOf]; exact unravel_inShape hr)).congr ?_
    intro tail ht
    match tail, ht with
    | [j], _ =>
      simp only [hDdef, reshaped, ravel_append _ _ m j (unravel_length _ _), ravel_unravel hr,
        List.headD_cons]
  let s : CubicSplines F := ⟨T.map (·.1), T.map (·.2.1), T.map (·.2.2), some D, some C⟩
  refine ⟨s, G, hnew, hG, by rw [hv, hGs], ?_⟩
  · intro garbage
    rw [← hv] at hGs
    have hpos : 0 < sh.prod := hv ▸ hT.pos
    obtain ⟨m1, m2, m3⟩ := mem_rowsOf hGs
    constructor
    · obtain ⟨A, hA, hAs, _⟩ := (hret 0 hpos).rowsOut (rowsOf G)
        ⟨[(rowsOf G).length, m], garbage⟩ (by simpa [gridOf] using m2) rfl
      refine ⟨A, ?_, by rw [hAs, ← m1], ?_⟩
      · simp only [CubicSplines.call]
        exact cubicSplines_interp fin hfin T C m hm _ _ m2 garbage A hA
      · intro r hr j hj
        obtain ⟨A', hA', _, h3⟩ := (hret r hr).rowsOut (rowsOf G)
          ⟨[(rowsOf G).length, m], garbage⟩ (by simpa [gridOf] using m2) rfl
        rw [hA] at hA'
        cases hA'
        exact h3 r (m3 r hr) [j] ⟨hj, trivial⟩
    · intro r hr
      have hx : ∀ x ∈ [rowOf G r], x.length = T.length := by
        simpa using rowOf_length hGs r
      obtain ⟨A, hA, hAs, h3⟩ := (hret r hr).rowsOut [rowOf G r]
        ⟨[[rowOf G r].length, m], garbage⟩ (by simpa [gridOf] using hx) rfl
      refine ⟨ravelAll A, ?_, ?_, ?_⟩
      · simp only [CubicSplines.call]
        rw [cubicSplines_interp fin hfin T C m hm _ _ hx garbage A hA]
        rfl
      · have hAs : A.shape = [1, m] := hAs
        simp [ravelAll, hAs]
      · intro j hj
        have hAs : A.shape = [1, m] := hAs
        have : unravel [1, m] j = [0, j] := by
          simp [unravel, Nat.div_eq_of_lt hj, Nat.mod_eq_of_lt hj]
        simp only [ravelAll, hAs, List.headD_cons, this]
        exact h3 0 rfl [j] ⟨hj, trivial⟩

/-- C26 for the class (partial in the same way): `interpolate(points, diff=True)` on an object built
from any values returns the numbers of `interpolate(points)` and, in entry `[i, q, k]` of the second
array, their derivative with respect to coordinate `q`, when this coordinate is within the grid. -/
theorem C26_cubic_splines_diff_partial (fin : ℝ → Bool) (hfin : ∀ t, fin t = true)
    (T : List (ℝ × ℝ × ℕ)) (hT : ValidAxes T) (hd : T.length ≤ 4) (v : NdArray ℝ) (sh : List ℕ)
    (m : ℕ) (hvs : v.shape = sh ++ [m]) (hv : sh.prod = (T.map (·.2.2)).prod) :
    ∃ s, CubicSplines.new fin (T.map (·.1)) (T.map (·.2.1)) (T.map (·.2.2)) (some v) = .ok s ∧
      ∃ V : List ℝ → ℕ → ℝ, ∀ xs, (∀ x ∈ xs, x.length = T.length) → ∀ garbage,
        ∃ A B D, s.interpolate fin (.rows xs) garbage = .ok A ∧
          s.interpolateDiff fin (.rows xs) garbage = .ok (B, D) ∧
          A.shape = [xs.length, m] ∧ B.shape = [xs.length, m] ∧
          D.shape = [xs.length, T.length, m] ∧
          ∀ i x, xs[i]? = some x → ∀ k < m, A.get [i, k] = V x k ∧ B.get [i, k] = V x k ∧
            ∀ q a b n t, T[q]? = some (a, b, n) → x[q]? = some t → a ≤ t → t ≤ b →
              HasDerivAt (fun t => V (x.set q t) k) (D.get [i, q, k]) t := by
  obtain ⟨C, hnew, hnat⟩ := cubicSplines_new fin hfin T hT hd v sh m hvs hv
  have hm : C.shape.getLastD 0 = m := by rw [hnat.1, coefsShape]; simp
  refine ⟨_, hnew, ?_⟩
  set T' : List (ℝ × ℝ × ℤ) := T.map fun t => (t.1, t.2.1, (t.2.2 : ℤ)) with hT'
  have hg : CubicNumba.gridZ T' = gridOf T := by
    simp [CubicNumba.gridZ, gridOf, hT', Function.comp_def]
  have hreq : Request 3 (CubicNumba.gridZ T') C true m none := by
    rw [hg]
    exact ⟨hT.grid, hnat.1, Or.inr ⟨rfl, gridOf_uniform T⟩, fun os h => by cases h⟩
  have ea : T'.map (·.1) = T.map (·.1) := by simp [hT', Function.comp_def]
  have eb : T'.map (·.2.1) = T.map (·.2.1) := by simp [hT', Function.comp_def]
  have en : T'.map (·.2.2) = (T.map (·.2.2)).map fun n : ℕ => (n : ℤ) := by
    simp [hT', Function.comp_def]
  have hl : T'.length = T.length := by simp [hT']
  have hval := (fam_spec hreq).value
  set W := fam 3 (CubicNumba.gridZ T') C (List.replicate (CubicNumba.gridZ T').length 0) with hW
  have hgl : (CubicNumba.gridZ T').length = T.length := by simp [hg, gridOf]
  refine ⟨fun x k => W x [k], ?_⟩
  intro xs hx garbage
  obtain ⟨V, B, D, hV, hG, hBs, hDs, hall⟩ := C26_gradient_partial hreq (by omega) xs
    (by rw [hl]; exact hx) (some ⟨[xs.length, m], garbage⟩)
    (some ⟨[xs.length, T'.length, m], garbage⟩) garbage
    (fun B hB => by cases hB; rfl) (fun B hB => by cases hB; rfl)
  have hVW : ∀ x k, x.length = T.length → k < m → V x [k] = W x [k] := by
    intro x k hx hk
    exact Returns.unique (by rw [hgl, hx]) (hV x (by rw [hl, hx])) (hval x (by rw [hgl, hx])) [k]
      ⟨hk, trivial⟩
  obtain ⟨A, hA, hAs, _⟩ := (hval (List.replicate T.length 0) (by simp [hgl])).rowsOut xs
    ⟨[xs.length, m], garbage⟩ (by rw [hgl]; exact hx) rfl
  refine ⟨A, B, D, ?_, ?_, hAs, hBs, by rw [hDs, hl], ?_⟩
  · exact cubicSplines_interp fin hfin T C m hm _ xs hx garbage A (by rw [← hg]; exact hA)
  · have hlen : ¬ ¬ (∀ x ∈ xs, x.length = (T.map (·.1)).length) := by simpa using hx
    simp only [CubicSplines.interpolateDiff, CubicSplines.checked]
    rw [if_neg hlen, points_allFinite hfin]
    simp only [Bool.true_eq_false, if_false, pure_eq_ok, ok_bind, hm, ← ea, ← eb, ← en,
      List.length_map]
    exact hG
  · intro i x hi k hk
    have hxl : x.length = T.length := hx x (List.mem_of_getElem? hi)
    obtain ⟨A', hA', _, h3⟩ := (hval x (by rw [hgl, hxl])).rowsOut xs
      ⟨[xs.length, m], garbage⟩ (by rw [hgl]; exact hx) rfl
    rw [hA] at hA'
    cases hA'
    obtain ⟨r1, r2⟩ := hall i x hi k hk
    refine ⟨h3 i hi [k] ⟨hk, trivial⟩, by rw [r1, hVW x k hxl hk], ?_⟩
    intro q a b n t hq ht h1 h2
    have hmem : (a, b, n) ∈ T := List.mem_of_getElem? hq
    have := r2 q t ht (by
      intro g hg'
      rw [hg, gridOf, List.getElem?_map, hq] at hg'
      simp only [Option.map_some, Option.some.injEq] at hg'
      subst hg'
      have hn : 2 ≤ n := (hT.2 _ hmem).2
      refine ⟨by simpa [first, node] using h1, ?_⟩
      have hne : (n : ℝ) - 1 ≠ 0 := by
        have : (2 : ℝ) ≤ (n : ℝ) := by exact_mod_cast hn
        linarith
      have hc : ((n - 1 : ℕ) : ℝ) = (n : ℝ) - 1 := by
        rw [Nat.cast_sub (by omega)]; simp
      have : last (.uniform a b (n : ℤ)) = b := by
        simp only [last, node, nNodes, Int.toNat_natCast, hc, Int.cast_natCast]
        field_simp; ring
      rw [this]; exact h2)
    have hfun : (fun t => V (x.set q t) [k]) = fun t => W (x.set q t) [k] := by
      funext t
      exact hVW _ k (by simpa using hxl) hk
    rw [hfun] at this
    exact this

/-! ### `LinearSpline` and `LinearSplines` -/

/-- Column `c` of a matrix. -/
def colOf (A : NdArray F) (c : ℕ) : List F :=
  (List.range (A.shape.getD 0 0)).map fun i => A.get [i, c]

/-- The columns of a matrix (the rows of its transpose). -/
def colsOf (A : NdArray F) : List (List F) := (List.range (A.shape.getD 1 0)).map (colOf A)

theorem colOf_length {G : NdArray F} {N d : ℕ} (h : G.shape = [d, N]) (r : ℕ) :
    (colOf G r).length = d := by
  simp [colOf, h]

theorem mem_colsOf {G : NdArray F} {N d : ℕ} (h : G.shape = [d, N]) :
    (colsOf G).length = N ∧ (∀ y ∈ colsOf G, y.length = d) ∧
    ∀ r < N, (colsOf G)[r]? = some (colOf G r) := by
  refine ⟨by simp [colsOf, h], ?_, ?_⟩
  · intro y hy
    obtain ⟨r, _, rfl⟩ := List.mem_map.mp hy
    exact colOf_length h r
  · intro r hr
    simp [colsOf, h, hr]

theorem inShape_getElem : ∀ {sh idx : List ℕ} (_ : InShape sh idx) (i : ℕ) (h : i < idx.length)
    (h' : i < sh.length), idx[i] < sh[i]
  | n :: sh, k :: idx, h, 0, _, _ => h.1
  | n :: sh, k :: idx, h, i + 1, h1, h2 =>
    inShape_getElem h.2 i (by simpa using h1) (by simpa using h2)

/-- The nodes of an axis. -/
def axNodes (t : F × F × ℕ) : List F :=
  (List.range t.2.2).map fun j : ℕ => node (.uniform t.1 t.2.1 (t.2.2 : ℤ)) j

/-- The columns of `grid` for the linear classes. -/
theorem linear_grid (T : List (F × F × ℕ)) (h : ValidAxes T) (hd : 2 ≤ T.length) :
    ∃ G, mlinspaceColumns (T.map (·.1)) (T.map (·.2.1)) (T.map (·.2.2)) = .ok G ∧
      G.shape = [T.length, (T.map (·.2.2)).prod] ∧
      ∀ r < (T.map (·.2.2)).prod, colOf G r = nodeAt (gridOf T) (unravel (T.map (·.2.2)) r) := by
  have hsh : (T.map axNodes).map List.length = T.map (·.2.2) := by
    simp [Function.comp_def, axNodes]
  refine ⟨meshRows (T.map axNodes), ?_, ?_, ?_⟩
  · rw [mlinspaceColumns, if_neg (by rw [List.length_map]; omega),
      if_neg (by rw [List.length_map]; omega)]
    simp only [pure_eq_ok, ok_bind]
    rw [List.length_map, CubicNumba.mapM_range_listRead]
    · rfl
    · intro i hi
      rw [pyIndexNat_ok _ i (by simpa using hi), pyIndexNat_ok _ i (by simpa using hi),
        pyIndexNat_ok _ i (by simpa using hi)]
      have := (h.2 _ (List.getElem_mem hi)).2
      simp only [ok_bind, List.getElem_map]
      rw [linspace_exact _ _ _ (by omega)]
      simp [node, axNodes]
  · simp only [meshRows, hsh, List.length_map]
  · intro r hr
    have hl : (unravel (T.map (·.2.2)) r).length = T.length := by
      rw [unravel_length]; simp
    have hin := unravel_inShape hr
    apply List.ext_getElem
    · simp [colOf, meshRows, nodeAt, hl, gridOf]
    · intro i h4 h5
      have hi : i < T.length := by simpa [colOf, meshRows] using h4
      have hi' : i < (unravel (T.map (·.2.2)) r).length := by omega
      have hlt : (unravel (T.map (·.2.2)) r)[i] < T[i].2.2 := by
        have := inShape_getElem hin i hi' (by simpa using hi)
        simpa using this
      simp only [colOf, meshRows, hsh, List.getElem_map, List.getElem_range, List.getD_cons_zero,
        List.getD_cons_succ, nodeAt, gridOf, List.getElem_zipWith]
      rw [List.getD_eq_getElem (T.map axNodes) _ (by simpa using hi),
        List.getD_eq_getElem (unravel _ _) _ hi', List.getElem_map, List.getD_eq_getElem _ _ (by simpa [axNodes] using hlt)]
      simp [axNodes]

theorem linear_request (T : List (F × F × ℕ)) (h : ValidAxes T) (D : NdArray F) (vec : Bool)
    (m : ℕ) (hs : D.shape = T.map (·.2.2) ++ (if vec then [m] else [])) :
    Request 1 (gridOf T) D vec m none :=
  ⟨h.grid, by rw [hs]; congr 1; simp [gridOf, nNodes, Function.comp_def], Or.inl rfl,
    fun os h => by cases h⟩

/-- C75 for `LinearSpline`, partial: any number of axes from two on, the points being the COLUMNS of
`grid`.  What is missing (`C75_linear_grid_fails`): the points are not the rows of `grid`, contrary
to the other classes, and with one axis `grid` raises. -/
theorem C75_linear_spline_partial (T : List (F × F × ℕ)) (hT : ValidAxes T) (hd : 2 ≤ T.length)
    (v : NdArray F) (hv : v.shape.prod = (T.map (·.2.2)).prod) :
    ∃ s G, LinearSpline.new (T.map (·.1)) (T.map (·.2.1)) (T.map (·.2.2)) (some v) = .ok s ∧
      s.grid = .ok G ∧ G.shape = [T.length, v.shape.prod] ∧
      (∃ A, s.call (.rows (colsOf G)) = .ok (.array A) ∧ A.shape = [v.shape.prod] ∧
        ∀ r < v.shape.prod, A.get [r] = v.get (unravel v.shape r)) ∧
      ∀ r < v.shape.prod,
        s.call (.point (colOf G r)) = .ok (.scalar (v.get (unravel v.shape r))) := by
  set D := reshaped v (T.map (·.2.2)) with hDdef
  have hreq : Request 1 (gridOf T) D false 0 none := linear_request T hT D false 0 (by
    simp [hDdef, reshaped])
  obtain ⟨G, hG, hGs, hcol⟩ := linear_grid T hT hd
  have hret : ∀ r < v.shape.prod, Returns 1 (gridOf T) D false 0 none "linear" (colOf G r)
      (fun _ => v.get (unravel v.shape r)) := by
    intro r hr
    rw [hv] at hr
    rw [hcol r hr]
    refine (C01_linear_interpolates hreq "linear" (unravel (T.map (·.2.2)) r) (by
      rw [gridShape_gridOf]; exact unravel_inShape hr)).congr ?_
    intro tail ht
    have ht : tail = [] := inShape_nil_iff.1 ht
    subst ht
    simp only [List.append_nil, hDdef, reshaped, ravel_unravel hr]
  let s : LinearSpline F := ⟨T.map (·.1), T.map (·.2.1), T.map (·.2.2), some D⟩
  have hint : ∀ xs A, evalSpline (gridOf T) D (.rows xs) none 1 none "linear"
      = .ok ⟨.array A, none⟩ → s.interpolate (.rows xs) = .ok (.array A) := by
    intro xs A hA
    simp only [LinearSpline.interpolate, s, gridTuple_ok, ok_bind,
      (evalLinear_eq _ _ _ D .linear).1, hA]
    rfl
  refine ⟨s, G, ?_, hG, by rw [hv, hGs], ?_⟩
  · simp only [LinearSpline.new, LinearSpline.setValues, reshape_ok v _ hv, ← hDdef]
    simp [s]
  · rw [← hv] at hGs
    have hpos : 0 < v.shape.prod := hv ▸ hT.pos
    obtain ⟨m1, m2, m3⟩ := mem_colsOf hGs
    constructor
    · obtain ⟨A, hA, hAs, _⟩ := (hret 0 hpos).rows (colsOf G) (by simpa [gridOf] using m2)
      refine ⟨A, ?_, by rw [hAs, m1]; rfl, ?_⟩
      · simp only [LinearSpline.call]
        exact hint _ _ hA
      · intro r hr
        obtain ⟨A', hA', _, h3⟩ := (hret r hr).rows (colsOf G) (by simpa [gridOf] using m2)
        rw [hA] at hA'
        cases hA'
        exact h3 r (m3 r hr) [] trivial
    · intro r hr
      have hx : ∀ x ∈ [colOf G r], x.length = T.length := by
        simpa using colOf_length hGs r
      obtain ⟨A, hA, hAs, h3⟩ := (hret r hr).rows [colOf G r] (by simpa [gridOf] using hx)
      simp only [LinearSpline.call]
      rw [hint _ _ hA, ok_bind]
      have hAs : A.shape = [1] := hAs
      simp only [firstEntry, hAs]
      rw [if_neg (by decide), h3 0 rfl [] trivial]
      rfl

/-- C75 for `LinearSplines`, partial in the same way. -/
theorem C75_linear_splines_partial (T : List (F × F × ℕ)) (hT : ValidAxes T) (hd : 2 ≤ T.length)
    (v : NdArray F) (sh : List ℕ) (m : ℕ) (hvs : v.shape = sh ++ [m])
    (hv : sh.prod = (T.map (·.2.2)).prod) :
    ∃ s G, LinearSplines.new (T.map (·.1)) (T.map (·.2.1)) (T.map (·.2.2)) (some v) = .ok s ∧
      s.grid = .ok G ∧ G.shape = [T.length, sh.prod] ∧
      (∃ A, s.call (.rows (colsOf G)) = .ok (.array A) ∧ A.shape = [sh.prod, m] ∧
        ∀ r < sh.prod, ∀ j < m, A.get [r, j] = v.get (unravel v.shape (r * m + j))) ∧
      ∀ r < sh.prod, ∃ A, s.call (.point (colOf G r)) = .ok (.array A) ∧ A.shape = [m] ∧
        ∀ j < m, A.get [j] = v.get (unravel v.shape (r * m + j)) := by
  set D := reshaped v (T.map (·.2.2) ++ [m]) with hDdef
  have hvp : v.shape.prod = (T.map (·.2.2) ++ [m]).prod := by
    rw [hvs, List.prod_append, List.prod_append, hv]
  have hreq : Request 1 (gridOf T) D true m none := linear_request T hT D true m (by
    simp [hDdef, reshaped])
  obtain ⟨G, hG, hGs, hcol⟩ := linear_grid T hT hd
  have hret : ∀ r < sh.prod, Returns 1 (gridOf T) D true m none "linear" (colOf G r)
      (fun tail => v.get (unravel v.shape (r * m + tail.headD 0))) := by
    intro r hr
    rw [hv] at hr
    rw [hcol r hr]
    refine (C01_linear_interpolates hreq "linear" (unravel (T.map (·.2.2)) r) (by
      rw [gridShape_gridOf]; exact unravel_inShape hr)).congr ?_
    intro tail ht
    match tail, ht with
    | [j], _ =>
      simp only [hDdef, reshaped, ravel_append _ _ m j (unravel_length _ _), ravel_unravel hr,
        List.headD_cons]
  let s : LinearSplines F := ⟨T.map (·.1), T.map (·.2.1), T.map (·.2.2), some D⟩
  have hint : ∀ xs A, evalSpline (gridOf T) D (.rows xs) none 1 none "linear"
      = .ok ⟨.array A, none⟩ → s.interpolate (.rows xs) = .ok (.array A) := by
    intro xs A hA
    simp only [LinearSplines.interpolate, s, gridTuple_ok, ok_bind,
      (evalLinear_eq _ _ _ D .linear).1, hA]
    rfl
  refine ⟨s, G, ?_, hG, by rw [hv, hGs], ?_⟩
  · have hlast : v.shape.getLast? = some m := by rw [hvs]; simp
    simp only [LinearSplines.new, LinearSplines.setValues, hlast, reshape_ok v _ hvp, ← hDdef]
    simp [s]
  · rw [← hv] at hGs
    have hpos : 0 < sh.prod := hv ▸ hT.pos
    obtain ⟨m1, m2, m3⟩ := mem_colsOf hGs
    constructor
    · obtain ⟨A, hA, hAs, _⟩ := (hret 0 hpos).rows (colsOf G) (by simpa [gridOf] using m2)
      refine ⟨A, ?_, by rw [hAs, m1]; rfl, ?_⟩
      · simp only [LinearSplines.call]
        exact hint _ _ hA
      · intro r hr j hj
        obtain ⟨A', hA', _, h3⟩ := (hret r hr).rows (colsOf G) (by simpa [gridOf] using m2)
        rw [hA] at hA'
        cases hA'
        exact h3 r (m3 r hr) [j] ⟨hj, trivial⟩
    · intro r hr
      have hx : ∀ x ∈ [colOf G r], x.length = T.length := by
        simpa using colOf_length hGs r
      obtain ⟨A, hA, hAs, h3⟩ := (hret r hr).rows [colOf G r] (by simpa [gridOf] using hx)
      have hAs : A.shape = [1, m] := hAs
      refine ⟨ravelAll A, ?_, by simp [ravelAll, hAs], ?_⟩
      · simp only [LinearSplines.call]
        rw [hint _ _ hA]
        rfl
      · intro j hj
        have : unravel [1, m] j = [0, j] := by
          simp [unravel, Nat.div_eq_of_lt hj, Nat.mod_eq_of_lt hj]
        simp only [ravelAll, hAs, List.headD_cons, this]
        exact h3 0 rfl [j] ⟨hj, trivial⟩

/-- C75 fails for the linear classes: with one axis `grid` raises, and with several it does not have
one row per value, whatever the spline. -/
theorem C75_linear_grid_fails (T : List (F × F × ℕ)) (hT : ValidAxes T)
    (s : LinearSpline F) (s' : LinearSplines F)
    (hs : s.smin = T.map (·.1) ∧ s.smax = T.map (·.2.1) ∧ s.orders = T.map (·.2.2))
    (hs' : s'.smin = T.map (·.1) ∧ s'.smax = T.map (·.2.1) ∧ s'.orders = T.map (·.2.2)) :
    (T.length = 1 → s.grid = .error .typeErr ∧ s'.grid = .error .typeErr) ∧
    (2 ≤ T.length → ∃ G, s.grid = .ok G ∧ s'.grid = .ok G ∧
      (rowsOf G).length < (T.map (·.2.2)).prod) := by
  have e : s.grid = mlinspaceColumns (T.map (·.1)) (T.map (·.2.1)) (T.map (·.2.2)) := by
    rw [LinearSpline.grid, hs.1, hs.2.1, hs.2.2]
  have e' : s'.grid = mlinspaceColumns (T.map (·.1)) (T.map (·.2.1)) (T.map (·.2.2)) := by
    rw [LinearSplines.grid, hs'.1, hs'.2.1, hs'.2.2]
  rw [e, e']
  constructor
  · intro h1
    rw [mlinspaceColumns, if_pos (by simpa using h1)]
    exact ⟨rfl, rfl⟩
  · intro h2
    obtain ⟨G, hG, hGs, hcol⟩ := linear_grid T hT h2
    clear hcol
    refine ⟨G, hG, hG, ?_⟩
    have hl : (rowsOf G).length = T.length := by simp [rowsOf, hGs]
    rw [hl]
    have h2' := hT.2
    clear hG hGs hl hs hs' e e' h2 hT
    have : 2 ^ T.length ≤ (T.map (·.2.2)).prod := by
      clear G s s'
      induction T with
      | nil => simp
      | cons t T ih =>
        rw [List.map_cons, List.prod_cons, List.length_cons, pow_succ, mul_comm]
        exact Nat.mul_le_mul (h2' t (by simp)).2 (ih fun t ht => h2' t (by simp [ht]))
    exact lt_of_lt_of_le Nat.lt_two_pow_self this

/-! ### A case -/

/-- Axes `[0, 1]` with 2 nodes and `[0, 3]` with 4 nodes, values `0, ..., 7` given flat. -/
example : ValidAxes ([(0, 1, 2), (0, 3, 4)] : List (ℚ × ℚ × ℕ)) ∧
    (⟨[8], fun idx => ((idx.headD 0 : ℕ) : ℚ)⟩ : NdArray ℚ).shape.prod
      = (([(0, 1, 2), (0, 3, 4)] : List (ℚ × ℚ × ℕ)).map (·.2.2)).prod := by
  refine ⟨⟨by simp, ?_⟩, rfl⟩
  intro t ht
  simp only [List.mem_cons, List.not_mem_nil, or_false] at ht
  rcases ht with rfl | rfl <;> norm_num

end Interp.Props
