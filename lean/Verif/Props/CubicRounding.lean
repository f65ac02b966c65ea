import Verif.Proofs.CubicRoundingNd
import Verif.Proofs.FilterRoundingNd
import Verif.Props.Rounding
import Verif.Props.CubicFilter

/-!
# Cubic splines computed with rounding: C102, C103

The models of `filter_cubic`, `prefilter` and `eval_spline` are run on `Fl R`, where every operation
is rounded (`Verif.Spec.Rounding`).
-/

set_option linter.unusedSectionVars false

namespace Interp.Props
open Interp.Codegen Interp.Spec Interp.Ref Interp.Filter

variable {R : Rounding} {G : List (GridDim (Fl R))} {D C' : NdArray (Fl R)} {C : NdArray ℝ}
  {vec : Bool} {m : ℕ}

theorem nNodes_exact (g : GridDim (Fl R)) : nNodes (exactAxis g) = nNodes g := by
  cases g with
  | uniform a b n => rfl
  | array gc => simp [exactAxis, nNodes]

theorem coefsShape_exact (G : List (GridDim (Fl R))) (vec : Bool) (m : ℕ) :
    coefsShape (G.map exactAxis) vec m = coefsShape G vec m := by
  simp [coefsShape, nNodes_exact, Function.comp_def]

/-- C102. Filtering with rounding always succeeds, whatever the way; the computed coefficients differ
from those of exact arithmetic by at most `((5 + 540 u)^d - 5^d) M` in dimension `d`, where `M` bounds
the data.  The bound does not depend on the number of nodes: the recursions of the solver damp errors.
(`u ≤ 1/1000` is required; for doubles `u = 2⁻⁵³`.) -/
theorem C102_filter_rounding (hu : R.u ≤ 1 / 1000)
    (h : FilterRequest (G.map exactAxis) (exactArray D) vec m) :
    ((∃ A, filterCubic G D = .ok A) ∧
      ∀ B : NdArray (Fl R), B.shape = coefsShape G vec m → ∃ A, filterInto G D B = .ok A) ∧
    (FilterOutcome G D vec m C' → FilterOutcome (G.map exactAxis) (exactArray D) vec m C →
      C'.shape = coefsShape G vec m ∧
      ∀ comp M, InShape (if vec then [m] else []) comp →
        (∀ idx, InShape (gridShape G) idx → |(D.get (idx ++ comp)).val| ≤ M) →
        ∀ idx, InShape (G.map fun g => nNodes g + 2) idx →
          |(C'.get (idx ++ comp)).val - C.get (idx ++ comp)|
            ≤ ((5 + 540 * R.u) ^ G.length - 5 ^ G.length) * M) := by
  have hsh := coefsShape_exact G vec m
  have hgs : gridShape (G.map exactAxis) = gridShape G := by
    simp [gridShape, nNodes_exact, Function.comp_def]
  have hcs : ((G.map exactAxis).map fun g => nNodes g + 2) = G.map fun g => nNodes g + 2 := by
    simp [nNodes_exact, Function.comp_def]
  have into := fun B hB => filter_fl (G := G) (D := D) (vec := vec) (m := m) hu h B (by rw [hsh]; exact hB)
  obtain ⟨A0, f0, s0, a0, c0⟩ := into (.zeros (coefsShape G vec m)) rfl
  rw [hsh] at a0
  refine ⟨⟨⟨A0, by rw [a0, f0]⟩, fun B hB => ?_⟩, fun hC' hC => ?_⟩
  · obtain ⟨A, f, -⟩ := into B hB
    exact ⟨A, f⟩
  obtain ⟨-, hv⟩ := filterOutcome_spec h hC
  have fin : ∀ B, B.shape = coefsShape G vec m → filterInto G D B = .ok C' →
      C'.shape = coefsShape G vec m ∧
      ∀ comp M, InShape (if vec then [m] else []) comp →
        (∀ idx, InShape (gridShape G) idx → |(D.get (idx ++ comp)).val| ≤ M) →
        ∀ idx, InShape (G.map fun g => nNodes g + 2) idx →
          |(C'.get (idx ++ comp)).val - C.get (idx ++ comp)|
            ≤ ((5 + 540 * R.u) ^ G.length - 5 ^ G.length) * M := by
    intro B hB e
    obtain ⟨A, f, s, -, c⟩ := into B hB
    rw [f] at e
    injection e with e
    subst e
    refine ⟨s.trans hsh, fun comp M hcomp hM idx hidx => ?_⟩
    rw [hv _ (by rw [coefsShape, hcs]; exact inShape_append hidx hcomp)]
    exact c comp M hcomp (by rw [hgs]; exact hM) idx (by rw [hcs]; exact hidx)
  cases hC' with
  | alloc h' => exact fin _ rfl (by rw [← a0]; exact h')
  | inplace B hB h' => exact fin B hB h'
  | prefilter h' =>
    simp only [Filter.prefilter] at h'
    rw [if_neg (by norm_num), if_pos trivial, a0, f0] at h'
    simp only [bind, Except.bind, pure, Except.pure, Except.ok.injEq, PrefilterOutcome.mk.injEq,
      Option.some.injEq, and_true] at h'
    exact fin _ rfl (by rw [f0, h'])
  | prefilterOut B hB h' =>
    obtain ⟨A, f, -⟩ := into B hB
    simp only [Filter.prefilter] at h'
    rw [if_neg (by norm_num), if_pos trivial, f] at h'
    simp only [bind, Except.bind, pure, Except.pure, Except.ok.injEq, PrefilterOutcome.mk.injEq,
      Option.some.injEq, true_and] at h'
    exact fin B hB (by rw [f, h'])

/-- Extrapolation modes: bounds on the grid carry over. -/
theorem evalMode_close (k : ℕ) (hG : ∀ g ∈ G.map exactAxis, ValidAxis g) (mode : String)
    (x : List (Fl R)) (hx : x.length = G.length)
    (hmode : InBox (G.map exactAxis) (x.map Fl.val) ∨ mode = "nearest" ∨ mode = "constant")
    (c' : List ℕ → Fl R) (c : List ℕ → ℝ) (B : ℝ) (hB : 0 ≤ B)
    (key : ∀ y : List (Fl R), InBox (G.map exactAxis) (y.map Fl.val) →
      |(evalAt k G (List.replicate G.length 0) y c').val
        - evalAt k (G.map exactAxis) (List.replicate (G.map exactAxis).length 0) (y.map Fl.val) c| ≤ B) :
    |(evalMode k mode G (List.replicate G.length 0) x c').val
      - evalMode k mode (G.map exactAxis) (List.replicate (G.map exactAxis).length 0) (x.map Fl.val) c|
        ≤ B := by
  unfold evalMode
  rw [outside_val, ← clamp_val]
  by_cases hn : mode = "nearest"
  · simp only [hn, if_true]
    apply key
    rw [clamp_val, zipWith_clamp _ _ hG]
    exact projBox_inBox _ _ hG (by simpa using hx)
  · simp only [hn, if_false]
    by_cases hc : mode = "constant"
    · simp only [hc, if_true]
      rcases ho : (List.zipWith isOutside (G.map exactAxis) (x.map Fl.val)).any id with _ | _
      · simp only [Bool.false_eq_true, if_false]
        exact key x ((any_outside_iff _ _ hG (by simpa using hx)).1 ho)
      · simp only [if_true]
        simpa [Fl.zero_val] using hB
    · simp only [hc, if_false]
      refine key x ?_
      rcases hmode with h' | h' | h'
      · exact h'
      · exact (hn h').elim
      · exact (hc h').elim

theorem rowEntry_fl (k : ℕ) (mode : String) (G : List (GridDim (Fl R))) (C : NdArray (Fl R)) (vec : Bool)
    (m : ℕ) (x : List (Fl R)) (tail : List ℕ) (ht : InShape (tailShape vec m none) tail) :
    rowEntry k mode G C vec none x tail
      = evalMode k mode G (List.replicate G.length 0) x (fun r => C.get (r ++ tail)) := by
  cases vec with
  | false =>
    have : tail = [] := by rw [← inShape_nil_iff]; exact ht
    subst this; rfl
  | true =>
    obtain ⟨i, rfl⟩ : ∃ i, tail = [i] := by
      match tail, ht with
      | [i], _ => exact ⟨i, rfl⟩
    rfl

theorem coefShape_origin : ∀ (G : List (GridDim ℝ)), InShape (coefShape 3 G) (G.map fun _ => 0)
  | [] => trivial
  | g :: G => ⟨show 0 < nNodes g + 2 by omega, coefShape_origin G⟩

/-- C103. Evaluation: on the grid (in every mode), and everywhere in modes nearest and constant, the
computed values of a cubic spline with given coefficients differ from those of exact arithmetic by at
most `(∏ (1 + eᵢ) - 1) M`, where `M` bounds the coefficients and `eᵢ = 90 nᵢ u` for an axis with `nᵢ`
nodes.  (`eᵢ ≤ 1/2` is required.) -/
theorem C103_cubic_rounding {C : NdArray (Fl R)}
    (h : Request 3 (G.map exactAxis) (exactArray C) vec m none)
    (hs : ∀ g ∈ G, cubicErr R (exactAxis g) ≤ 1 / 2) (mode : String) (x : List (Fl R))
    (hx : x.length = G.length)
    (hmode : InBox (G.map exactAxis) (x.map Fl.val) ∨ mode = "nearest" ∨ mode = "constant")
    (M : List ℕ → ℝ)
    (hM : ∀ idx tail, InShape (G.map fun g => nNodes g + 2) idx →
      InShape (tailShape vec m none) tail → |(C.get (idx ++ tail)).val| ≤ M tail) :
    ∃ E E', Returns 3 (G.map exactAxis) (exactArray C) vec m none mode (x.map Fl.val) E ∧
      Returns 3 G C vec m none mode x E' ∧
      ∀ tail, InShape (tailShape vec m none) tail →
        |(E' tail).val - E tail| ≤ ((G.map fun g => 1 + cubicErr R (exactAxis g)).prod - 1) * M tail := by
  have hG : ∀ g ∈ G, ValidAxis (exactAxis g) := fun g hg => h.grid.2 _ (List.mem_map_of_mem hg)
  have hun : ∀ g ∈ G, (exactAxis g).gtype = .uniform := by
    rcases h.degree with h' | ⟨-, h'⟩
    · norm_num at h'
    · exact fun g hg => h' _ (List.mem_map_of_mem hg)
  obtain ⟨g0, hg0⟩ := List.exists_mem_of_ne_nil G (by simpa using h.grid.1)
  have hu0 := Rounding.u_nonneg R
  have hu : R.u < 1 := by
    have h1 := hs g0 hg0
    have h2 : (2 : ℝ) ≤ nNodes (exactAxis g0) := by exact_mod_cast ValidAxis.two_le (hG g0 hg0)
    unfold cubicErr at h1
    nlinarith
  have hcs : coefShape 3 (G.map exactAxis) = G.map fun g => nNodes g + 2 := by
    simp [coefShape, nNodes_exact, Function.comp_def, nCoef]
  refine ⟨_, _, h.good.returns mode _ (by simpa using hx), (good_val hu h).returns mode x hx,
    fun tail ht => ?_⟩
  rw [rowEntry_plain 3 mode _ _ vec m _ tail ht, rowEntry_fl 3 mode _ _ vec m _ tail ht]
  have hM0 : 0 ≤ M tail :=
    (abs_nonneg _).trans (hM _ tail (by rw [← hcs]; exact coefShape_origin _) ht)
  refine evalMode_close 3 h.grid.2 mode x hx hmode _ _ _
    (mul_nonneg (by linarith [errFactor3_one_le (R := R) G, show errFactor3 R G
      = (G.map fun g => 1 + cubicErr R (exactAxis g)).prod from rfl]) hM0) fun y hy => ?_
  exact plain3_rounding G y (fun r => C.get (r ++ tail)) (M tail) hG hun hs hy
    (fun idx hidx => hM idx tail (by rw [← hcs]; exact hidx) ht)

/-- C103. Interpolation: filtering and then evaluating, both with rounding, gives the values of the
interpolating spline of exact arithmetic up to `(∏ (1 + eᵢ) (5 + 540 u) - 5^d) M`, where `M` bounds the
data. -/
theorem C103_interpolation_rounding (hu : R.u ≤ 1 / 1000)
    (h : FilterRequest (G.map exactAxis) (exactArray D) vec m)
    (hC : FilterOutcome (G.map exactAxis) (exactArray D) vec m C) (hC' : FilterOutcome G D vec m C')
    (hs : ∀ g ∈ G, cubicErr R (exactAxis g) ≤ 1 / 2) (mode : String) (x : List (Fl R))
    (hx : x.length = G.length)
    (hmode : InBox (G.map exactAxis) (x.map Fl.val) ∨ mode = "nearest" ∨ mode = "constant")
    (M : List ℕ → ℝ)
    (hM : ∀ idx tail, InShape (gridShape G) idx →
      InShape (tailShape vec m none) tail → |(D.get (idx ++ tail)).val| ≤ M tail) :
    ∃ E E', Returns 3 (G.map exactAxis) C vec m none mode (x.map Fl.val) E ∧
      Returns 3 G C' vec m none mode x E' ∧
      ∀ tail, InShape (tailShape vec m none) tail →
        |(E' tail).val - E tail|
          ≤ ((G.map fun g => (1 + cubicErr R (exactAxis g)) * (5 + 540 * R.u)).prod - 5 ^ G.length)
            * M tail := by
  obtain ⟨hs', hclose⟩ := (C102_filter_rounding hu h).2 hC' hC
  obtain ⟨hsC, hvC⟩ := filterOutcome_spec h hC
  have hG : ∀ g ∈ G, ValidAxis (exactAxis g) := fun g hg => h.grid.2 _ (List.mem_map_of_mem hg)
  have hun : ∀ g ∈ G, (exactAxis g).gtype = .uniform := fun g hg =>
    h.uniform _ (List.mem_map_of_mem hg)
  have hu0 := Rounding.u_nonneg R
  have hu1 : R.u < 1 := by linarith
  have hcs : coefShape 3 (G.map exactAxis) = G.map fun g => nNodes g + 2 := by
    simp [coefShape, nNodes_exact, Function.comp_def, nCoef]
  have hgs : gridShape (G.map exactAxis) = gridShape G := by
    simp [gridShape, nNodes_exact, Function.comp_def]
  have hreq' : Request 3 (G.map exactAxis) (exactArray C') vec m none :=
    h.request (by rw [coefsShape_exact]; exact hs')
  refine ⟨_, _, (h.request hsC).good.returns mode _ (by simpa using hx),
    (good_val hu1 hreq').returns mode x hx, fun tail ht => ?_⟩
  have ht' : InShape (if vec then [m] else []) tail := by simpa [tailShape] using ht
  rw [rowEntry_plain 3 mode _ _ vec m _ tail ht, rowEntry_fl 3 mode _ _ vec m _ tail ht]
  set d := G.length with hd
  set ε := (5 + 540 * R.u) with hε
  have hprod : (G.map fun g => (1 + cubicErr R (exactAxis g)) * (5 + 540 * R.u)).prod
      = errFactor3 R G * ε ^ d := by
    rw [hd]
    clear hM hmode hx hs hC' hC h hs' hclose hsC hvC hG hun hcs hgs hreq' hd d
    induction G with
    | nil => simp [errFactor3]
    | cons g G ih =>
      simp only [errFactor3, List.map_cons, List.prod_cons, List.length_cons, pow_succ] at ih ⊢
      rw [ih]; ring
  rw [hprod]
  set P := errFactor3 R G with hP
  have hP1 : 1 ≤ P := errFactor3_one_le G
  have hM0 : 0 ≤ M tail :=
    (abs_nonneg _).trans (hM _ tail (by rw [← hgs]; exact origin_inShape _ h.grid.2) ht)
  have hε5 : (5 : ℝ) ^ d ≤ ε ^ d := by
    have : (5 : ℝ) ≤ ε := by rw [hε]; linarith
    gcongr
  have hε0 : 0 ≤ ε ^ d := le_trans (by positivity) hε5
  -- size of the coefficients
  have cl : ∀ idx, InShape (coefShape 3 (G.map exactAxis)) idx →
      |(C'.get (idx ++ tail)).val - C.get (idx ++ tail)| ≤ (ε ^ d - 5 ^ d) * M tail := fun idx hidx =>
    hclose tail (M tail) ht' (fun r hr => hM r tail hr ht) idx (by rw [← hcs]; exact hidx)
  have cb : ∀ idx, InShape (coefShape 3 (G.map exactAxis)) idx →
      |C.get (idx ++ tail)| ≤ 5 ^ d * M tail := fun idx hidx => by
    have hl : idx.length = (unitAxes (G.map exactAxis)).length := by
      have := inShape_length hidx
      simpa [coefShape, unitAxes] using this
    rw [hvC _ (by
      rw [coefsShape]
      refine inShape_append ?_ ht'
      rw [hcs] at hidx
      simpa [nNodes_exact, Function.comp_def] using hidx), coefs, tfilt_append _ _ _ _ hl]
    have := tfilt_abs_le (as := unitAxes (G.map exactAxis)) (es := [])
      (D := fun r => (exactArray D).get (r ++ tail)) (M := M tail) (idx := idx) h.good
      (fun r hr => by
        rw [List.append_nil, dsh_unitAxes, hgs] at hr
        exact hM r tail hr ht)
      (by rw [List.append_nil, ← h.match.coefShape]; exact hidx)
    simpa [unitAxes, hd] using this
  have cb' : ∀ idx, InShape (coefShape 3 (G.map exactAxis)) idx →
      |(C'.get (idx ++ tail)).val| ≤ ε ^ d * M tail := fun idx hidx => by
    have := close_abs (cl idx hidx) (cb idx hidx)
    linarith
  refine evalMode_close 3 h.grid.2 mode x hx hmode _ _ _ ?_ fun y hy => ?_
  · refine mul_nonneg ?_ hM0
    nlinarith
  have r1 := plain3_rounding G y (fun r => C'.get (r ++ tail)) (ε ^ d * M tail) hG hun hs hy cb'
  have r2 : |plain 3 (G.map exactAxis) (y.map Fl.val) (fun r => (C'.get (r ++ tail)).val)
      - plain 3 (G.map exactAxis) (y.map Fl.val) (fun r => C.get (r ++ tail))|
        ≤ (ε ^ d - 5 ^ d) * M tail := by
    have hl : plain 3 (G.map exactAxis) (y.map Fl.val)
        (fun r => (C'.get (r ++ tail)).val - C.get (r ++ tail))
        = plain 3 (G.map exactAxis) (y.map Fl.val) (fun r => (C'.get (r ++ tail)).val)
          - plain 3 (G.map exactAxis) (y.map Fl.val) (fun r => C.get (r ++ tail)) := by
      have e := evalAt_linear 3 (G.map exactAxis) (List.replicate (G.map exactAxis).length 0) (y.map Fl.val)
        (fun r => (C'.get (r ++ tail)).val) (fun r => C.get (r ++ tail)) 1 (-1)
      simp only [plain]
      rw [show (fun r => (C'.get (r ++ tail)).val - C.get (r ++ tail))
        = fun r => 1 * (C'.get (r ++ tail)).val + -1 * C.get (r ++ tail) from
          funext fun r => by ring, e]
      ring
    rw [← hl]
    exact plain3_abs_le _ _ _ _ h.grid.2 h.uniform hy cl
  have tri := abs_sub_le (evalAt 3 G (List.replicate G.length 0) y (fun r => C'.get (r ++ tail))).val
    (plain 3 (G.map exactAxis) (y.map Fl.val) (fun r => (C'.get (r ++ tail)).val))
    (plain 3 (G.map exactAxis) (y.map Fl.val) (fun r => C.get (r ++ tail)))
  show |_ - plain 3 (G.map exactAxis) (y.map Fl.val) (fun r => C.get (r ++ tail))| ≤ _
  nlinarith

/-! ### A concrete case in double precision -/

/-- A grid of 100 × 50 nodes. -/
noncomputable def crG : List (GridDim (Fl double)) := [.uniform ⟨0⟩ ⟨1⟩ 100, .uniform ⟨-1⟩ ⟨3⟩ 50]

/-- Two-component data between -1 and 1. -/
noncomputable def crD : NdArray (Fl double) :=
  ⟨[100, 50, 2], fun idx => if idx.getD 1 0 % 2 = 0 then ⟨1⟩ else ⟨-1⟩⟩

theorem crG_request : FilterRequest (crG.map exactAxis) (exactArray crD) true 2 := by
  refine ⟨⟨by simp [crG], ?_⟩, ?_, by simp [crG], by simp [crG, crD, exactAxis, exactArray, nNodes, gridShape]⟩
  · intro g hg
    simp only [crG, List.map_cons, List.map_nil, List.mem_cons, List.not_mem_nil, or_false, exactAxis] at hg
    rcases hg with rfl | rfl
    · exact ⟨by norm_num, by norm_num⟩
    · exact ⟨by norm_num, by norm_num⟩
  · intro g hg
    simp only [crG, List.map_cons, List.map_nil, List.mem_cons, List.not_mem_nil, or_false, exactAxis] at hg
    rcases hg with rfl | rfl <;> rfl

/-- In double precision, filtering succeeds and every value of the spline, in mode nearest, has all its
digits up to the eleventh. -/
example : ∃ C', filterCubic crG crD = .ok C' ∧ ∃ C, filterCubic (crG.map exactAxis) (exactArray crD) = .ok C ∧
    ∀ x : List (Fl double), x.length = 2 →
      ∃ E E', Returns 3 (crG.map exactAxis) C true 2 none "nearest" (x.map Fl.val) E ∧
        Returns 3 crG C' true 2 none "nearest" x E' ∧
        ∀ tail, InShape (tailShape true 2 none) tail → |(E' tail).val - E tail| ≤ 1 / 10 ^ 10 := by
  have hu := double_u
  have hu' : double.u ≤ 1 / 1000 := by rw [hu]; norm_num
  obtain ⟨C', hC'⟩ := (C102_filter_rounding (C' := crD) (C := exactArray crD) hu' crG_request).1.1
  obtain ⟨C, hC, -⟩ := crG_request.alloc
  refine ⟨C', hC', C, hC, fun x hx => ?_⟩
  have t1 : Int.toNat 100 = 100 := rfl
  have t2 : Int.toNat 50 = 50 := rfl
  have hs : ∀ g ∈ crG, cubicErr double (exactAxis g) ≤ 1 / 2 := by
    intro g hg
    simp only [crG, List.mem_cons, List.not_mem_nil, or_false] at hg
    rcases hg with rfl | rfl
    · simp only [exactAxis, cubicErr, nNodes, hu, t1, t2]; norm_num
    · simp only [exactAxis, cubicErr, nNodes, hu, t1, t2]; norm_num
  obtain ⟨E, E', h1, h2, h3⟩ := C103_interpolation_rounding hu' crG_request (.alloc hC) (.alloc hC') hs
    "nearest" x hx (Or.inr (Or.inl rfl)) (fun _ => 1) (by
      intro idx tail _ _
      simp only [crD]
      split_ifs <;> simp)
  refine ⟨E, E', h1, h2, fun tail ht => (h3 tail ht).trans ?_⟩
  simp only [crG, List.map_cons, List.map_nil, List.prod_cons, List.prod_nil, exactAxis, cubicErr, nNodes, hu,
    List.length_cons, List.length_nil, t1, t2]
  norm_num

end Interp.Props
