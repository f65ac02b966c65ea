import Verif.Proofs.SmolInterp
import Verif.Spec.Monomials
import Mathlib.Analysis.Calculus.Deriv.Mul

/-!
# Polynomial reproduction and gradients
-/

set_option linter.unusedSectionVars false
set_option linter.unusedSimpArgs false

namespace Interp.Smolyak
open Interp.Spec
open Polynomial
open Interp.CompletePoly (transpose dot rangeN)

/-! ### Levels of degrees -/

theorem lev_degLevel (k : ℕ) : lev k = degLevel k := by
  unfold degLevel
  split
  · rename_i h; subst h
    exact (lev_eq_iff 0 1 le_rfl).mpr (by simp [mSize])
  · rename_i h
    rcases Nat.lt_or_ge k 3 with h3 | h3
    · have hc : Nat.clog 2 k ≤ 1 := by
        apply Nat.clog_le_of_le_pow; omega
      rw [max_eq_left (by omega)]
      exact (lev_eq_iff k 2 (by omega)).mpr (by simp [mSize]; omega)
    · have hc : 2 ≤ Nat.clog 2 k := by
        by_contra hc
        have := Nat.le_pow_clog (b := 2) (by omega) k
        have h2 : 2 ^ Nat.clog 2 k ≤ 2 ^ 1 := Nat.pow_le_pow_right (by omega) (by omega)
        omega
      rw [max_eq_right (by omega)]
      rw [lev_eq_iff _ _ (by omega)]
      have h1 := Nat.le_pow_clog (b := 2) (by omega) k
      have h2 := Nat.pow_pred_clog_lt_self (b := 2) (by omega) (x := k) (by omega)
      obtain ⟨m, hm⟩ : ∃ m, Nat.clog 2 k = m + 2 := ⟨Nat.clog 2 k - 2, by omega⟩
      rw [hm] at h1 h2 ⊢
      simp only [Nat.add_sub_cancel, mSize]
      simp only [Nat.pred_eq_sub_one, show m + 2 - 1 = m + 1 by omega] at h2
      constructor
      · omega
      · rw [show m + 1 + 1 = m + 2 by omega]; omega

theorem lev_mono {j k : ℕ} (h : j ≤ k) : lev j ≤ lev k :=
  (lev_le_iff j (lev k)).mpr (lt_of_le_of_lt h ((lev_le_iff k (lev k)).mp le_rfl))

/-! ### Polynomials in the Chebyshev basis -/

theorem cheb_span : ∀ (k : ℕ) (p : ℝ[X]), p.natDegree ≤ k →
    ∃ b : ℕ → ℝ, (∀ j, k < j → b j = 0) ∧ ∀ M, k < M → ∀ x, p.eval x = ∑ j ∈ Finset.range M, chebT j x * b j
  | 0, p, hp => by
    refine ⟨fun j => if j = 0 then p.coeff 0 else 0, fun j hj => if_neg (by omega), fun M hM x => ?_⟩
    rw [Finset.sum_eq_single 0]
    · rw [eq_C_of_natDegree_le_zero hp]; simp [chebT]
    · intro j _ hj; simp [hj]
    · intro h; exact absurd (Finset.mem_range.mpr hM) h
  | k + 1, p, hp => by
    set a := p.coeff (k + 1) / (Chebyshev.T ℝ ((k + 1 : ℕ) : ℤ)).leadingCoeff with ha
    have hlc : (Chebyshev.T ℝ ((k + 1 : ℕ) : ℤ)).leadingCoeff ≠ 0 := by
      rw [Chebyshev.leadingCoeff_T]; positivity
    have hdT : (Chebyshev.T ℝ ((k + 1 : ℕ) : ℤ)).natDegree = k + 1 := by
      rw [Chebyshev.natDegree_T]; exact Int.natAbs_natCast _
    have hq : (p - C a * Chebyshev.T ℝ ((k + 1 : ℕ) : ℤ)).natDegree ≤ k := by
      have h1 : (p - C a * Chebyshev.T ℝ ((k + 1 : ℕ) : ℤ)).natDegree ≤ k + 1 := by
        refine (natDegree_sub_le _ _).trans (max_le hp ((natDegree_C_mul_le _ _).trans ?_))
        rw [hdT]
      have h2 : (p - C a * Chebyshev.T ℝ ((k + 1 : ℕ) : ℤ)).coeff (k + 1) = 0 := by
        rw [coeff_sub, coeff_C_mul]
        have : (Chebyshev.T ℝ ((k + 1 : ℕ) : ℤ)).coeff (k + 1)
            = (Chebyshev.T ℝ ((k + 1 : ℕ) : ℤ)).leadingCoeff := by rw [leadingCoeff, hdT]
        rw [this, ha, div_mul_cancel₀ _ hlc, sub_self]
      by_contra hcon
      have h3 : (p - C a * Chebyshev.T ℝ ((k + 1 : ℕ) : ℤ)).natDegree = k + 1 := by omega
      have h4 : (p - C a * Chebyshev.T ℝ ((k + 1 : ℕ) : ℤ)).leadingCoeff = 0 := by
        rw [leadingCoeff, h3, h2]
      rw [leadingCoeff_eq_zero] at h4
      rw [h4] at h3
      simp at h3
    obtain ⟨b, hb, hs⟩ := cheb_span k _ hq
    refine ⟨fun j => b j + if j = k + 1 then a else 0, fun j hj => ?_, fun M hM x => ?_⟩
    · show b j + (if j = k + 1 then a else 0) = 0
      rw [hb j (by omega), if_neg (by omega), add_zero]
    · have h1 := hs M (by omega) x
      rw [eval_sub, eval_mul, eval_C] at h1
      simp only [mul_add, Finset.sum_add_distrib]
      rw [← h1, Finset.sum_eq_single (k + 1)]
      · simp only [if_true, chebT]; ring
      · intro j _ hj; simp [hj]
      · intro h; exact absurd (Finset.mem_range.mpr hM) h

theorem evalP_smul (M : ℕ) (a : ℝ) : ∀ (x : List ℝ) (c : List ℕ → ℝ),
    evalP M (fun ks => a * c ks) x = a * evalP M c x
  | [], _ => rfl
  | t :: x, c => by
    simp only [evalP, evalP_smul M a x, Finset.mul_sum]
    exact Finset.sum_congr rfl fun k _ => by ring

/-- Products of one dimensional polynomials. -/
theorem prod_span : ∀ (es : List ℕ) (qs : List ℝ[X]),
    List.Forall₂ (fun q e => q.natDegree ≤ e) qs es →
    ∃ c : List ℕ → ℝ, (∀ ks, c ks ≠ 0 → List.Forall₂ (· ≤ ·) ks es) ∧
      ∀ M, (∀ e ∈ es, e < M) → ∀ x : List ℝ, x.length = es.length →
        evalP M c x = (List.zipWith (fun q t => q.eval t) qs x).prod
  | [], _, .nil => by
    refine ⟨fun ks => if ks = [] then 1 else 0, ?_, ?_⟩
    · intro ks h
      have : ks = [] := by by_contra hc; simp [hc] at h
      subst this; exact .nil
    · intro M _ x hx
      have : x = [] := List.length_eq_zero_iff.mp hx
      subst this
      simp [evalP]
  | e :: es, q :: qs, .cons h hs => by
    obtain ⟨b, hb, hq⟩ := cheb_span e q h
    obtain ⟨c, hc, hcs⟩ := prod_span es qs hs
    refine ⟨fun ks => match ks with | [] => 0 | k :: ks => b k * c ks, ?_, ?_⟩
    · intro ks hks
      cases ks with
      | nil => simp at hks
      | cons k ks =>
        simp only [] at hks
        have h1 := left_ne_zero_of_mul hks
        have h2 := right_ne_zero_of_mul hks
        refine .cons ?_ (hc ks h2)
        by_contra hcon
        exact h1 (hb k (by omega))
    · intro M hM x hx
      cases x with
      | nil => simp at hx
      | cons t x =>
        simp only [evalP, List.zipWith_cons_cons, List.prod_cons]
        rw [hq M (hM e (by simp)), Finset.sum_mul]
        refine Finset.sum_congr rfl fun k _ => ?_
        rw [evalP_smul, hcs M (fun e' h' => hM e' (by simp [h'])) x (by simpa using hx)]
        ring

section
variable {d : ℕ} {mu : Mu} {M : ℕ} {inds : List (List ℤ)}

theorem levs_down {ks es : List ℕ} (h : List.Forall₂ (· ≤ ·) ks es) :
    List.Forall₂ (fun a b => (1 : ℤ) ≤ a ∧ a ≤ b) (levs ks) (levs es) := by
  induction h with
  | nil => exact .nil
  | cons h _ ih =>
    exact .cons ⟨Int.ofNat_le.mpr (lev_pos _), Int.ofNat_le.mpr (lev_mono h)⟩ ih

/-- A family of coefficients with admissible support is a combination of the basis functions. -/
theorem IndsOK.evalP_comb (h : IndsOK d mu M inds) (c : List ℕ → ℝ)
    (hc : ∀ ks, c ks ≠ 0 → Admissible d mu (levs ks)) (x : List ℝ) (hx : x.length = d) :
    evalP (mSize (M + 1)) c x = comb inds (fun j => c (ksOf inds j)) x := by
  rw [evalP_congr (mSize (M + 1)) x c
    (fun q => ∑ j : Fin (pRows inds).length, if q = ksOf inds j then c (ksOf inds j) else 0)]
  · rw [evalP_sum _ x _ (fun j : Fin (pRows inds).length => c (ksOf inds j)) (fun j => ksOf inds j)
      (fun j => by rw [(h.ksOf_spec j.2).1, hx]) (fun j => (h.ksOf_spec j.2).2.1), comb]
    exact Finset.sum_congr rfl fun j _ => mul_comm _ _
  · intro ks _ _
    by_cases h0 : c ks = 0
    · rw [h0]
      symm
      apply Finset.sum_eq_zero
      intro j _
      split
      · rename_i e; rw [← e, h0]
      · rfl
    · obtain ⟨j, hj, e⟩ := h.exists_ksOf ks (hc ks h0)
      rw [Finset.sum_eq_single (⟨j, hj⟩ : Fin (pRows inds).length)]
      · simp [e]
      · intro i _ hij
        rw [if_neg]
        intro e'
        exact hij (Fin.ext (h.ksOf_inj i.2 hj (e'.symm.trans e.symm)))
      · intro hj; exact absurd (Finset.mem_univ _) hj

/-- Coefficients are determined by the values on the grid. -/
theorem IndsOK.comb_unique (h : IndsOK d mu M inds) (hM : M ≤ 48) (θ θ' : ℕ → ℝ)
    (he : ∀ x ∈ gridRows inds, comb inds θ x = comb inds θ' x) (x : List ℝ) :
    comb inds θ x = comb inds θ' x := by
  have := h.unisolvent hM (fun j => θ j - θ' j) (by
    intro y hy
    have h1 := he y hy
    rw [comb, comb, ← sub_eq_zero, ← Finset.sum_sub_distrib] at h1
    rw [← h1]
    exact Finset.sum_congr rfl fun j _ => by ring)
  rw [comb, comb]
  refine Finset.sum_congr rfl fun j _ => ?_
  have := congrFun this j
  simp only [Pi.zero_apply] at this
  rw [sub_eq_zero.mp this]

/-- A monomial in the coordinates of the domain, as a combination of basis functions. -/
theorem IndsOK.monomial_comb (h : IndsOK d mu M inds) (lb ub : List ℝ) (e : List ℕ)
    (he : Admissible d mu (levs e)) (hr : ∀ i < d, radius (lb.getD i 0) (ub.getD i 0) ≠ 0) :
    ∃ θ : ℕ → ℝ, ∀ x : List ℝ, x.length = d → comb inds θ (toCube lb ub x) = monomialAt e x := by
  have hel : e.length = d := by
    have := (h.entry ((h.mem _).mpr he)).1
    simpa [levs] using this
  set qs : List ℝ[X] := (List.range d).map fun i =>
    (C (radius (lb.getD i 0) (ub.getD i 0)) * X + C (center (lb.getD i 0) (ub.getD i 0))) ^ (e.getD i 0) with hqs
  obtain ⟨c, hc, hs⟩ := prod_span e qs (by
    rw [List.forall₂_iff_get]
    refine ⟨by simp [hqs, hel], fun i h1 h2 => ?_⟩
    simp only [hqs, List.get_eq_getElem, List.getElem_map, List.getElem_range]
    rw [List.getD_eq_getElem _ _ h2]
    refine natDegree_pow_le.trans ?_
    have : (C (radius (lb.getD i 0) (ub.getD i 0)) * X + C (center (lb.getD i 0) (ub.getD i 0))
      : ℝ[X]).natDegree ≤ 1 := natDegree_linear_le
    exact (Nat.mul_le_mul_left _ this).trans (by omega))
  refine ⟨fun j => c (ksOf inds j), fun x hx => ?_⟩
  have hcl : (toCube lb ub x).length = d := by simp [toCube, hx]
  rw [← h.evalP_comb c (fun ks h0 => admissible_down d mu (levs_down (hc ks h0)) he) _ hcl,
    hs _ ?_ _ (by rw [hcl, hel]), monomialAt]
  · congr 1
    apply List.ext_getElem
    · simp [hqs, hel, toCube, hx]
    · intro i h1 h2
      have hi : i < d := by simp [hqs, toCube, hx] at h1; exact h1
      simp only [List.getElem_zipWith, hqs, toCube, List.getElem_map, List.getElem_range]
      rw [List.getD_eq_getElem e _ (by omega), List.getD_eq_getElem x _ (by omega)]
      simp only [eval_pow, eval_add, eval_mul, eval_C, eval_X]
      congr 1
      have := hr i hi
      field_simp
      ring
  · intro k hk
    have := (h.entry ((h.mem _).mpr he)).2 (lev k) (by
      rw [levs, List.mem_map]; exact ⟨k, hk, rfl⟩)
    exact (lev_le_iff k (M + 1)).mp (by omega)

theorem comb_add (θ θ' : ℕ → ℝ) (x : List ℝ) :
    comb inds (fun j => θ j + θ' j) x = comb inds θ x + comb inds θ' x := by
  simp only [comb, mul_add, Finset.sum_add_distrib]

theorem comb_smul (a : ℝ) (θ : ℕ → ℝ) (x : List ℝ) :
    comb inds (fun j => a * θ j) x = a * comb inds θ x := by
  simp only [comb, Finset.mul_sum]
  exact Finset.sum_congr rfl fun j _ => by ring

theorem IndsOK.poly_comb (h : IndsOK d mu M inds) (lb ub : List ℝ)
    (hr : ∀ i < d, radius (lb.getD i 0) (ub.getD i 0) ≠ 0) : ∀ P : List (List ℕ × ℝ),
    (∀ t ∈ P, Admissible d mu (levs t.1)) →
    ∃ θ : ℕ → ℝ, ∀ x : List ℝ, x.length = d → comb inds θ (toCube lb ub x) = polyAt P x
  | [], _ => ⟨fun _ => 0, fun x _ => by simp [comb, polyAt]⟩
  | t :: P, hP => by
    obtain ⟨θ, hθ⟩ := h.monomial_comb lb ub t.1 (hP t (by simp)) hr
    obtain ⟨θ', hθ'⟩ := h.poly_comb lb ub hr P fun t' h' => hP t' (by simp [h'])
    refine ⟨fun j => t.2 * θ j + θ' j, fun x hx => ?_⟩
    rw [comb_add, comb_smul, hθ x hx, hθ' x hx]
    simp [polyAt]

end

/-! ### Rows of the grid in the domain -/

section
variable {sg : Grid ℝ} {M : ℕ}

theorem GridOK.gridArr (h : GridOK sg M) : sg.grid.shape = [(pRows sg.inds).length, sg.d] ∧
    ∀ r i, sg.grid.get [r, i] = ((gridRows sg.inds).getD r []).getD i 0
      * radius (sg.lb.getD i 0) (sg.ub.getD i 0) + center (sg.lb.getD i 0) (sg.ub.getD i 0) := by
  have hg := h.grid
  rw [cube2dom_ok (n := (pRows sg.inds).length) (m := sg.d)
    (by rw [h.cube, ofRows, h.inds.length_eq]) h.lbl h.ubl, h.cube] at hg
  injection hg with hg
  rw [← hg]
  exact ⟨rfl, fun r i => rfl⟩

theorem GridOK.row_length (h : GridOK sg M) {r : ℕ} (hr : r < (pRows sg.inds).length) :
    ((gridRows sg.inds).getD r []).length = sg.d := by
  rw [← h.inds.length_eq] at hr
  rw [List.getD_eq_getElem _ _ hr]
  exact gridRows_length_row h.inds (List.getElem_mem hr)

theorem GridOK.toCube_row (h : GridOK sg M)
    (hr : ∀ i < sg.d, radius (sg.lb.getD i 0) (sg.ub.getD i 0) ≠ 0) {r : ℕ} (hrp : r < (pRows sg.inds).length) :
    toCube sg.lb sg.ub (rowOf sg.grid sg.d r) = (gridRows sg.inds).getD r [] := by
  apply List.ext_getElem
  · simp only [toCube, rowOf, List.length_map, List.length_range, h.row_length hrp]
  · intro i h1 h2
    have hi : i < sg.d := by simpa [toCube, rowOf] using h1
    simp only [toCube, List.getElem_map, List.getElem_range]
    rw [List.getD_eq_getElem (rowOf sg.grid sg.d r) _ (by simpa [rowOf] using hi)]
    simp only [rowOf, List.getElem_map, List.getElem_range, h.gridArr.2]
    rw [List.getD_eq_getElem ((gridRows sg.inds).getD r []) _ h2]
    have := hr i hi
    field_simp
    ring

end

/-! ### Gradients -/

theorem dChebRec_eq (x : ℝ) (k : ℕ) : HasDerivAt (chebT k) (dChebRec x k) x := by
  have h := (Chebyshev.T ℝ (k : ℤ)).hasDerivAt x
  rw [Chebyshev.T_derivative_eq_U] at h
  refine (show HasDerivAt (chebT k) _ x from h).congr_deriv ?_
  rw [dChebRec, eval_mul]
  cases k with
  | zero => simp
  | succ k =>
    rw [if_neg (by omega), chebRec_U]
    simp [mul_comm]

theorem basisDer_zero (c : ℤ) (p : List ℤ) (t : ℝ) (x : List ℝ) :
    basisDer (c :: p) (t :: x) 0 = dChebRec t (c - 1).toNat * chebProd (degs p) x := by
  rw [basisDer, reduceMul_prod]
  simp only [List.zipWith_cons_cons, List.mapIdx_cons, List.prod_cons, ne_eq, not_true_eq_false, if_false]
  congr 1
  rw [chebProd_zip, degs, List.zipWith_map_left]
  congr 1
  apply List.ext_getElem
  · simp
  · intro i h1 h2
    simp [chebRec_T]

theorem basisDer_succ (c : ℤ) (p : List ℤ) (t : ℝ) (x : List ℝ) (i : ℕ) :
    basisDer (c :: p) (t :: x) (i + 1) = chebT (c - 1).toNat t * basisDer p x i := by
  rw [basisDer, reduceMul_prod, basisDer, reduceMul_prod]
  simp [List.zipWith_cons_cons, List.mapIdx_cons, List.prod_cons, chebRec_T]

theorem hasDerivAt_chebProd : ∀ (p : List ℤ) (x : List ℝ) (i : ℕ), p.length = x.length → i < x.length →
    HasDerivAt (fun t => chebProd (degs p) (x.set i t)) (basisDer p x i) (x.getD i 0)
  | [], [], i, _, hi => by simp at hi
  | [], _ :: _, _, h, _ => by simp at h
  | _ :: _, [], _, h, _ => by simp at h
  | c :: p, y :: x, 0, h, _ => by
    rw [basisDer_zero]
    exact (dChebRec_eq y (c - 1).toNat).mul_const _
  | c :: p, y :: x, i + 1, h, hi => by
    rw [basisDer_succ]
    have := (hasDerivAt_chebProd p x i (by simpa using h) (by simpa using hi)).const_mul
      (chebT (c - 1).toNat y)
    simpa [degs, chebProd] using this

theorem toCube_set (lb ub x : List ℝ) (i : ℕ) (t : ℝ) :
    toCube lb ub (x.set i t) = (toCube lb ub x).set i ((t - center (lb.getD i 0) (ub.getD i 0))
      / radius (lb.getD i 0) (ub.getD i 0)) := by
  apply List.ext_getElem
  · simp [toCube]
  · intro k h1 h2
    have hk : k < x.length := by simpa [toCube] using h1
    simp only [toCube, List.getElem_map, List.getElem_range, List.getElem_set]
    by_cases hik : i = k
    · subst hik
      simp [List.getD, hk]
    · simp [List.getD, hik, hk]

section
variable {d : ℕ} {mu : Mu} {M : ℕ} {inds : List (List ℤ)}

/-- Derivative of a combination of basis functions along a coordinate of the domain. -/
theorem IndsOK.hasDerivAt_comb (h : IndsOK d mu M inds) (θ : ℕ → ℝ) (lb ub x : List ℝ) (hx : x.length = d) (i : ℕ)
    (hi : i < d) :
    HasDerivAt (fun t => comb inds θ (toCube lb ub (x.set i t)))
      ((∑ j : Fin (pRows inds).length, θ j * basisDer ((pRows inds).getD j []) (toCube lb ub x) i)
        * (2 / (ub.getD i 0 - lb.getD i 0))) (x.getD i 0) := by
  have hl : (toCube lb ub x).length = d := by simp [toCube, hx]
  have hgd : (toCube lb ub x).getD i 0
      = (x.getD i 0 - center (lb.getD i 0) (ub.getD i 0)) / radius (lb.getD i 0) (ub.getD i 0) := by
    rw [List.getD_eq_getElem _ _ (by omega)]
    simp [toCube]
  have hin : HasDerivAt (fun t : ℝ => (t - center (lb.getD i 0) (ub.getD i 0))
      / radius (lb.getD i 0) (ub.getD i 0)) (2 / (ub.getD i 0 - lb.getD i 0)) (x.getD i 0) := by
    have := ((hasDerivAt_id (x.getD i 0)).sub_const (center (lb.getD i 0) (ub.getD i 0))).div_const
      (radius (lb.getD i 0) (ub.getD i 0))
    refine this.congr_deriv ?_
    rw [radius]
    push_cast
    rw [one_div_div]
  simp only [toCube_set, comb]
  rw [Finset.sum_mul]
  apply HasDerivAt.fun_sum
  intro j _
  have hm : (pRows inds).getD j [] ∈ pRows inds := by simp [List.getD]
  have h1 := hasDerivAt_chebProd ((pRows inds).getD j []) (toCube lb ub x) i
    (by rw [(h.pRows_bounds hm).1, hl]) (by omega)
  rw [hgd] at h1
  have h2 := (h1.comp (x.getD i 0) hin).mul_const (θ j)
  exact h2.congr_deriv (by ring)

end

end Interp.Smolyak
