import Verif.Proofs.SmolGrad
import Verif.Props.SmolyakClass
import Verif.Spec.Cartesian

/-!
# `SmolyakInterp`: C64–C67, C69, C70

Common hypotheses: `sg` is what `SmolyakGrid(d, mu, lb, ub)` returned, linear algebra is exact, `mu` is
at most 48 (beyond that the threshold `1e-14` of `s_n` merges nodes, see C61–C63; these theorems are
therefore named `_partial`), and no interval of the domain is empty.
-/

set_option linter.unusedSectionVars false
set_option linter.unusedSimpArgs false

namespace Interp.Props
open Interp.Spec Interp.Smolyak
open Interp.CompletePoly (transpose dot rangeN)

theorem rowOf_eq {A : NdArray ℝ} {n d : ℕ} (h : A.shape = [n, d]) (r : ℕ) :
    Smolyak.rowOf A d r = Spec.rowOf A r := by simp [Smolyak.rowOf, Spec.rowOf, h]

/-- The entry `idx` of the single array returned by a call (zero if the call failed). -/
noncomputable def retEntry (R : Py (Rets ℝ)) (idx : List ℕ) : ℝ :=
  match R with
  | .ok (.one V) => V.get idx
  | _ => 0

/-- Values of the interpolant, `interpolate(pts)`. -/
noncomputable def values (la : LinAlg ℝ) (s : SInterp ℝ) (pts : NdArray ℝ) : Py (Rets ℝ) :=
  s.interpolate la pts true false false false

section
variable (la : LinAlg ℝ) (hla : LinAlgOK la) (d : ℕ) (mu : Mu) (lb ub : Bound ℝ) (sg : Grid ℝ)
  (h : Grid.new la d mu lb ub = .ok sg) (hmu : MuLe 48 mu)
  (N : ℕ) (hN : sg.grid.shape = [N, d])
include hla h

theorem grid_unpack : ∃ M, GridOK sg M ∧ sg.d = d ∧ sg.mu = mu ∧ ∀ b, MuLe b mu ↔ (M : ℤ) ≤ b := by
  obtain ⟨M, hg, hd, hm, hM⟩ := new_gridOK la hla d mu lb ub sg h
  exact ⟨M, hg, by omega, hm, hM⟩

/-! ### C64 -/

include hmu hN

/-- **C64.** The interpolant takes the given values on the grid (one or several outputs). -/
theorem C64_reproduces_partial (hb : ∀ i < d, sg.lb.getD i 0 ≠ sg.ub.getD i 0) (f : NdArray ℝ) (t : List ℕ)
    (ht : t.length ≤ 1) (hf : f.shape = N :: t) :
    ∃ s V, SInterp.new la sg f = .ok s ∧ values la s sg.grid = .ok (.one V) ∧ V.Same f := by
  obtain ⟨M, hg, rfl, _, hM⟩ := grid_unpack la hla d mu lb ub sg h
  have hM48 : M ≤ 48 := by have := (hM 48).mp hmu; omega
  have hNe : N = (pRows sg.inds).length := by
    have := hg.gridArr.1; rw [hN] at this; injection this
  subst hNe
  obtain ⟨θ, eθ, sθ, gθ⟩ := theta_ok la hla hg hM48 f t ht hf
  obtain ⟨V, B, X, sV, _, _, gV, _, _, eV, _⟩ := interpolate_ok la hla hg hM48 f θ t ht sθ sg.grid _ hN
  refine ⟨⟨sg, f, θ⟩, V, by rw [SInterp.new, eθ, ok_bind]; rfl, by simpa [unwrap, values] using eV true false false, by rw [sV, hf], ?_⟩
  intro idx hidx
  rw [sV] at hidx
  match idx, hidx with
  | r :: idx, hidx =>
    have hr : ∀ i < sg.d, radius (sg.lb.getD i 0) (sg.ub.getD i 0) ≠ 0 := by
      intro i hi
      rw [radius]; push_cast
      exact div_ne_zero (sub_ne_zero.mpr (hb i hi).symm) two_ne_zero
    rw [gV, hg.toCube_row hr hidx.1, ← gθ ⟨r, hidx.1⟩ idx hidx.2]
    rfl

omit hmu in
/-- **C64 fails** for `mu ≥ 49`: two rows of the grid are equal, so that data which differ there cannot
be reproduced, whatever the linear algebra returns. -/
theorem C64_reproduces_fails (m : ℤ) (hmm : mu = .iso m) (hm : 49 ≤ m) :
    ∃ f : NdArray ℝ, f.shape = [N] ∧ ∀ s V, SInterp.new la sg f = .ok s →
      values la s sg.grid = .ok (.one V) → ¬ V.Same f := by
  obtain ⟨M, hg, rfl, hmu', hM⟩ := grid_unpack la hla d mu lb ub sg h
  have hNe : N = (pRows sg.inds).length := by
    have := hg.gridArr.1; rw [hN] at this; injection this
  subst hNe
  obtain ⟨r, r', hne, e⟩ := dup_rows hg m (hmu'.trans hmm) hm
  refine ⟨⟨[_], fun idx => if idx = [(r : ℕ)] then 1 else 0⟩, rfl, ?_⟩
  intro s V hs hV hsame
  rw [SInterp.new] at hs
  rcases hθ : findTheta la sg ⟨[(pRows sg.inds).length], fun idx => if idx = [(r : ℕ)] then 1 else 0⟩ with e' | θ
  · rw [hθ] at hs; cases hs
  rw [hθ, ok_bind] at hs
  injection hs with hs
  subst hs
  obtain ⟨V', hV', g, hg'⟩ := interpolate_val la hg _ θ sg.grid _ hN _ hV
  injection hV' with hV'
  subst hV'
  have hrow : Smolyak.rowOf sg.grid sg.d r = Smolyak.rowOf sg.grid sg.d r' := by
    rw [Smolyak.rowOf, Smolyak.rowOf]
    refine List.map_congr_left fun i _ => ?_
    rw [hg.gridArr.2, hg.gridArr.2, e]
  have h1 := hsame.2 [(r : ℕ)] (by rw [hsame.1]; exact ⟨r.2, trivial⟩)
  have h2 := hsame.2 [(r' : ℕ)] (by rw [hsame.1]; exact ⟨r'.2, trivial⟩)
  rw [hg'] at h1 h2
  rw [hrow, h2] at h1
  have hne' : (r' : ℕ) ≠ r := fun e => hne (Fin.ext e.symm)
  simp [hne'] at h1

/-! ### C65 -/

/-- **C65.** Polynomials whose monomials have admissible degrees are reproduced at every point: if the
data are the values on the grid of such a polynomial (one for each output), the interpolant is this
polynomial, inside and outside the domain. -/
theorem C65_polynomials_partial (hb : ∀ i < d, sg.lb.getD i 0 ≠ sg.ub.getD i 0) (f : NdArray ℝ) (t : List ℕ)
    (ht : t.length ≤ 1) (hf : f.shape = N :: t) (P : List ℕ → List (List ℕ × ℝ))
    (hP : ∀ idx, InShape t idx → ∀ m ∈ P idx, Admissible d mu (m.1.map fun k => (degLevel k : ℤ)))
    (hfP : ∀ r < N, ∀ idx, InShape t idx → f.get (r :: idx) = polyAt (P idx) (Spec.rowOf sg.grid r))
    (pts : NdArray ℝ) (n : ℕ) (hp : pts.shape = [n, d]) :
    ∃ s V, SInterp.new la sg f = .ok s ∧ values la s pts = .ok (.one V) ∧ V.shape = n :: t ∧
      ∀ r < n, ∀ idx, InShape t idx → V.get (r :: idx) = polyAt (P idx) (Spec.rowOf pts r) := by
  obtain ⟨M, hg, rfl, hmu', hM⟩ := grid_unpack la hla d mu lb ub sg h
  subst hmu'
  have hM48 : M ≤ 48 := by have := (hM 48).mp hmu; omega
  have hNe : N = (pRows sg.inds).length := by
    have := hg.gridArr.1; rw [hN] at this; injection this
  subst hNe
  have hr : ∀ i < sg.d, radius (sg.lb.getD i 0) (sg.ub.getD i 0) ≠ 0 := by
    intro i hi
    rw [radius]; push_cast
    exact div_ne_zero (sub_ne_zero.mpr (hb i hi).symm) two_ne_zero
  obtain ⟨θ, eθ, sθ, gθ⟩ := theta_ok la hla hg hM48 f t ht hf
  obtain ⟨V, B, X, sV, _, _, gV, _, _, eV, _⟩ := interpolate_ok la hla hg hM48 f θ t ht sθ pts n hp
  refine ⟨⟨sg, f, θ⟩, V, by rw [SInterp.new, eθ, ok_bind]; rfl, by simpa [unwrap, values] using eV true false false, sV, ?_⟩
  intro r hrn idx hidx
  obtain ⟨θ', hθ'⟩ := hg.inds.poly_comb sg.lb sg.ub hr (P idx) fun m hm => by
    have := hP idx hidx m hm
    simpa only [levs, lev_degLevel] using this
  rw [gV, ← rowOf_eq hp, ← hθ' (Smolyak.rowOf pts sg.d r) (by simp [Smolyak.rowOf])]
  refine hg.inds.comb_unique hM48 _ _ (fun x hx => ?_) _
  obtain ⟨q, hq, e⟩ := List.mem_iff_getElem.mp hx
  have hqp : q < (pRows sg.inds).length := by rw [← hg.inds.length_eq]; exact hq
  have e2 : (gridRows sg.inds).getD q [] = x := by rw [List.getD_eq_getElem _ _ hq, e]
  have e3 : comb sg.inds θ' x = f.get (q :: idx) := by
    rw [← e2, ← hg.toCube_row hr hqp, hθ' _ (by simp [Smolyak.rowOf]), rowOf_eq hN, ← hfP q hqp idx hidx]
  rw [e3, ← e2]
  exact gθ ⟨q, hqp⟩ idx hidx

omit hmu hN h hla

/-- The exponents of `x_i ^ k`. -/
def powExp (d i k : ℕ) : List ℕ := (List.replicate d 0).set i k

theorem sum_set_ones (d i : ℕ) (hi : i < d) (k : ℤ) :
    ((List.replicate d (1 : ℤ)).set i k).sum = d - 1 + k := by
  induction d generalizing i with
  | zero => omega
  | succ d ih =>
    rw [List.replicate_succ]
    cases i with
    | zero => simp only [List.set_cons_zero, List.sum_cons, sum_ones]; push_cast; ring
    | succ i => simp only [List.set_cons_succ, List.sum_cons, ih i (by omega)]; push_cast; ring

/-- Constants, coordinates and squares of coordinates have admissible degrees for every `mu`. -/
theorem powExp_admissible (hd : 2 ≤ d) (hv : ValidMu d mu) (i k : ℕ) (hi : i < d) (hk : k ≤ 2) :
    Admissible d mu ((powExp d i k).map fun k => (degLevel k : ℤ)) := by
  have hlev : ∃ l : ℤ, (degLevel k : ℤ) = l ∧ 1 ≤ l ∧ l ≤ 2 := by
    refine ⟨_, rfl, ?_⟩
    interval_cases k
    · simp [degLevel]
    · simp [degLevel]
    · have : Nat.clog 2 2 = 1 := by rw [Nat.clog_eq_one le_rfl le_rfl]
      simp [degLevel, this]
  obtain ⟨l, hl, h1, h2⟩ := hlev
  have e : ((powExp d i k).map fun k => (degLevel k : ℤ)) = (List.replicate d (1 : ℤ)).set i l := by
    rw [powExp, List.map_set, hl, List.map_replicate]
    simp [degLevel]
  rw [e]
  have hlen : ((List.replicate d (1 : ℤ)).set i l).length = d := by simp
  have hpos : ∀ x ∈ (List.replicate d (1 : ℤ)).set i l, 1 ≤ x ∧ x ≤ 2 := by
    intro x hx
    rcases List.mem_or_eq_of_mem_set hx with hx | rfl
    · rw [List.eq_of_mem_replicate hx]; norm_num
    · exact ⟨h1, h2⟩
  cases mu with
  | iso m =>
    have : 1 ≤ m := hv
    exact ⟨hlen, fun x hx => (hpos x hx).1, by rw [sum_set_ones d i hi]; omega⟩
  | aniso ms =>
    have hv' : ms.length = d ∧ ∀ m ∈ ms, 1 ≤ m := hv
    refine ⟨hlen, fun x hx => (hpos x hx).1, ⟨ms[0]'(by omega), List.getElem_mem _, ?_⟩, ?_⟩
    · rw [sum_set_ones d i hi]
      have := hv'.2 _ (List.getElem_mem (show 0 < ms.length by omega))
      omega
    · rw [List.forall₂_iff_get]
      refine ⟨by omega, fun q hq hq' => ?_⟩
      have h3 := (hpos _ (List.get_mem _ ⟨q, hq⟩)).2
      have h4 := hv'.2 _ (List.get_mem _ ⟨q, hq'⟩)
      omega

theorem monomialAt_powExp : ∀ (d i k : ℕ) (x : List ℝ), x.length = d → i < d →
    monomialAt (powExp d i k) x = x.getD i 0 ^ k
  | 0, _, _, _, _, h => by omega
  | d + 1, 0, k, a :: x, hx, _ => by
    simp only [powExp, List.replicate_succ, List.set_cons_zero, monomialAt, List.zipWith_cons_cons, List.prod_cons,
      List.getD_cons_zero]
    have : ∀ (d : ℕ) (x : List ℝ), (List.zipWith (fun k t => t ^ k) (List.replicate d 0) x).prod = 1 := by
      intro d
      induction d with
      | zero => simp
      | succ d ih => intro x; cases x <;> simp [List.replicate_succ, ih]
    rw [this, mul_one]
  | d + 1, i + 1, k, a :: x, hx, hi => by
    have := monomialAt_powExp d i k x (by simpa using hx) (by omega)
    simp only [powExp, List.replicate_succ, List.set_cons_succ, monomialAt, List.zipWith_cons_cons, List.prod_cons,
      List.getD_cons_succ, pow_zero, one_mul] at this ⊢
    exact this
  | d + 1, _, _, [], hx, _ => by simp at hx

include hla h hmu hN

/-- **C65**, the functions `a + Σ bᵢ xᵢ + Σ cᵢ xᵢ²` (in particular affine functions) are reproduced for
every `mu`. -/
theorem C65_quadratics_partial (hb : ∀ i < d, sg.lb.getD i 0 ≠ sg.ub.getD i 0) (f : NdArray ℝ) (hf : f.shape = [N])
    (a : ℝ) (b c : ℕ → ℝ)
    (hfP : ∀ r < N, f.get [r] = a + ∑ i ∈ Finset.range d,
      (b i * sg.grid.get [r, i] + c i * sg.grid.get [r, i] ^ 2))
    (pts : NdArray ℝ) (n : ℕ) (hp : pts.shape = [n, d]) :
    ∃ s V, SInterp.new la sg f = .ok s ∧ values la s pts = .ok (.one V) ∧ V.shape = [n] ∧
      ∀ r < n, V.get [r] = a + ∑ i ∈ Finset.range d, (b i * pts.get [r, i] + c i * pts.get [r, i] ^ 2) := by
  obtain ⟨hd2, hv, _, _⟩ := new_elim la hla d mu lb ub sg h
  rw [Int.toNat_natCast] at hv
  have hd2' : 2 ≤ d := by omega
  set P : List (List ℕ × ℝ) := (powExp d 0 0, a) ::
    (List.range d).flatMap fun i => [(powExp d i 1, b i), (powExp d i 2, c i)] with hP
  have hval : ∀ (A : NdArray ℝ) (n r : ℕ), A.shape = [n, d] → polyAt P (Spec.rowOf A r)
      = a + ∑ i ∈ Finset.range d, (b i * A.get [r, i] + c i * A.get [r, i] ^ 2) := by
    intro A n r hA
    have hl : (Spec.rowOf A r).length = d := by simp [Spec.rowOf, hA]
    have hget : ∀ i < d, (Spec.rowOf A r).getD i 0 = A.get [r, i] := by
      intro i hi
      rw [List.getD_eq_getElem _ _ (by omega)]
      simp [Spec.rowOf]
    rw [hP, polyAt, List.map_cons, List.sum_cons, monomialAt_powExp d 0 0 _ hl (by omega), pow_zero, mul_one]
    congr 1
    have : ∀ m ≤ d, (List.map (fun t : List ℕ × ℝ => t.2 * monomialAt t.1 (Spec.rowOf A r))
        ((List.range m).flatMap fun i => [(powExp d i 1, b i), (powExp d i 2, c i)])).sum
        = ∑ i ∈ Finset.range m, (b i * A.get [r, i] + c i * A.get [r, i] ^ 2) := by
      intro m
      induction m with
      | zero => intro _; simp
      | succ m ih =>
        intro hm
        rw [List.range_succ, List.flatMap_append, List.map_append, List.sum_append, ih (by omega),
          Finset.sum_range_succ]
        simp only [List.flatMap_cons, List.flatMap_nil, List.append_nil, List.map_cons, List.map_nil, List.sum_cons,
          List.sum_nil, monomialAt_powExp d m _ _ hl (by omega), hget m (by omega), pow_one, add_zero]
    exact this d le_rfl
  obtain ⟨s, V, e1, e2, e3, e4⟩ := C65_polynomials_partial la hla d mu lb ub sg h hmu N hN hb f []
    (by simp) hf (fun _ => P) (fun _ _ m hm => by
      rw [hP] at hm
      rcases List.mem_cons.mp hm with rfl | hm
      · exact powExp_admissible d mu hd2' hv 0 0 (by omega) (by omega)
      · obtain ⟨i, hi, hm⟩ := List.mem_flatMap.mp hm
        rw [List.mem_range] at hi
        simp only [List.mem_cons, List.not_mem_nil, or_false] at hm
        rcases hm with rfl | rfl
        · exact powExp_admissible d mu hd2' hv i 1 hi (by omega)
        · exact powExp_admissible d mu hd2' hv i 2 hi (by omega))
    (fun r hr idx hidx => by
      match idx, hidx with
      | [], _ => rw [hval sg.grid N r hN]; exact hfP r hr) pts n hp
  exact ⟨s, V, e1, e2, e3, fun r hr => by rw [e4 r hr [] trivial, hval pts n r hp]⟩

/-! ### C66 -/

/-- **C66.** With one output, `interpolate(pts, deriv=True)` returns the partial derivatives of the
interpolant with respect to the original coordinates. -/
theorem C66_gradient_partial (f : NdArray ℝ) (hf : f.shape = [N]) (pts : NdArray ℝ) (n : ℕ) (hp : pts.shape = [n, d]) :
    ∃ s G V, SInterp.new la sg f = .ok s ∧ s.interpolate la pts false true false false = .ok (.one G) ∧
      s.interpolate la pts true true false false = .ok (.many [V, G]) ∧ values la s pts = .ok (.one V) ∧
      G.shape = [n, d] ∧ ∀ r < n, ∀ i < d,
        (∀ u, ∃ W, values la s (setAt pts [r, i] u) = .ok (.one W)) ∧
        HasDerivAt (fun u => retEntry (values la s (setAt pts [r, i] u)) [r]) (G.get [r, i]) (pts.get [r, i]) := by
  obtain ⟨M, hg, rfl, hmu', hM⟩ := grid_unpack la hla d mu lb ub sg h
  have hM48 : M ≤ 48 := by have := (hM 48).mp hmu; omega
  have hNe : N = (pRows sg.inds).length := by
    have := hg.gridArr.1; rw [hN] at this; injection this
  subst hNe
  obtain ⟨θ, eθ, sθ, gθ⟩ := theta_ok la hla hg hM48 f [] (by simp) hf
  obtain ⟨V, B, X, sV, _, _, gV, _, _, eV, eG⟩ := interpolate_ok la hla hg hM48 f θ [] (by simp) sθ pts n hp
  obtain ⟨G, sG, gG, eG⟩ := eG rfl
  refine ⟨⟨sg, f, θ⟩, G, V, by rw [SInterp.new, eθ, ok_bind]; rfl, by simpa [unwrap, values] using eG false false false,
    by simpa [unwrap, values] using eG true false false, by simpa [unwrap, values] using eV true false false, sG, fun r hr i hi => ?_⟩
  have key : ∀ u, ∃ W, values la ⟨sg, f, θ⟩ (setAt pts [r, i] u) = .ok (.one W) ∧
      W.get [r] = comb sg.inds (fun j => θ.get [j])
        (toCube sg.lb sg.ub ((Smolyak.rowOf pts sg.d r).set i u)) := by
    intro u
    obtain ⟨W, _, _, _, _, _, gW, _, _, eW, _⟩ := interpolate_ok la hla hg hM48 f θ [] (by simp) sθ
      (setAt pts [r, i] u) n hp
    refine ⟨W, by simpa [unwrap, values] using eW true false false, ?_⟩
    rw [gW]
    congr 2
    apply List.ext_getElem
    · simp [Smolyak.rowOf]
    · intro k h1 h2
      simp only [Smolyak.rowOf, setAt, List.getElem_map, List.getElem_range, List.getElem_set]
      by_cases hk : i = k
      · subst hk; simp
      · simp [hk, Ne.symm hk]
  refine ⟨fun u => (key u).imp fun W hW => hW.1, ?_⟩
  have hfun : (fun u => retEntry (values la ⟨sg, f, θ⟩ (setAt pts [r, i] u)) [r])
      = fun u => comb sg.inds (fun j => θ.get [j])
        (toCube sg.lb sg.ub ((Smolyak.rowOf pts sg.d r).set i u)) := by
    funext u
    obtain ⟨W, e1, e2⟩ := key u
    rw [e1, ← e2]; rfl
  rw [hfun, gG r i hi]
  have := hg.inds.hasDerivAt_comb (fun j => θ.get [j]) sg.lb sg.ub (Smolyak.rowOf pts sg.d r)
    (by simp [Smolyak.rowOf]) i hi
  have hx : (Smolyak.rowOf pts sg.d r).getD i 0 = pts.get [r, i] := by
    rw [List.getD_eq_getElem _ _ (by simpa [Smolyak.rowOf] using hi)]
    simp [Smolyak.rowOf]
  rw [hx] at this
  exact this

/-- **C66 fails** with several outputs (data of shape `(N, k)`, `k ≠ 1`, `k ≠ d`): every call with
`deriv=True` raises `ValueError`. -/
theorem C66_multi_fails (k : ℕ) (hk1 : k ≠ 1) (hkd : k ≠ d) (f : NdArray ℝ) (hf : f.shape = [N, k])
    (pts : NdArray ℝ) (n : ℕ) (hp : pts.shape = [n, d]) :
    ∃ s, SInterp.new la sg f = .ok s ∧ ∀ interp deriv_th deriv_X,
      s.interpolate la pts interp true deriv_th deriv_X = .error .value := by
  obtain ⟨M, hg, rfl, hmu', hM⟩ := grid_unpack la hla d mu lb ub sg h
  have hM48 : M ≤ 48 := by have := (hM 48).mp hmu; omega
  have hNe : N = (pRows sg.inds).length := by
    have := hg.gridArr.1; rw [hN] at this; injection this
  subst hNe
  obtain ⟨θ, eθ, sθ, gθ⟩ := theta_ok la hla hg hM48 f [k] (by simp) hf
  obtain ⟨G0, s0, _, he, _⟩ := interpolate_multi la hg f θ k sθ pts n hp
  refine ⟨⟨sg, f, θ⟩, by rw [SInterp.new, eθ, ok_bind]; rfl, he _ ?_⟩
  have hl : (List.zipWith (fun u l => ((2 : ℕ) : ℝ) / (u - l)) sg.ub sg.lb).length = sg.d := by
    rw [List.length_zipWith, hg.lbl, hg.ubl, min_self]
  have hd := hg.inds.hd
  rw [scaleLast, s0]
  simp only [List.getLast?_cons_cons, List.getLast?_singleton, Option.getD_some, hl]
  rw [if_neg hkd, if_neg hk1, if_neg (by omega)]
  rfl

/-- **C66 fails** with `k = d` or `k = 1` columns of data: the entry `[r, i, j]` that is returned is the
derivative of an output in direction `i` multiplied by `(ub_i - lb_i) / (ub_j - lb_j)`; with `k = 1` the
array has shape `(n, d, d)` instead of `(n, d, 1)`. -/
theorem C66_columns_fails (k : ℕ) (hk : k = d ∨ k = 1) (hb : ∀ i < d, sg.lb.getD i 0 ≠ sg.ub.getD i 0)
    (f : NdArray ℝ) (hf : f.shape = [N, k]) (pts : NdArray ℝ) (n : ℕ) (hp : pts.shape = [n, d]) :
    ∃ s G, SInterp.new la sg f = .ok s ∧ s.interpolate la pts false true false false = .ok (.one G) ∧
      G.shape = [n, d, d] ∧ ∀ r < n, ∀ i < d, ∀ j < d,
        HasDerivAt (fun u => retEntry (values la s (setAt pts [r, i] u)) [r, if k = 1 then 0 else j])
          (G.get [r, i, j] * ((sg.ub.getD j 0 - sg.lb.getD j 0) / (sg.ub.getD i 0 - sg.lb.getD i 0)))
          (pts.get [r, i]) := by
  obtain ⟨M, hg, rfl, hmu', hM⟩ := grid_unpack la hla d mu lb ub sg h
  have hM48 : M ≤ 48 := by have := (hM 48).mp hmu; omega
  have hNe : N = (pRows sg.inds).length := by
    have := hg.gridArr.1; rw [hN] at this; injection this
  subst hNe
  have hd := hg.inds.hd
  obtain ⟨θ, eθ, sθ, gθ⟩ := theta_ok la hla hg hM48 f [k] (by simp) hf
  obtain ⟨G0, s0, g0, _, hG⟩ := interpolate_multi la hg f θ k sθ pts n hp
  set rr := List.zipWith (fun u l => ((2 : ℕ) : ℝ) / (u - l)) sg.ub sg.lb with hrr
  have hl : rr.length = sg.d := by
    rw [hrr, List.length_zipWith, hg.lbl, hg.ubl, min_self]
  have hget : ∀ j < sg.d, rr.getD j 0 = 2 / (sg.ub.getD j 0 - sg.lb.getD j 0) := by
    intro j hj
    rw [List.getD_eq_getElem _ _ (by omega), List.getD_eq_getElem _ _ (by rw [hg.ubl]; exact hj),
      List.getD_eq_getElem _ _ (by rw [hg.lbl]; exact hj)]
    simp [hrr]
  obtain ⟨G, eG, sG, gG⟩ : ∃ G, scaleLast G0 rr = .ok G ∧ G.shape = [n, sg.d, sg.d] ∧
      ∀ r i j, j < sg.d → G.get [r, i, j] = G0.get [r, i, if k = 1 then 0 else j] * (2 / (sg.ub.getD j 0 - sg.lb.getD j 0)) := by
    rw [scaleLast, s0]
    simp only [List.getLast?_cons_cons, List.getLast?_singleton, Option.getD_some, hl]
    rcases hk with rfl | rfl
    · refine ⟨_, by rw [if_pos rfl]; rfl, rfl, fun r i j hj => ?_⟩
      simp only [List.getLast?_cons_cons, List.getLast?_singleton, Option.getD_some, hget j hj]
      rw [if_neg (by omega)]
    · refine ⟨_, by rw [if_neg (by omega), if_pos rfl]; rfl, rfl, fun r i j hj => ?_⟩
      simp only [List.getLast?_cons_cons, List.getLast?_singleton, Option.getD_some, hget j hj]
      simp
  refine ⟨⟨sg, f, θ⟩, G, by rw [SInterp.new, eθ, ok_bind]; rfl, hG G eG, sG, fun r hr i hi j hj => ?_⟩
  generalize hc : (if k = 1 then 0 else j) = c at *
  have key : ∀ u, ∃ W, values la ⟨sg, f, θ⟩ (setAt pts [r, i] u) = .ok (.one W) ∧
      W.get [r, c] = comb sg.inds (fun p => θ.get [p, c])
        (toCube sg.lb sg.ub ((Smolyak.rowOf pts sg.d r).set i u)) := by
    intro u
    obtain ⟨W, _, _, _, _, _, gW, _, _, eW, _⟩ := interpolate_ok la hla hg hM48 f θ [k] (by simp) sθ
      (setAt pts [r, i] u) n hp
    refine ⟨W, by simpa [unwrap, values] using eW true false false, ?_⟩
    rw [gW]
    congr 2
    apply List.ext_getElem
    · simp [Smolyak.rowOf]
    · intro k h1 h2
      simp only [Smolyak.rowOf, setAt, List.getElem_map, List.getElem_range, List.getElem_set]
      by_cases hk : i = k
      · subst hk; simp
      · simp [hk, Ne.symm hk]
  have hfun : (fun u => retEntry (values la ⟨sg, f, θ⟩ (setAt pts [r, i] u)) [r, c])
      = fun u => comb sg.inds (fun p => θ.get [p, c])
        (toCube sg.lb sg.ub ((Smolyak.rowOf pts sg.d r).set i u)) := by
    funext u
    obtain ⟨W, e1, e2⟩ := key u
    rw [e1, ← e2]; rfl
  rw [hfun]
  have := hg.inds.hasDerivAt_comb (fun p => θ.get [p, c]) sg.lb sg.ub (Smolyak.rowOf pts sg.d r)
    (by simp [Smolyak.rowOf]) i hi
  have hx : (Smolyak.rowOf pts sg.d r).getD i 0 = pts.get [r, i] := by
    rw [List.getD_eq_getElem _ _ (by simpa [Smolyak.rowOf] using hi)]
    simp [Smolyak.rowOf]
  rw [hx] at this
  refine this.congr_deriv ?_
  rw [gG r i j hj, hc, g0 r i c hi]
  have h1 : sg.ub.getD j 0 - sg.lb.getD j 0 ≠ 0 := sub_ne_zero.mpr (hb j hj).symm
  have h2 : sg.ub.getD i 0 - sg.lb.getD i 0 ≠ 0 := sub_ne_zero.mpr (hb i hi).symm
  field_simp

/-! ### C67 -/

/-- **C67.** `deriv_th` returns the derivative of the values with respect to the coefficients. -/
theorem C67_theta_partial (f θ : NdArray ℝ) (t : List ℕ) (ht : t.length ≤ 1) (hθ : θ.shape = N :: t)
    (pts : NdArray ℝ) (n : ℕ) (hp : pts.shape = [n, d]) :
    ∃ B, SInterp.interpolate la ⟨sg, f, θ⟩ pts false false true false = .ok (.one B) ∧ B.shape = [n, N] ∧
      ∀ r < n, ∀ j < N, ∀ idx, InShape t idx →
        (∀ u, ∃ W, values la ⟨sg, f, setAt θ (j :: idx) u⟩ pts = .ok (.one W)) ∧
        HasDerivAt (fun u => retEntry (values la ⟨sg, f, setAt θ (j :: idx) u⟩ pts) (r :: idx)) (B.get [r, j])
          (θ.get (j :: idx)) := by
  obtain ⟨M, hg, rfl, hmu', hM⟩ := grid_unpack la hla d mu lb ub sg h
  have hM48 : M ≤ 48 := by have := (hM 48).mp hmu; omega
  have hNe : N = (pRows sg.inds).length := by
    have := hg.gridArr.1; rw [hN] at this; injection this
  subst hNe
  obtain ⟨V, B, X, _, sB, _, _, gB, _, eV, _⟩ := interpolate_ok la hla hg hM48 f θ t ht hθ pts n hp
  refine ⟨B, by simpa [unwrap, values] using eV false true false, sB, fun r hr j hj idx hidx => ?_⟩
  have key : ∀ u, ∃ W, values la ⟨sg, f, setAt θ (j :: idx) u⟩ pts = .ok (.one W) ∧
      W.get (r :: idx) = ∑ p : Fin (pRows sg.inds).length, B.get [r, (p : ℕ)] * (if (p : ℕ) = j then u else θ.get (p :: idx)) := by
    intro u
    obtain ⟨W, _, _, _, _, _, gW, _, _, eW, _⟩ := interpolate_ok la hla hg hM48 f (setAt θ (j :: idx) u) t ht hθ
      pts n hp
    refine ⟨W, by simpa [unwrap, values] using eW true false false, ?_⟩
    rw [gW, comb]
    refine Finset.sum_congr rfl fun p _ => ?_
    rw [gB r p p.2]
    simp [setAt]
  refine ⟨fun u => (key u).imp fun W hW => hW.1, ?_⟩
  have hfun : (fun u => retEntry (values la ⟨sg, f, setAt θ (j :: idx) u⟩ pts) (r :: idx))
      = fun u => ∑ p : Fin (pRows sg.inds).length, B.get [r, (p : ℕ)] * (if (p : ℕ) = j then u else θ.get (p :: idx)) := by
    funext u
    obtain ⟨W, e1, e2⟩ := key u
    rw [e1, ← e2]; rfl
  rw [hfun]
  have hd : ∀ p : Fin (pRows sg.inds).length, HasDerivAt
      (fun u => B.get [r, (p : ℕ)] * (if (p : ℕ) = j then u else θ.get (p :: idx)))
      (if p = ⟨j, hj⟩ then B.get [r, j] else 0) (θ.get (j :: idx)) := by
    intro p
    by_cases hpj : p = ⟨j, hj⟩
    · subst hpj
      simp only [if_true]
      simpa using (hasDerivAt_id (θ.get (j :: idx))).const_mul (B.get [r, j])
    · have : (p : ℕ) ≠ j := fun e => hpj (Fin.ext e)
      simp only [this, if_false, hpj]
      exact hasDerivAt_const _ _
  refine (HasDerivAt.fun_sum fun p _ => hd p).congr_deriv ?_
  simp

/-- **C67.** `deriv_X` returns the derivative of the values with respect to the data on the grid; the
values are linear in the data, and this derivative depends neither on the data nor on the object's
current coefficients. -/
theorem C67_data_partial (pts : NdArray ℝ) (n : ℕ) (hp : pts.shape = [n, d]) :
    ∃ X : NdArray ℝ, X.shape = [n, N] ∧ ∀ (f : NdArray ℝ) (t : List ℕ), t.length ≤ 1 → f.shape = N :: t →
      ∃ s, SInterp.new la sg f = .ok s ∧ s.interpolate la pts false false false true = .ok (.one X) ∧
      ∀ r < n, ∀ idx, InShape t idx →
        (∃ V, values la s pts = .ok (.one V) ∧
          V.get (r :: idx) = ∑ k ∈ Finset.range N, X.get [r, k] * f.get (k :: idx)) ∧
        ∀ k < N, HasDerivAt (fun u => retEntry (SInterp.new la sg (setAt f (k :: idx) u) >>= fun s => values la s pts)
          (r :: idx)) (X.get [r, k]) (f.get (k :: idx)) := by
  obtain ⟨M, hg, rfl, hmu', hM⟩ := grid_unpack la hla d mu lb ub sg h
  have hM48 : M ≤ 48 := by have := (hM 48).mp hmu; omega
  have hNe : N = (pRows sg.inds).length := by
    have := hg.gridArr.1; rw [hN] at this; injection this
  subst hNe
  -- `X` for some coefficients
  obtain ⟨_, B0, X, _, _, sX, _, gB0, gX, eX, _⟩ := interpolate_ok la hla hg hM48 ⟨[(pRows sg.inds).length], fun _ => 0⟩
    ⟨[(pRows sg.inds).length], fun _ => 0⟩ [] (by simp) rfl pts n hp
  have hfd : ∀ f θ, SInterp.interpolate la ⟨sg, f, θ⟩ pts false false false true = .ok (.one X) := by
    intro f θ
    have := eX false false true
    simpa [SInterp.interpolate, unwrap] using this
  have key : ∀ (f : NdArray ℝ) (t : List ℕ), t.length ≤ 1 → f.shape = (pRows sg.inds).length :: t →
      ∃ s V, SInterp.new la sg f = .ok s ∧ s.sg = sg ∧ values la s pts = .ok (.one V) ∧
      ∀ r < n, ∀ idx, InShape t idx → V.get (r :: idx)
        = ∑ k ∈ Finset.range (pRows sg.inds).length, X.get [r, k] * f.get (k :: idx) := by
    intro f t ht hf
    obtain ⟨θ, eθ, sθ, gθ⟩ := theta_ok la hla hg hM48 f t ht hf
    obtain ⟨V, B, _, _, _, _, gV, gB, _, eV, _⟩ := interpolate_ok la hla hg hM48 f θ t ht sθ pts n hp
    refine ⟨⟨sg, f, θ⟩, V, by rw [SInterp.new, eθ, ok_bind]; rfl, rfl, by simpa [unwrap, values] using eV true false false, ?_⟩
    intro r hr idx hidx
    rw [gV, comb, ← Fin.sum_univ_eq_sum_range (fun k => X.get [r, k] * f.get (k :: idx))]
    simp only [← gθ _ idx hidx, Finset.mul_sum]
    rw [Finset.sum_comm]
    refine Finset.sum_congr rfl fun j _ => ?_
    rw [← gB0 r j j.2, ← gX ⟨r, hr⟩ j, Finset.sum_mul]
    exact Finset.sum_congr rfl fun k _ => by ring
  refine ⟨X, sX, fun f t ht hf => ?_⟩
  obtain ⟨s, V, e1, e2, e3, e4⟩ := key f t ht hf
  refine ⟨s, e1, by rw [← hfd s.f s.theta, ← e2], fun r hr idx hidx => ⟨⟨V, e3, e4 r hr idx hidx⟩, fun k hk => ?_⟩⟩
  have hfun : (fun u => retEntry (SInterp.new la sg (setAt f (k :: idx) u) >>= fun s => values la s pts) (r :: idx))
      = fun u => ∑ p : Fin (pRows sg.inds).length, X.get [r, (p : ℕ)] * (if (p : ℕ) = k then u else f.get (p :: idx)) := by
    funext u
    obtain ⟨s, V, e1, e2, e3, e4⟩ := key (setAt f (k :: idx) u) t ht hf
    rw [e1, ok_bind, e3]
    show V.get (r :: idx) = _
    rw [e4 r hr idx hidx, ← Fin.sum_univ_eq_sum_range
      (fun p => X.get [r, p] * (setAt f (k :: idx) u).get (p :: idx))]
    refine Finset.sum_congr rfl fun p _ => ?_
    simp [setAt]
  rw [hfun]
  have hd : ∀ p : Fin (pRows sg.inds).length, HasDerivAt
      (fun u => X.get [r, (p : ℕ)] * (if (p : ℕ) = k then u else f.get (p :: idx)))
      (if p = ⟨k, hk⟩ then X.get [r, k] else 0) (f.get (k :: idx)) := by
    intro p
    by_cases hpj : p = ⟨k, hk⟩
    · subst hpj
      simp only [if_true]
      simpa using (hasDerivAt_id (f.get (k :: idx))).const_mul (X.get [r, k])
    · have : (p : ℕ) ≠ k := fun e => hpj (Fin.ext e)
      simp only [this, if_false, hpj]
      exact hasDerivAt_const _ _
  refine (HasDerivAt.fun_sum fun p _ => hd p).congr_deriv ?_
  simp

/-! ### C70 -/

omit hN hla h hmu in
/-- What a call that was asked for the arrays `l` should return. -/
def Returned : List (NdArray ℝ) → Rets ℝ → Prop
  | [A], R => R = .one A
  | l, R => R = .many l

omit hN hla h hmu in
theorem returned_unwrap (l : List (NdArray ℝ)) : Returned l (unwrap l) := by
  rcases l with _ | ⟨a, _ | ⟨b, l⟩⟩ <;> rfl

/-- **C70.** With one output, for every combination of flags the call returns exactly the requested
arrays, in the order values, gradient, `deriv_th`, `deriv_X`, unwrapped when there is exactly one; each
is the array that the call with this flag only returns. With several outputs the same holds as long as
`deriv` is not set (otherwise: `C66_multi_fails`). -/
theorem C70_flags_partial (f : NdArray ℝ) (t : List ℕ) (ht : t.length ≤ 1) (hf : f.shape = N :: t)
    (pts : NdArray ℝ) (n : ℕ) (hp : pts.shape = [n, d]) :
    ∃ s V G B X, SInterp.new la sg f = .ok s ∧
      s.interpolate la pts true false false false = .ok (.one V) ∧
      s.interpolate la pts false false true false = .ok (.one B) ∧
      s.interpolate la pts false false false true = .ok (.one X) ∧
      (t = [] → s.interpolate la pts false true false false = .ok (.one G)) ∧
      ∀ interp deriv deriv_th deriv_X, (deriv = false ∨ t = []) →
        ∃ R, s.interpolate la pts interp deriv deriv_th deriv_X = .ok R ∧
          Returned ((if interp then [V] else []) ++ (if deriv then [G] else []) ++ (if deriv_th then [B] else []) ++
            (if deriv_X then [X] else [])) R := by
  obtain ⟨M, hg, rfl, hmu', hM⟩ := grid_unpack la hla d mu lb ub sg h
  have hM48 : M ≤ 48 := by have := (hM 48).mp hmu; omega
  have hNe : N = (pRows sg.inds).length := by
    have := hg.gridArr.1; rw [hN] at this; injection this
  subst hNe
  obtain ⟨θ, eθ, sθ, gθ⟩ := theta_ok la hla hg hM48 f t ht hf
  obtain ⟨V, B, X, _, _, _, _, _, _, eV, eG⟩ := interpolate_ok la hla hg hM48 f θ t ht sθ pts n hp
  have hG : ∃ G, t = [] → ∀ interp deriv_th deriv_X, SInterp.interpolate la ⟨sg, f, θ⟩ pts interp true deriv_th deriv_X
          = .ok (unwrap ((if interp then [V] else []) ++ [G] ++ (if deriv_th then [B] else [])
            ++ (if deriv_X then [X] else []))) := by
    by_cases ht0 : t = []
    · obtain ⟨G, _, _, e⟩ := eG ht0
      exact ⟨G, fun _ => e⟩
    · exact ⟨V, fun e => absurd e ht0⟩
  obtain ⟨G, eG⟩ := hG
  refine ⟨⟨sg, f, θ⟩, V, G, B, X, by rw [SInterp.new, eθ, ok_bind]; rfl, by simpa [unwrap, values] using eV true false false,
    by simpa [unwrap, values] using eV false true false, by simpa [unwrap, values] using eV false false true,
    fun e => by simpa [unwrap, values] using eG e false false false, ?_⟩
  intro interp deriv deriv_th deriv_X hdv
  cases deriv with
  | false => exact ⟨_, eV interp deriv_th deriv_X, by simpa using returned_unwrap _⟩
  | true =>
    rcases hdv with hdv | hdv
    · cases hdv
    · exact ⟨_, eG hdv interp deriv_th deriv_X, by simpa using returned_unwrap _⟩

end

/-! ### C69 -/

section
variable {K : Type} [Add K] [Sub K] [Mul K] [Div K] [Neg K] [Zero K] [One K] [NatCast K] [IntCast K]
  [LT K] [DecidableLT K] [Trig K]

/-- The object after a sequence of calls `update_theta` (exceptions are caught by the caller). -/
def updates (la : LinAlg K) (s : SInterp K) (fs : List (NdArray K)) : SInterp K :=
  fs.foldl (fun s f => (s.update la f).1) s

theorem updates_sg (la : LinAlg K) : ∀ (fs : List (NdArray K)) (s : SInterp K), (updates la s fs).sg = s.sg
  | [], _ => rfl
  | f :: fs, s => by
    rw [updates, List.foldl_cons]
    show (updates la (s.update la f).1 fs).sg = _
    rw [updates_sg la fs, SInterp.update]
    split <;> rfl

/-- **C69**, in any arithmetic: after any sequence of updates, failed ones included, an update with data
from which an interpolant can be built gives the freshly built interpolant. -/
theorem C69_update (la : LinAlg K) (s : SInterp K) (fs : List (NdArray K)) (f : NdArray K) (s' : SInterp K)
    (h : SInterp.new la s.sg f = .ok s') : (updates la s fs).update la f = (s', none) := by
  have hs := updates_sg la fs s
  rw [SInterp.new] at h
  rcases e : findTheta la s.sg f with e' | θ
  · rw [e] at h; cases h
  · rw [e, ok_bind] at h
    injection h with h
    rw [SInterp.update, hs, e, ← h]

/-- An update that fails raises the exception of the constructor; the object keeps the coefficients of
the last successful update although it already stores the new data. -/
theorem C69_failed_update (la : LinAlg K) (s : SInterp K) (f : NdArray K) (e : Err)
    (h : SInterp.new la s.sg f = .error e) :
    s.update la f = (⟨s.sg, f, s.theta⟩, some e) := by
  rw [SInterp.new] at h
  rcases e' : findTheta la s.sg f with e'' | θ
  · rw [e'] at h
    rw [SInterp.update, e']
    injection h with h
    rw [h]
  · rw [e', ok_bind] at h; cases h

end

/-! ### A concrete grid -/

/-- The theorems above apply: on the grid `SmolyakGrid(2, 2, [0, 1], [2, 5])`, the interpolant of the data
`1 + x` is `1 + x` at the point `(7, -3)`. -/
example : ∃ sg N, Grid.new exactLA 2 (.iso 2) (.array [0, 1]) (.array [2, 5]) = .ok sg ∧ sg.grid.shape = [N, 2] ∧
    ∃ s V, SInterp.new exactLA sg ⟨[N], fun idx => 1 + sg.grid.get [idx.headD 0, 0]⟩ = .ok s ∧
      values exactLA s ⟨[1, 2], fun idx => if idx = [0, 0] then 7 else -3⟩ = .ok (.one V) ∧ V.get [0] = 8 := by
  obtain ⟨sg, M, e, hd, _, e3, e4, _, hg⟩ := new_ok exactLA exactLA_ok 2 (.iso 2) (.array [0, 1]) (.array [2, 5])
    [0, 1] [2, 5] le_rfl (by simp [ValidMu]) (.array _ rfl) (.array _ rfl)
  have hN := hg.gridArr.1
  rw [hd] at hN
  refine ⟨sg, _, e, hN, ?_⟩
  obtain ⟨s, V, e1, e2, _, h2⟩ := C65_quadratics_partial exactLA exactLA_ok 2 (.iso 2) (.array [0, 1]) (.array [2, 5])
    sg e (by simp [MuLe]) _ hN (by
      intro i hi
      rw [e3, e4]
      interval_cases i <;> norm_num)
    ⟨[_], fun idx => 1 + sg.grid.get [idx.headD 0, 0]⟩ rfl 1 (fun i => if i = 0 then 1 else 0) (fun _ => 0)
    (by intro r _; simp [Finset.sum_range_succ]) ⟨[1, 2], fun idx => if idx = [0, 0] then 7 else -3⟩ 1 rfl
  refine ⟨s, V, e1, e2, ?_⟩
  rw [h2 0 (by norm_num)]
  norm_num [Finset.sum_range_succ]

end Interp.Props
