import Verif.Proofs.SmolGrad
import Verif.Proofs.SmolRounding

/-!
# `interpolate` with any linear algebra and any levels
-/

set_option linter.unusedSectionVars false
set_option linter.unusedSimpArgs false

namespace Interp.Smolyak
open Interp.Spec
open Interp.CompletePoly (transpose dot rangeN)

/-- The three arrays that `interpolate` can return without `deriv_X`. -/
theorem interpolate_any (la : LinAlg ℝ) (sg : Grid ℝ) (M : ℕ) (inds : List (List ℤ)) (hi : IndsOK sg.d sg.mu M inds)
    (hp' : sg.pinds = pRows inds) (hl : sg.lb.length = sg.d) (hu : sg.ub.length = sg.d) (f θ : NdArray ℝ) (t : List ℕ)
    (hθ : θ.shape = (pRows inds).length :: t) (pts : NdArray ℝ) (n : ℕ) (hp : pts.shape = [n, sg.d]) :
    ∃ V B : NdArray ℝ, V.shape = n :: t ∧ B.shape = [n, (pRows inds).length] ∧
      (∀ r idx, V.get (r :: idx) = comb inds (fun j => θ.get (j :: idx)) (toCube sg.lb sg.ub (rowOf pts sg.d r))) ∧
      (∀ r j, j < (pRows inds).length → B.get [r, j] = chebProd (ksOf inds j) (toCube sg.lb sg.ub (rowOf pts sg.d r))) ∧
      (∀ interp deriv_th, SInterp.interpolate la ⟨sg, f, θ⟩ pts interp false deriv_th false
        = .ok (unwrap ((if interp then [V] else []) ++ (if deriv_th then [B] else [])))) ∧
      (t = [] → ∃ G : NdArray ℝ, G.shape = [n, sg.d] ∧
        (∀ r i, i < sg.d → G.get [r, i] = (∑ j : Fin (pRows inds).length,
          θ.get [(j : ℕ)] * basisDer ((pRows inds).getD j []) (toCube sg.lb sg.ub (rowOf pts sg.d r)) i)
            * (2 / (sg.ub.getD i 0 - sg.lb.getD i 0))) ∧
        ∀ interp deriv_th, SInterp.interpolate la ⟨sg, f, θ⟩ pts interp true deriv_th false
          = .ok (unwrap ((if interp then [V] else []) ++ [G] ++ (if deriv_th then [B] else [])))) := by
  have hdims : dims2 pts = .ok (n, sg.d) := by rw [dims2, hp]; rfl
  set x : NdArray ℝ := ⟨[n, sg.d], fun idx =>
      (pts.get idx - center (sg.lb.getD (idx.getLastD 0) 0) (sg.ub.getD (idx.getLastD 0) 0))
        / radius (sg.lb.getD (idx.getLastD 0) 0) (sg.ub.getD (idx.getLastD 0) 0)⟩ with hx
  have hdom : dom2cube sg.lb sg.ub pts = .ok x := dom2cube_ok hp hl hu
  obtain ⟨B, D, eB, eD, sB, gB, sD, gD⟩ := buildBDeriv_ok (K := ℝ) sg.d M n sg.mu x (pRows inds)
    (by have := hi.hd; omega) hi.top rfl (fun p hp => (hi.pRows_bounds hp).1)
    (fun p hp => (hi.pRows_bounds hp).2)
  have gB' : ∀ r j, j < (pRows inds).length →
      B.get [r, j] = chebProd (ksOf inds j) (toCube sg.lb sg.ub (rowOf pts sg.d r)) := by
    intro r j hj
    rw [gB r j hj, basisVal_eq, hx, rowOf_toCube]
    rfl
  have gD' : ∀ j i r, j < (pRows inds).length →
      D.get [j, i, r] = basisDer ((pRows inds).getD j []) (toCube sg.lb sg.ub (rowOf pts sg.d r)) i := by
    intro j i r hj
    rw [gD j i r hj, hx, rowOf_toCube]
  -- values
  set V : NdArray ℝ := ⟨n :: t, fun idx => ((List.range (pRows inds).length).map fun j =>
        B.get [idx.headD 0, j] * θ.get (j :: idx.tail)).foldl (· + ·) 0⟩ with hV
  have eV : dot B θ = .ok V := by rw [dot, sB, hθ]; simp [hV]
  have gV : ∀ r idx, V.get (r :: idx)
        = comb inds (fun j => θ.get (j :: idx)) (toCube sg.lb sg.ub (rowOf pts sg.d r)) := by
    intro r idx
    rw [hV, comb]
    simp only [List.headD_cons, List.tail_cons]
    rw [foldl_fin_sum]
    exact Finset.sum_congr rfl fun j _ => by rw [gB' r j j.2]
  refine ⟨V, B, rfl, sB, gV, gB', ?_, ?_⟩
  · intro interp deriv_th
    simp only [SInterp.interpolate, hdims, ok_bind, hdom, hp']
    cases interp <;> cases deriv_th <;> simp [eB, eV, attr]
  · intro ht0
    subst ht0
    set G0 : NdArray ℝ := ⟨n :: sg.d :: [], fun idx => ((List.range (pRows inds).length).map fun j =>
        θ.get (j :: (idx.drop 2).reverse) * D.get [j, idx.getD 1 0, idx.getD 0 0]).foldl (· + ·) 0⟩ with hG0
    have eG0 : gradDot θ D = .ok G0 := by rw [gradDot, hθ, sD]; simp [hG0]
    set r := List.zipWith (fun u l => ((2 : ℕ) : ℝ) / (u - l)) sg.ub sg.lb with hr
    have hrl : r.length = sg.d := by rw [hr, List.length_zipWith, hl, hu, min_self]
    have eG : scaleLast G0 r = .ok ⟨G0.shape, fun idx => G0.get idx * r.getD (idx.getLast?.getD 0) 0⟩ := by
      rw [scaleLast]; simp [hG0, hrl]
    refine ⟨⟨G0.shape, fun idx => G0.get idx * r.getD (idx.getLast?.getD 0) 0⟩, rfl, ?_, ?_⟩
    · intro q i hi
      show G0.get [q, i] * r.getD i 0 = _
      have hri : r.getD i 0 = 2 / (sg.ub.getD i 0 - sg.lb.getD i 0) := by
        rw [List.getD_eq_getElem _ _ (by omega), List.getD_eq_getElem _ _ (by rw [hu]; exact hi),
          List.getD_eq_getElem _ _ (by rw [hl]; exact hi)]
        simp [hr]
      rw [hri, hG0]
      congr 1
      show ((List.range (pRows inds).length).map fun j => θ.get [j] * D.get [j, i, q]).foldl (· + ·) 0 = _
      rw [foldl_fin_sum]
      exact Finset.sum_congr rfl fun j _ => by rw [gD' j i q j.2]
    · intro interp deriv_th
      simp only [SInterp.interpolate, hdims, ok_bind, hdom, hp']
      cases interp <;> cases deriv_th <;>
        simp only [eD, ok_bind, eV, eG0, ← hr, eG, attr, pure_eq_ok, if_true, if_false, Bool.false_eq_true,
          not_true_eq_false, not_false_eq_true, and_self, and_true, and_false, false_and, true_and,
          List.append_nil, List.nil_append]

end Interp.Smolyak
