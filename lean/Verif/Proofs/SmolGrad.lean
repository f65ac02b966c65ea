import Verif.Proofs.SmolPoly

/-! Gradients with several outputs, and values on a grid with any `mu`. -/

set_option linter.unusedSectionVars false
set_option linter.unusedSimpArgs false

namespace Interp.Smolyak
open Interp.Spec Interp.CompletePoly

variable {sg : Grid ℝ} {M : ℕ}

/-- Gradient of an interpolant with `k` outputs: the array before the scaling, and what the scaling does. -/
theorem interpolate_multi (la : LinAlg ℝ) (h : GridOK sg M) (f θ : NdArray ℝ) (k : ℕ)
    (hθ : θ.shape = [(pRows sg.inds).length, k]) (pts : NdArray ℝ) (n : ℕ) (hp : pts.shape = [n, sg.d]) :
    ∃ G0 : NdArray ℝ, G0.shape = [n, sg.d, k] ∧
      (∀ r i j, i < sg.d → G0.get [r, i, j] = ∑ p : Fin (pRows sg.inds).length,
        θ.get [(p : ℕ), j] * basisDer ((pRows sg.inds).getD p []) (toCube sg.lb sg.ub (rowOf pts sg.d r)) i) ∧
      (∀ e, scaleLast G0 (List.zipWith (fun u l => ((2 : ℕ) : ℝ) / (u - l)) sg.ub sg.lb) = .error e →
        ∀ interp deriv_th deriv_X, SInterp.interpolate la ⟨sg, f, θ⟩ pts interp true deriv_th deriv_X = .error e) ∧
      (∀ G, scaleLast G0 (List.zipWith (fun u l => ((2 : ℕ) : ℝ) / (u - l)) sg.ub sg.lb) = .ok G →
        SInterp.interpolate la ⟨sg, f, θ⟩ pts false true false false = .ok (.one G)) := by
  have hdims : dims2 pts = .ok (n, sg.d) := by rw [dims2, hp]; rfl
  set x : NdArray ℝ := ⟨[n, sg.d], fun idx =>
      (pts.get idx - center (sg.lb.getD (idx.getLastD 0) 0) (sg.ub.getD (idx.getLastD 0) 0))
        / radius (sg.lb.getD (idx.getLastD 0) 0) (sg.ub.getD (idx.getLastD 0) 0)⟩ with hx
  have hdom : dom2cube sg.lb sg.ub pts = .ok x := dom2cube_ok hp h.lbl h.ubl
  obtain ⟨B, D, eB, eD, sB, gB, sD, gD⟩ := buildBDeriv_ok (K := ℝ) sg.d M n sg.mu x (pRows sg.inds)
    (by have := h.inds.hd; omega) h.inds.top rfl (fun p hp => (h.inds.pRows_bounds hp).1)
    (fun p hp => (h.inds.pRows_bounds hp).2)
  obtain ⟨V, eV⟩ : ∃ V, dot B θ = .ok V := ⟨_, by rw [dot, sB, hθ]; simp; rfl⟩
  set G0 : NdArray ℝ := ⟨n :: sg.d :: [k], fun idx => ((List.range (pRows sg.inds).length).map fun j =>
      θ.get (j :: (idx.drop 2).reverse) * D.get [j, idx.getD 1 0, idx.getD 0 0]).foldl (· + ·) 0⟩ with hG0
  have eG0 : gradDot θ D = .ok G0 := by rw [gradDot, hθ, sD]; simp [hG0]
  refine ⟨G0, rfl, ?_, ?_, ?_⟩
  · intro r i j hi
    show ((List.range (pRows sg.inds).length).map fun p => θ.get [p, j] * D.get [p, i, r]).foldl (· + ·) 0 = _
    rw [foldl_fin_sum]
    exact Finset.sum_congr rfl fun p _ => by rw [gD p i r p.2, hx, rowOf_toCube]
  · intro e he interp deriv_th deriv_X
    simp only [SInterp.interpolate, hdims, ok_bind, hdom, h.pinds, eD, if_true, eV, eG0, he]
    rfl
  · intro G hG
    simp only [SInterp.interpolate, hdims, ok_bind, hdom, h.pinds, eD, if_true, eV, eG0, hG]
    rfl

/-- Values for any `mu`. -/
theorem interpolate_val (la : LinAlg ℝ) (h : GridOK sg M) (f θ : NdArray ℝ) (pts : NdArray ℝ) (n : ℕ)
    (hp : pts.shape = [n, sg.d]) (R : Rets ℝ)
    (hR : SInterp.interpolate la ⟨sg, f, θ⟩ pts true false false false = .ok R) :
    ∃ V, R = .one V ∧ ∃ g : List ℝ → ℝ, ∀ r, V.get [r] = g (rowOf pts sg.d r) := by
  have hdims : dims2 pts = .ok (n, sg.d) := by rw [dims2, hp]; rfl
  set x : NdArray ℝ := ⟨[n, sg.d], fun idx =>
      (pts.get idx - center (sg.lb.getD (idx.getLastD 0) 0) (sg.ub.getD (idx.getLastD 0) 0))
        / radius (sg.lb.getD (idx.getLastD 0) 0) (sg.ub.getD (idx.getLastD 0) 0)⟩ with hx
  have hdom : dom2cube sg.lb sg.ub pts = .ok x := dom2cube_ok hp h.lbl h.ubl
  obtain ⟨B, eB, sB, gB⟩ := buildB_ok (K := ℝ) sg.d M n sg.mu x (pRows sg.inds)
    (by have := h.inds.hd; omega) h.inds.top rfl (fun p hp => (h.inds.pRows_bounds hp).1)
    (fun p hp => (h.inds.pRows_bounds hp).2)
  simp only [SInterp.interpolate, hdims, ok_bind, hdom, h.pinds, eB, if_true, Bool.false_eq_true, if_false] at hR
  rw [dot, sB] at hR
  rcases hsh : θ.shape with _ | ⟨q, t⟩
  · rw [hsh] at hR; cases hR
  rw [hsh] at hR
  by_cases hq : (pRows sg.inds).length = q
  · simp only [hq, if_true, pure_eq_ok, ok_bind, unwrap] at hR
    injection hR with hR
    refine ⟨_, hR.symm, fun y => ((List.range q).map fun j =>
      basisVal ((pRows sg.inds).getD j []) (toCube sg.lb sg.ub y) * θ.get [j]).foldl (· + ·) 0, fun r => ?_⟩
    show ((List.range q).map fun j => B.get [r, j] * θ.get [j]).foldl (· + ·) 0 = _
    congr 1
    refine List.map_congr_left fun j hj => ?_
    rw [gB r j (by rw [hq]; exact List.mem_range.mp hj), hx, rowOf_toCube]
  · simp only [hq, if_false] at hR
    cases hR

end Interp.Smolyak
