import Verif.Proofs.SmolAny
import Verif.Props.SmolyakInterp

/-!
# `SmolyakInterp` with any coefficients: C66, C67 and C70 for every level and every linear algebra

The coefficients of the object are arbitrary (the attribute `theta` is public), so that nothing is assumed about `lu` and `solve`, nor
about the levels.
-/

set_option linter.unusedSectionVars false
set_option linter.unusedSimpArgs false

namespace Interp.Props
open Interp.Spec Interp.Smolyak
open Interp.CompletePoly (transpose dot rangeN)

section
variable (la : LinAlg ℝ) (d : ℕ) (mu : Mu) (lb ub : Bound ℝ) (sg : Grid ℝ) (h : Grid.new la d mu lb ub = .ok sg)
  (N : ℕ) (hN : sg.pinds.length = N) (f θ : NdArray ℝ)
include h hN

theorem any_unpack : ∃ M inds, IndsOK sg.d sg.mu M inds ∧ sg.pinds = pRows inds ∧ sg.lb.length = sg.d ∧ sg.ub.length = sg.d ∧
    sg.d = d ∧ N = (pRows inds).length := by
  obtain ⟨hd2, hv, hd, hmu, hlb, hub, inds, he, hpi⟩ := new_any la d mu lb ub sg h
  obtain ⟨M, inds', e', hi, -⟩ := exists_inds (d : ℤ).toNat mu (by omega) hv
  obtain rfl : inds = inds' := by rw [he] at e'; exact Except.ok.inj e'
  have hpR : sg.pinds = pRows inds := by rw [polyInds_ok hi] at hpi; exact (Except.ok.inj hpi).symm
  rw [← hd, ← hmu] at hi
  exact ⟨M, inds, hi, hpR, by omega, by omega, by omega, by rw [← hN, hpR]⟩

/-- **C66** for every level, every linear algebra and all coefficients of one output: `interpolate(pts, deriv=True)` returns the
partial derivatives of the function that `interpolate` computes. -/
theorem C66_gradient_any (hθ : θ.shape = [N]) (pts : NdArray ℝ) (n : ℕ) (hp : pts.shape = [n, d]) :
    ∃ G V, SInterp.interpolate la ⟨sg, f, θ⟩ pts false true false false = .ok (.one G) ∧
      SInterp.interpolate la ⟨sg, f, θ⟩ pts true true false false = .ok (.many [V, G]) ∧
      values la ⟨sg, f, θ⟩ pts = .ok (.one V) ∧ G.shape = [n, d] ∧ ∀ r < n, ∀ i < d,
        (∀ u, ∃ W, values la ⟨sg, f, θ⟩ (setAt pts [r, i] u) = .ok (.one W)) ∧
        HasDerivAt (fun u => retEntry (values la ⟨sg, f, θ⟩ (setAt pts [r, i] u)) [r]) (G.get [r, i]) (pts.get [r, i]) := by
  obtain ⟨M, inds, hi, hp', hlb, hub, rfl, rfl⟩ := any_unpack la d mu lb ub sg h N hN
  obtain ⟨V, B, sV, _, gV, _, eV, eG⟩ := interpolate_any la sg M inds hi hp' hlb hub f θ [] hθ pts n hp
  obtain ⟨G, sG, gG, eG⟩ := eG rfl
  refine ⟨G, V, by simpa [unwrap, values] using eG false false,
    by simpa [unwrap, values] using eG true false, by simpa [unwrap, values] using eV true false, sG, fun r hr i hid => ?_⟩
  have key : ∀ u, ∃ W, values la ⟨sg, f, θ⟩ (setAt pts [r, i] u) = .ok (.one W) ∧
      W.get [r] = comb inds (fun j => θ.get [j])
        (toCube sg.lb sg.ub ((Smolyak.rowOf pts sg.d r).set i u)) := by
    intro u
    obtain ⟨W, _, _, _, gW, _, eW, _⟩ := interpolate_any la sg M inds hi hp' hlb hub f θ [] hθ
      (setAt pts [r, i] u) n hp
    refine ⟨W, by simpa [unwrap, values] using eW true false, ?_⟩
    rw [gW]
    congr 2
    apply List.ext_getElem
    · simp [Smolyak.rowOf]
    · intro k h1 h2
      simp only [Smolyak.rowOf, setAt, List.getElem_map, List.getElem_range, List.getElem_set]
      by_cases hk : i = k
      · subst hk; simp
      · simp [hk, Ne.symm hk]
  refine ⟨fun u => (key u).imp fun W hW => hW.1, ?_⟩
  have hfun : (fun u => retEntry (values la ⟨sg, f, θ⟩ (setAt pts [r, i] u)) [r])
      = fun u => comb inds (fun j => θ.get [j])
        (toCube sg.lb sg.ub ((Smolyak.rowOf pts sg.d r).set i u)) := by
    funext u
    obtain ⟨W, e1, e2⟩ := key u
    rw [e1, ← e2]; rfl
  rw [hfun, gG r i hid]
  have := hi.hasDerivAt_comb (fun j => θ.get [j]) sg.lb sg.ub (Smolyak.rowOf pts sg.d r)
    (by simp [Smolyak.rowOf]) i hid
  have hx : (Smolyak.rowOf pts sg.d r).getD i 0 = pts.get [r, i] := by
    rw [List.getD_eq_getElem _ _ (by simpa [Smolyak.rowOf] using hid)]
    simp [Smolyak.rowOf]
  rw [hx] at this
  exact this

/-- **C67** for every level, every linear algebra and any number of outputs: `deriv_th` returns the derivative of the values with
respect to the coefficients. -/
theorem C67_theta_any (t : List ℕ) (hθ : θ.shape = N :: t) (pts : NdArray ℝ) (n : ℕ) (hp : pts.shape = [n, d]) :
    ∃ B, SInterp.interpolate la ⟨sg, f, θ⟩ pts false false true false = .ok (.one B) ∧ B.shape = [n, N] ∧
      ∀ r < n, ∀ j < N, ∀ idx, InShape t idx →
        (∀ u, ∃ W, values la ⟨sg, f, setAt θ (j :: idx) u⟩ pts = .ok (.one W)) ∧
        HasDerivAt (fun u => retEntry (values la ⟨sg, f, setAt θ (j :: idx) u⟩ pts) (r :: idx)) (B.get [r, j])
          (θ.get (j :: idx)) := by
  obtain ⟨M, inds, hi, hp', hlb, hub, rfl, rfl⟩ := any_unpack la d mu lb ub sg h N hN
  obtain ⟨V, B, _, sB, _, gB, eV, _⟩ := interpolate_any la sg M inds hi hp' hlb hub f θ t hθ pts n hp
  refine ⟨B, by simpa [unwrap, values] using eV false true, sB, fun r hr j hj idx hidx => ?_⟩
  have key : ∀ u, ∃ W, values la ⟨sg, f, setAt θ (j :: idx) u⟩ pts = .ok (.one W) ∧
      W.get (r :: idx) = ∑ p : Fin (pRows inds).length, B.get [r, (p : ℕ)] * (if (p : ℕ) = j then u else θ.get (p :: idx)) := by
    intro u
    obtain ⟨W, _, _, _, gW, _, eW, _⟩ := interpolate_any la sg M inds hi hp' hlb hub f (setAt θ (j :: idx) u) t hθ
      pts n hp
    refine ⟨W, by simpa [unwrap, values] using eW true false, ?_⟩
    rw [gW, comb]
    refine Finset.sum_congr rfl fun p _ => ?_
    rw [gB r p p.2]
    simp [setAt]
  refine ⟨fun u => (key u).imp fun W hW => hW.1, ?_⟩
  have hfun : (fun u => retEntry (values la ⟨sg, f, setAt θ (j :: idx) u⟩ pts) (r :: idx))
      = fun u => ∑ p : Fin (pRows inds).length, B.get [r, (p : ℕ)] * (if (p : ℕ) = j then u else θ.get (p :: idx)) := by
    funext u
    obtain ⟨W, e1, e2⟩ := key u
    rw [e1, ← e2]; rfl
  rw [hfun]
  have hd : ∀ p : Fin (pRows inds).length, HasDerivAt
      (fun u => B.get [r, (p : ℕ)] * (if (p : ℕ) = j then u else θ.get (p :: idx)))
      (if p = ⟨j, hj⟩ then B.get [r, j] else 0) (θ.get (j :: idx)) := by
    intro p
    by_cases hpj : p = ⟨j, hj⟩
    · subst hpj
      simp only [if_true]
      simpa using (hasDerivAt_id (θ.get (j :: idx))).const_mul (B.get [r, j])
    · have : (p : ℕ) ≠ j := fun e => hpj (Fin.ext e)
      simp only [this, if_false, hpj]
      exact hasDerivAt_const _ _
  refine (HasDerivAt.fun_sum fun p _ => hd p).congr_deriv ?_
  simp

/-- **C70** for every level and every linear algebra: the combinations of flags without `deriv_X`. -/
theorem C70_flags_any (t : List ℕ) (hθ : θ.shape = N :: t) (pts : NdArray ℝ) (n : ℕ) (hp : pts.shape = [n, d]) :
    ∃ V G B, SInterp.interpolate la ⟨sg, f, θ⟩ pts true false false false = .ok (.one V) ∧
      SInterp.interpolate la ⟨sg, f, θ⟩ pts false false true false = .ok (.one B) ∧
      (t = [] → SInterp.interpolate la ⟨sg, f, θ⟩ pts false true false false = .ok (.one G)) ∧
      ∀ interp deriv deriv_th, (deriv = false ∨ t = []) →
        ∃ R, SInterp.interpolate la ⟨sg, f, θ⟩ pts interp deriv deriv_th false = .ok R ∧
          Returned ((if interp then [V] else []) ++ (if deriv then [G] else []) ++ (if deriv_th then [B] else [])) R := by
  obtain ⟨M, inds, hi, hp', hlb, hub, rfl, rfl⟩ := any_unpack la d mu lb ub sg h N hN
  obtain ⟨V, B, _, _, _, _, eV, eG⟩ := interpolate_any la sg M inds hi hp' hlb hub f θ t hθ pts n hp
  have hG : ∃ G, t = [] → ∀ interp deriv_th, SInterp.interpolate la ⟨sg, f, θ⟩ pts interp true deriv_th false
          = .ok (unwrap ((if interp then [V] else []) ++ [G] ++ (if deriv_th then [B] else []))) := by
    by_cases ht0 : t = []
    · obtain ⟨G, _, _, e⟩ := eG ht0
      exact ⟨G, fun _ => e⟩
    · exact ⟨V, fun h => absurd h ht0⟩
  obtain ⟨G, eG⟩ := hG
  refine ⟨V, G, B, by simpa [unwrap] using eV true false, by simpa [unwrap] using eV false true,
    fun h0 => by simpa [unwrap] using eG h0 false false, fun interp deriv deriv_th hc => ?_⟩
  cases deriv with
  | false => exact ⟨_, eV interp deriv_th, by simpa using returned_unwrap _⟩
  | true =>
    rcases hc with hc | hc
    · cases hc
    · exact ⟨_, eG hc interp deriv_th, by simpa using returned_unwrap _⟩

end

/-- A grid with level 60, where the collocation matrix is singular (C63), with any linear algebra whose `lu` returns. -/
example (la : LinAlg ℝ) (hla : ∀ B, ∃ p, la.lu B = .ok p) : ∃ (sg : Grid ℝ) (N : ℕ),
    Grid.new la 2 (.iso 60) .default .default = .ok sg ∧ ∀ f θ : NdArray ℝ, θ.shape = [N] → ∃ G : NdArray ℝ,
      SInterp.interpolate la ⟨sg, f, θ⟩ ⟨[1, 2], fun _ => 1 / 3⟩ false true false false = .ok (.one G) ∧
      HasDerivAt (fun u => retEntry (values la ⟨sg, f, θ⟩ (setAt ⟨[1, 2], fun _ => 1 / 3⟩ [0, 1] u)) [0]) (G.get [0, 1]) (1 / 3) := by
  obtain ⟨sg, h1, -⟩ := new_total la hla 2 (.iso 60) .default .default [-1, -1] [1, 1] (by norm_num) (by simp [ValidMu]) rfl rfl
  refine ⟨sg, sg.pinds.length, h1, fun f θ hθ => ?_⟩
  obtain ⟨G, _, e, -, -, -, h⟩ := C66_gradient_any la 2 (.iso 60) .default .default sg h1 _ rfl f θ hθ ⟨[1, 2], fun _ => 1 / 3⟩ 1 rfl
  exact ⟨G, e, (h 0 (by norm_num) 1 (by norm_num)).2⟩

end Interp.Props
