import Verif.Proofs.SrcBuildD
import Verif.Proofs.SmolPoly
import Verif.Props.SourceSmolyakB

/-!
# What the source text of `build_B` computes with `deriv=True`: C119

The texts are those of `MoreTexts`, character for character; see C108 for how they are read and executed, and C115 for the program.
-/

namespace Interp.Props
open Interp Interp.Spec Interp.Spec.PySrc Interp.Smolyak

section
variable {K : Type} [Add K] [Sub K] [Mul K] [Div K] [Neg K] [Zero K] [One K] [NatCast K] [IntCast K]
  [LT K] [DecidableLT K] [LE K] [DecidableLE K] [BEq K] [IntFloor K] [Interp.Smolyak.Trig K]

/-- C119. `build_B(d, mu, pts, b_inds, True)`, with a list `b_inds` or `None`: whenever the model returns a matrix and the array of
derivatives, the text returns two new arrays with the same shapes and the same entries, and leaves the arrays that existed before as they
were. -/
theorem C119_build_B_deriv (L : LitLaws K) : ∃ P, smolFile = some P ∧
    ∀ (d : ℕ) (mu : Mu) (n : ℕ), d ≠ 0 → d.factorial + d + 6 ≤ n → ∀ (h : Heap K) (rp : ℕ) (X : NdArray K), h[rp]? = some X →
      ∀ (b : Option (List (List ℤ))) (B D : NdArray K), buildBDeriv d mu X b = .ok (B, D) →
        ∃ rB rD H A E, callName P n "build_B" [.int d, muVal mu, .arr rp [none, none],
            match b with
            | none => .none
            | some l => .list (l.map fun l => .tup (l.map .int)), .bool true] h =
          .ok (.tup [.arr rB [none, none], .arr rD [none, none, none]], H) ∧ h <+: H ∧ h.length ≤ rB ∧ rB < rD ∧
          H[rB]? = some A ∧ A.shape = B.shape ∧ (∀ i j, j < B.shape.getD 1 0 → A.get [i, j] = B.get [i, j]) ∧
          H[rD]? = some E ∧ E.shape = D.shape ∧ ∀ k i j, k < D.shape.getD 0 0 → i < d → E.get [k, i, j] = D.get [k, i, j] := by
  refine ⟨_, smol_load, fun d mu n hd hn h rp X hX b B D hB => ?_⟩
  obtain ⟨n, rfl⟩ : ∃ m, n = m + 1 := ⟨n - 1, by omega⟩
  obtain ⟨H, rB, A, rD, E, e, h1⟩ := buildBDeriv_run L (n := n) (by omega) hd hX hB
  refine ⟨rB, rD, H, A, E, ?_, h1⟩
  rw [callName, sglob_buildB, pure_bind, callN_fn]
  cases b
  · exact e
  · exact e

end

theorem prod_update (d : ℕ) (p : List ℤ) (x : List ℝ) (hp : p.length = d) (hx : x.length = d) (m : Fin d) (t : ℝ) :
    chebProd (degs p) (x.set m t) =
      ∏ q : Fin d, (Polynomial.Chebyshev.T ℝ ((degs p).getD q 0)).eval (if q = m then t else x.getD q 0) := by
  rw [chebProd_fin d _ _ (by simp [degs, hp]) (by simpa using hx)]
  refine Finset.prod_congr rfl fun q _ => ?_
  congr 1
  rw [List.getD_eq_getElem _ _ (by simp [hx]), List.getElem_set]
  by_cases hq : q = m
  · subst hq; simp
  · have : (m : ℕ) ≠ q := fun h => hq (Fin.ext h.symm)
    rw [if_neg this, if_neg hq, List.getD_eq_getElem _ _ (by simp [hx])]

/-- C119. Over the reals, what the text of `build_B` returns with `deriv=True`: the products of Chebyshev polynomials at the points, and
their partial derivatives. The degrees `deg` do not depend on the points. -/
theorem C119_derivatives : ∃ P, smolFile = some P ∧ ∀ (d : ℕ) (mu : Mu) (n : ℕ), 2 ≤ d → ValidMu d mu → d.factorial + d + 6 ≤ n →
    ∃ (N : ℕ) (deg : ℕ → ℕ → ℕ), (∀ j < N, ∀ j' < N, (∀ m < d, deg j m = deg j' m) → j = j') ∧
      ∀ (h : Heap ℝ) (rp npts : ℕ) (X : NdArray ℝ), h[rp]? = some X → X.shape = [npts, d] →
        ∃ rB rD H A E, callName P n "build_B" [.int d, muVal mu, .arr rp [none, none], .none, .bool true] h =
            .ok (.tup [.arr rB [none, none], .arr rD [none, none, none]], H) ∧ h <+: H ∧ rB < rD ∧ H[rB]? = some A ∧ H[rD]? = some E ∧
          A.shape = [npts, N] ∧ E.shape = [N, d, npts] ∧
          (∀ i, ∀ j < N, A.get [i, j] = ∏ q : Fin d, (Polynomial.Chebyshev.T ℝ (deg j q)).eval (X.get [i, (q : ℕ)])) ∧
          ∀ i, ∀ j < N, ∀ m : Fin d, HasDerivAt
            (fun t => ∏ q : Fin d, (Polynomial.Chebyshev.T ℝ (deg j q)).eval (if q = m then t else X.get [i, (q : ℕ)]))
            (E.get [j, (m : ℕ), i]) (X.get [i, (m : ℕ)]) := by
  obtain ⟨P, hP, H0⟩ := C119_build_B_deriv (K := ℝ) litLaws_field
  refine ⟨P, hP, fun d mu n hd hv hn => ?_⟩
  obtain ⟨M, inds, e, hi, -⟩ := exists_inds d mu hd hv
  refine ⟨(pRows inds).length, fun j m => (ksOf inds j).getD m 0, fun j hj j' hj' hh => ?_, fun h rp npts X hX hXs => ?_⟩
  · have l1 := (hi.ksOf_spec hj).1
    have l2 := (hi.ksOf_spec hj').1
    refine hi.ksOf_inj hj hj' (List.ext_getElem (by rw [l1, l2]) fun m h1 h2 => ?_)
    have := hh m (by omega)
    dsimp only at this
    rwa [List.getD_eq_getElem _ _ h1, List.getD_eq_getElem _ _ h2] at this
  · obtain ⟨B, D, -, eD, sB, gB, sD, gD⟩ := buildBDeriv_ok (K := ℝ) d M npts mu X (pRows inds) (by omega) hi.top hXs
      (fun p hp => (hi.pRows_bounds hp).1) (fun p hp => (hi.pRows_bounds hp).2)
    have eD' : buildBDeriv d mu X none = .ok (B, D) := by
      rw [← eD]
      simp only [buildBDeriv, pindsOr, e, polyInds_ok hi, ok_bind, pure_bind]
    obtain ⟨rB, rD, H, A, E, e1, h1, -, h2, h3, h4, h5, h6, h7, h8⟩ := H0 d mu n (by omega) hn h rp X hX none B D eD'
    have hrow (i : ℕ) (q : Fin d) : (Smolyak.rowOf X d i).getD q 0 = X.get [i, (q : ℕ)] := by
      rw [List.getD_eq_getElem _ _ (by simp [Smolyak.rowOf])]
      simp [Smolyak.rowOf]
    have hlen (i : ℕ) : (Smolyak.rowOf X d i).length = d := by simp [Smolyak.rowOf]
    refine ⟨rB, rD, H, A, E, e1, h1, h2, h3, h6, by rw [h4, sB], by rw [h7, sD], fun i j hj => ?_, fun i j hj m => ?_⟩
    · rw [h5 i j (by rw [sB]; exact hj), gB i j hj, basisVal_eq]
      show chebProd (ksOf inds j) _ = _
      rw [chebProd_fin d _ _ (hi.ksOf_spec hj).1 (hlen i)]
      exact Finset.prod_congr rfl fun q _ => by rw [hrow]
    · rw [h8 j m i (by rw [sD]; exact hj) m.2, gD j m i hj]
      have hpl : ((pRows inds).getD j []).length = d := by
        have := (hi.ksOf_spec hj).1
        simpa [ksOf, degs] using this
      have := hasDerivAt_chebProd ((pRows inds).getD j []) (Smolyak.rowOf X d i) m (by rw [hpl, hlen]) (by rw [hlen]; exact m.2)
      rw [hrow] at this
      refine this.congr_of_eventuallyEq (Filter.Eventually.of_forall fun t => ?_)
      show _ = chebProd (degs ((pRows inds).getD j [])) ((Smolyak.rowOf X d i).set m t)
      rw [prod_update d _ _ hpl (hlen i)]
      refine Finset.prod_congr rfl fun q _ => ?_
      rw [hrow]
      rfl

/-- The hypotheses can be met: one point, two dimensions. -/
example : ∃ P, smolFile = some P ∧ ∃ N rB rD H A E, callName P 20 "build_B" [.int 2, .int 1, .arr 0 [none, none], .none, .bool true]
    ([⟨[1, 2], fun _ => 1 / 2⟩] : Heap ℝ) = .ok (.tup [.arr rB [none, none], .arr rD [none, none, none]], H) ∧ H[rB]? = some A ∧ H[rD]? = some E ∧
    A.shape = [1, N] ∧ E.shape = [N, 2, 1] := by
  obtain ⟨P, hP, H⟩ := C119_derivatives
  refine ⟨P, hP, ?_⟩
  obtain ⟨N, deg, -, H⟩ := H 2 (.iso 1) 20 le_rfl (by simp [ValidMu]) (by decide)
  obtain ⟨rB, rD, H, A, E, h1, -, -, h2, h3, h4, h5, -⟩ := H [⟨[1, 2], fun _ => 1 / 2⟩] 0 1 ⟨[1, 2], fun _ => 1 / 2⟩ rfl rfl
  exact ⟨N, rB, rD, H, A, E, h1, h2, h3, h4, h5⟩

end Interp.Props
