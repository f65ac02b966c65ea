import Verif.Proofs.SrcBuildB
import Verif.Props.SourceSmolyakGrid

/-!
# What the source text of `build_B` computes: C118

The texts are those of `MoreTexts`, character for character; see C108 for how they are read and executed, and C115 for the program.
-/

namespace Interp.Props
open Interp Interp.Spec Interp.Spec.PySrc Interp.Smolyak

section
variable {K : Type} [Add K] [Sub K] [Mul K] [Div K] [Neg K] [Zero K] [One K] [NatCast K] [IntCast K]
  [LT K] [DecidableLT K] [LE K] [DecidableLE K] [BEq K] [IntFloor K] [Interp.Smolyak.Trig K]

/-- C118. `build_B(d, mu, pts, b_inds)` and `build_B(d, mu, pts)`: whenever the model returns a matrix, the text returns a new array with the
same shape and the same entries, and leaves the arrays that existed before as they were. -/
theorem C118_build_B (L : LitLaws K) : ∃ P, smolFile = some P ∧
    ∀ (d : ℕ) (mu : Mu) (n : ℕ), d ≠ 0 → d.factorial + d + 6 ≤ n → ∀ (h : Heap K) (rp : ℕ) (X : NdArray K), h[rp]? = some X →
      (∀ (b : List (List ℤ)) (B : NdArray K), buildB d mu X (some b) = .ok B →
        ∃ rB H A, callName P n "build_B" [.int d, muVal mu, .arr rp [none, none], .list (b.map fun l => .tup (l.map .int))] h =
          .ok (.arr rB [none, none], H) ∧ h <+: H ∧ h.length ≤ rB ∧ H[rB]? = some A ∧ A.shape = B.shape ∧
          ∀ i j, j < B.shape.getD 1 0 → A.get [i, j] = B.get [i, j]) ∧
      (∀ B : NdArray K, buildB d mu X none = .ok B →
        ∃ rB H A, callName P n "build_B" [.int d, muVal mu, .arr rp [none, none]] h =
          .ok (.arr rB [none, none], H) ∧ h <+: H ∧ h.length ≤ rB ∧ H[rB]? = some A ∧ A.shape = B.shape ∧
          ∀ i j, j < B.shape.getD 1 0 → A.get [i, j] = B.get [i, j]) := by
  refine ⟨_, smol_load, fun d mu n hd hn h rp X hX => ?_⟩
  obtain ⟨n, rfl⟩ : ∃ m, n = m + 1 := ⟨n - 1, by omega⟩
  refine ⟨fun b B hB => ?_, fun B hB => ?_⟩
  · obtain ⟨H, rB, A, e, h1⟩ := buildB_run L (n := n) (by omega) hd hX hB
    refine ⟨rB, H, A, ?_, h1⟩
    rw [callName, sglob_buildB, pure_bind, callN_fn]
    exact e
  · obtain ⟨H, rB, A, e, h1⟩ := buildB_run L (n := n) (by omega) hd hX hB
    refine ⟨rB, H, A, ?_, h1⟩
    rw [callName, sglob_buildB, pure_bind, callN_fn]
    exact e

end

/-- The matrix of the text of `build_B` at any points, for a valid level of accuracy. -/
theorem build_B_text {P : Prog} (hP : smolFile = some P) {d : ℕ} {mu : Mu} {M : ℕ} {inds : List (List ℤ)} (hi : IndsOK d mu M inds)
    (he : smolInds d mu = .ok inds) {n : ℕ} (hn : d.factorial + d + 6 ≤ n) {h : Heap ℝ} {rp npts : ℕ} {X : NdArray ℝ} (hX : h[rp]? = some X)
    (hXs : X.shape = [npts, d]) : ∃ rB H A, callName P n "build_B" [.int d, muVal mu, .arr rp [none, none]] h = .ok (.arr rB [none, none], H) ∧
      h <+: H ∧ h.length ≤ rB ∧ H[rB]? = some A ∧ A.shape = [npts, (pRows inds).length] ∧
      ∀ i j, j < (pRows inds).length → A.get [i, j] = chebProd (ksOf inds j) (Smolyak.rowOf X d i) := by
  obtain ⟨P', hP', H⟩ := C118_build_B (K := ℝ) litLaws_field
  rw [hP] at hP'
  cases hP'
  have hd := hi.hd
  obtain ⟨B, eB, sB, gB⟩ := buildB_ok (K := ℝ) d M npts mu X (pRows inds) (by omega) hi.top hXs
    (fun p hp => (hi.pRows_bounds hp).1) (fun p hp => (hi.pRows_bounds hp).2)
  have eB' : buildB d mu X none = .ok B := by
    rw [← eB]
    simp only [buildB, pindsOr, he, polyInds_ok hi, ok_bind, pure_bind]
  obtain ⟨rB, H', A, e, h1, h2, h3, h4, h5⟩ := (H d mu n (by omega) hn h rp X hX).2 B eB'
  refine ⟨rB, H', A, e, h1, h2, h3, by rw [h4, sB], fun i j hj => ?_⟩
  rw [h5 i j (by rw [sB]; exact hj), gB i j hj, basisVal_eq]
  rfl

theorem chebProd_fin (d : ℕ) (ks : List ℕ) (x : List ℝ) (hk : ks.length = d) (hx : x.length = d) :
    chebProd ks x = ∏ m : Fin d, (Polynomial.Chebyshev.T ℝ (ks.getD m 0)).eval (x.getD m 0) := by
  rw [chebProd_zip, ← List.prod_ofFn]
  congr 1
  refine List.ext_getElem (by simp [hk, hx]) fun i h1 h2 => ?_
  have : i < d := by simpa using h2
  rw [List.getElem_zipWith, List.getElem_ofFn, List.getD_eq_getElem _ _ (show i < ks.length by omega),
    List.getD_eq_getElem _ _ (show i < x.length by omega)]
  rfl

/-- C118. Over the reals, the entries of the matrix that the text of `build_B` returns: in the column of a basis function, the product of the
Chebyshev polynomials of its degrees, at the coordinates of the point of the row. The degrees of two columns differ. -/
theorem C118_build_B_values : ∃ P, smolFile = some P ∧ ∀ (d : ℕ) (mu : Mu) (n : ℕ), 2 ≤ d → ValidMu d mu → d.factorial + d + 6 ≤ n →
    ∃ (N : ℕ) (deg : ℕ → ℕ → ℕ), (∀ j < N, ∀ j' < N, (∀ m < d, deg j m = deg j' m) → j = j') ∧
      ∀ (h : Heap ℝ) (rp npts : ℕ) (X : NdArray ℝ), h[rp]? = some X → X.shape = [npts, d] →
        ∃ rB H A, callName P n "build_B" [.int d, muVal mu, .arr rp [none, none]] h = .ok (.arr rB [none, none], H) ∧ h <+: H ∧ H[rB]? = some A ∧
          A.shape = [npts, N] ∧ ∀ i, ∀ j < N, A.get [i, j] = ∏ m : Fin d, (Polynomial.Chebyshev.T ℝ (deg j m)).eval (X.get [i, (m : ℕ)]) := by
  refine ⟨_, smol_load, fun d mu n hd hv hn => ?_⟩
  obtain ⟨M, inds, e, hi, -⟩ := exists_inds d mu hd hv
  refine ⟨(pRows inds).length, fun j m => (ksOf inds j).getD m 0, fun j hj j' hj' hh => ?_, fun h rp npts X hX hXs => ?_⟩
  · have l1 := (hi.ksOf_spec hj).1
    have l2 := (hi.ksOf_spec hj').1
    refine hi.ksOf_inj hj hj' (List.ext_getElem (by rw [l1, l2]) fun m h1 h2 => ?_)
    have := hh m (by omega)
    dsimp only at this
    rwa [List.getD_eq_getElem _ _ h1, List.getD_eq_getElem _ _ h2] at this
  · obtain ⟨rB, H, A, e1, hp, -, hA, hs, hg⟩ := build_B_text smol_load hi e hn hX hXs
    refine ⟨rB, H, A, e1, hp, hA, hs, fun i j hj => ?_⟩
    rw [hg i j hj, chebProd_fin d _ _ (hi.ksOf_spec hj).1 (by simp [Smolyak.rowOf])]
    refine Finset.prod_congr rfl fun m _ => ?_
    rw [Smolyak.rowOf, List.getD_eq_getElem _ _ (by simp), List.getElem_map, List.getElem_range]

/-- C118. Over the reals and for `mu` up to 48: the text of `build_B`, run on the array that the text of `build_grid` has returned, gives a
square matrix with a nonzero determinant.

Missing: larger `mu`, where two grid points coincide, see `C62_distinct_fails`. -/
theorem C118_collocation_partial : ∃ P, smolFile = some P ∧ ∀ (d : ℕ) (mu : Mu) (n : ℕ), 2 ≤ d → ValidMu d mu → MuLe 48 mu →
    d.factorial + d + 6 ≤ n → ∀ h : Heap ℝ, ∃ N rG HG G rB HB B,
      callName P n "build_grid" [.int d, muVal mu] h = .ok (.arr rG [none, none], HG) ∧ HG[rG]? = some G ∧ G.shape = [N, d] ∧
      callName P n "build_B" [.int d, muVal mu, .arr rG [none, none]] HG = .ok (.arr rB [none, none], HB) ∧ HB[rB]? = some B ∧
      B.shape = [N, N] ∧ 0 < N ∧ (Matrix.of fun i j : Fin N => B.get [(i : ℕ), (j : ℕ)]).det ≠ 0 := by
  refine ⟨_, smol_load, fun d mu n hd hv h48 hn h => ?_⟩
  obtain ⟨M, inds, rG, HG, G, hi, hM, he, e1, -, hG, hs, hg⟩ := build_grid_text smol_load hd hv (n := n) (by omega) h
  have hM48 : M ≤ 48 := by have := (hM 48).mp h48; omega
  rw [hi.length_eq] at hs
  obtain ⟨rB, HB, B, e2, -, -, hB, hBs, hBg⟩ := build_B_text smol_load hi he hn hG hs
  refine ⟨_, rG, HG, G, rB, HB, B, e1, hG, hs, e2, hB, hBs, ?_, ?_⟩
  · rw [← hi.length_eq]; exact List.length_pos_iff.mpr (gridRows_ne hi)
  · convert hi.basisMat_det hM48 using 2
    ext i j
    have hlt : (i : ℕ) < (gridRows inds).length := by rw [hi.length_eq]; exact i.2
    have hlen := gridRows_length_row hi (mem_of_row hlt)
    rw [Matrix.of_apply, hBg i j j.2, basisMat]
    congr 1
    refine List.ext_getElem (by rw [hlen]; simp [Smolyak.rowOf]) fun m h1 h2 => ?_
    simp only [Smolyak.rowOf, List.getElem_map, List.getElem_range]
    rw [hg, List.getD_eq_getElem _ _ h2]

/-- C118. Hence, for values at the grid points, there is exactly one choice of coefficients for which the sum of the columns of `build_B`
times the coefficients has these values.

Missing: as in `C118_collocation_partial`. -/
theorem C118_interpolates_partial : ∃ P, smolFile = some P ∧ ∀ (d : ℕ) (mu : Mu) (n : ℕ), 2 ≤ d → ValidMu d mu → MuLe 48 mu →
    d.factorial + d + 6 ≤ n → ∀ h : Heap ℝ, ∃ N rG HG G rB HB B,
      callName P n "build_grid" [.int d, muVal mu] h = .ok (.arr rG [none, none], HG) ∧ HG[rG]? = some G ∧ G.shape = [N, d] ∧
      callName P n "build_B" [.int d, muVal mu, .arr rG [none, none]] HG = .ok (.arr rB [none, none], HB) ∧ HB[rB]? = some B ∧
      B.shape = [N, N] ∧ ∀ f : Fin N → ℝ, ∃! θ : Fin N → ℝ, ∀ i : Fin N, ∑ j : Fin N, B.get [(i : ℕ), (j : ℕ)] * θ j = f i := by
  obtain ⟨P, hP, H⟩ := C118_collocation_partial
  refine ⟨P, hP, fun d mu n hd hv h48 hn h => ?_⟩
  obtain ⟨N, rG, HG, G, rB, HB, B, h1, h2, h3, h4, h5, h6, -, h7⟩ := H d mu n hd hv h48 hn h
  refine ⟨N, rG, HG, G, rB, HB, B, h1, h2, h3, h4, h5, h6, fun f => ?_⟩
  have hu := Ne.isUnit h7
  set Q := Matrix.of fun i j : Fin N => B.get [(i : ℕ), (j : ℕ)] with hQ
  refine ⟨Q⁻¹.mulVec f, fun i => ?_, fun θ hθ => ?_⟩
  · have : Q.mulVec (Q⁻¹.mulVec f) = f := by rw [Matrix.mulVec_mulVec, Matrix.mul_nonsing_inv _ hu, Matrix.one_mulVec]
    exact congrFun this i
  · have : Q.mulVec θ = f := funext hθ
    rw [← this, Matrix.mulVec_mulVec, Matrix.nonsing_inv_mul _ hu, Matrix.one_mulVec]

/-- The hypotheses can be met. -/
example : ∃ P, smolFile = some P ∧ ∃ N rG HG G rB HB B, callName P 20 "build_grid" [.int 2, .int 1] ([] : Heap ℝ) = .ok (.arr rG [none, none], HG) ∧
    HG[rG]? = some G ∧ callName P 20 "build_B" [.int 2, .int 1, .arr rG [none, none]] HG = .ok (.arr rB [none, none], HB) ∧ HB[rB]? = some B ∧
    B.shape = [N, N] ∧ 0 < N := by
  obtain ⟨P, hP, H⟩ := C118_collocation_partial
  refine ⟨P, hP, ?_⟩
  obtain ⟨N, rG, HG, G, rB, HB, B, h1, h2, h3, h4, h5, h6, h7, -⟩ := H 2 (.iso 1) 20 le_rfl (by simp [ValidMu]) (by simp [MuLe]) (by decide) []
  exact ⟨N, rG, HG, G, rB, HB, B, h1, h2, h4, h5, h6, h7⟩

end Interp.Props
