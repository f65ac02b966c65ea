import Verif.Proofs.ChebRounding
import Verif.Proofs.SmolInterp

/-!
# Chebyshev polynomials and the Smolyak basis in rounded arithmetic: C125

The numbers are computed with rounding rule `R` (`Verif/Spec/Rounding.lean`).  `numpy.cos` and `numpy.pi` do not
occur in `cheby2n` and `build_B`; they may be anything (`[Trig (Fl R)]`).
-/

set_option linter.unusedSectionVars false

namespace Interp.Props
open Interp.Spec Interp.Smolyak
open Interp.CompletePoly (transpose)

/-- C125: on `[-1, 1]` the error of row `k` of `cheby2n(x, n)` grows at most as `k^2`. -/
theorem C125_first_kind (R : Rounding) [Trig (Fl R)] (hu : R.u ≤ 1 / 100) (x : NdArray (Fl R)) (n : ℕ) (hn : 1 ≤ n) :
    ∃ T, cheby2n x n 1 = .ok T ∧ T.shape = (n + 1) :: x.shape ∧ ∀ k ≤ n, 40 * k * (k + 1) * R.u ≤ 1 →
      ∀ idx, |(x.get idx).val| ≤ 1 →
        |(T.get (k :: idx)).val - (Polynomial.Chebyshev.T ℝ k).eval (x.get idx).val| ≤ 4 * k * (k + 1) * R.u := by
  obtain ⟨T, e, s, g⟩ := cheby2n_ok x n hn (1 : Fl R)
  refine ⟨T, e, s, fun k hk hs idx hx => ?_⟩
  have := chebRec_close hu 1 (x.get idx) (by rw [Fl.one_val]; norm_num) hx le_rfl k hs
    (fun j _ => by rw [Fl.one_val]; exact chebRec_T_le hx j)
  rw [g k hk, ← chebT, ← chebRec_T]
  rwa [Fl.one_val, mul_one] at this

/-- C125, second kind: the error grows at most as `k^3`. -/
theorem C125_second_kind (R : Rounding) [Trig (Fl R)] (hu : R.u ≤ 1 / 100) (x : NdArray (Fl R)) (n : ℕ) (hn : 1 ≤ n) :
    ∃ U, cheby2n x n ((2 : ℕ) : Fl R) = .ok U ∧ U.shape = (n + 1) :: x.shape ∧ ∀ k ≤ n, 40 * k * (k + 1) * R.u ≤ 1 →
      ∀ idx, |(x.get idx).val| ≤ 1 →
        |(U.get (k :: idx)).val - (Polynomial.Chebyshev.U ℝ k).eval (x.get idx).val| ≤ 4 * k * (k + 1) ^ 2 * R.u := by
  obtain ⟨T, e, s, g⟩ := cheby2n_ok x n hn ((2 : ℕ) : Fl R)
  refine ⟨T, e, s, fun k hk hs idx hx => ?_⟩
  have k0 : (0 : ℝ) ≤ k := Nat.cast_nonneg k
  have := chebRec_close hu ((2 : ℕ) : Fl R) (x.get idx) (by rw [Fl.natCast_val]; norm_num) hx
    (show (1 : ℝ) ≤ k + 1 by linarith) k hs (fun j hj => by
      rw [Fl.natCast_val]
      refine (chebRec_U_le hx j).trans ?_
      have : (j : ℝ) ≤ k := by exact_mod_cast hj
      linarith)
  rw [g k hk, ← chebRec_U]
  rw [Fl.natCast_val] at this
  refine this.trans (le_of_eq ?_)
  ring

/-- C125: the entries of `build_B(d, mu, pts)` at points of the cube. -/
theorem C125_build_B (R : Rounding) [Trig (Fl R)] (hu : R.u ≤ 1 / 100) (d m : ℕ) (mu : Mu) (hd : 2 ≤ d) (hv : ValidMu d mu)
    (hm : MuLe m mu) (hs : 40 * 2 ^ m * (2 ^ m + 1) * R.u ≤ 1) (npts : ℕ) (pts : NdArray (Fl R)) (hp : pts.shape = [npts, d]) :
    ∃ (B : NdArray (Fl R)) (B' : NdArray ℝ) (N : ℕ), buildB d mu pts none = .ok B ∧ buildB d mu (exactArray pts) none = .ok B' ∧
      B.shape = [npts, N] ∧ B'.shape = [npts, N] ∧ ∀ r, (∀ i < d, |(pts.get [r, i]).val| ≤ 1) → ∀ j < N,
        |(B.get [r, j]).val - B'.get [r, j]| ≤ ((1 + 4 * 2 ^ m * (2 ^ m + 1) * R.u) * (1 + R.u)) ^ d - 1 := by
  have u0 := Codegen.Rounding.u_nonneg R
  obtain ⟨M, inds, e, hi, hMu⟩ := exists_inds d mu hd hv
  have hMm : M ≤ m := by exact_mod_cast (hMu m).1 hm
  have hb := fun p hp => hi.pRows_bounds (p := p) hp
  obtain ⟨B, eB, sB, gB⟩ := buildB_ok (K := Fl R) d M npts mu pts (pRows inds) (by omega) hi.top hp
    (fun p hp => (hb p hp).1) (fun p hp => (hb p hp).2)
  obtain ⟨B', eB', sB', gB'⟩ := buildB_ok (K := ℝ) d M npts mu (exactArray pts) (pRows inds) (by omega) hi.top hp
    (fun p hp => (hb p hp).1) (fun p hp => (hb p hp).2)
  have hn1 : buildB d mu pts none = .ok B := by
    rw [← eB]; simp only [buildB, pindsOr, e, polyInds_ok hi, ok_bind, pure_bind]
  have hn2 : buildB d mu (exactArray pts) none = .ok B' := by
    rw [← eB']; simp only [buildB, pindsOr, e, polyInds_ok hi, ok_bind, pure_bind]
  refine ⟨B, B', _, hn1, hn2, sB, sB', fun r hr j hj => ?_⟩
  have hmem : (pRows inds).getD j [] ∈ pRows inds := by simp [List.getD, hj]
  obtain ⟨hl, hc⟩ := hb _ hmem
  rw [gB r j hj, gB' r j hj, basisVal, basisVal]
  generalize (pRows inds).getD j [] = comb at hl hc
  -- both products run over the pairs of an index and a coordinate
  have z1 : List.zipWith (fun c t => chebRec (1 : Fl R) t (c - 1).toNat) comb (rowOf pts d r)
      = (comb.zip (rowOf pts d r)).map fun q => chebRec (1 : Fl R) q.2 (q.1 - 1).toNat := by
    rw [List.map_zip_eq_zipWith]; rfl
  have z2 : List.zipWith (fun c t => chebRec (1 : ℝ) t (c - 1).toNat) comb (rowOf (exactArray pts) d r)
      = (comb.zip (rowOf pts d r)).map fun q => chebRec (1 : ℝ) q.2.val (q.1 - 1).toNat := by
    have : rowOf (exactArray pts) d r = (rowOf pts d r).map Fl.val := by simp [rowOf, exactArray]
    rw [this, List.zipWith_map_right, List.map_zip_eq_zipWith]; rfl
  have hlen : (comb.zip (rowOf pts d r)).length = d := by simp [hl, rowOf]
  have hin : ∀ q ∈ comb.zip (rowOf pts d r), |q.2.val| ≤ 1 ∧ (q.1 - 1).toNat ≤ 2 ^ m := by
    rintro ⟨c, t⟩ hq
    obtain ⟨h1, h2⟩ := List.of_mem_zip hq
    refine ⟨?_, ?_⟩
    · rw [rowOf, List.mem_map] at h2
      obtain ⟨i, hi', rfl⟩ := h2
      exact hr i (List.mem_range.1 hi')
    · have := (hc c h1).2
      have hsz : mSize (M + 1) ≤ 2 ^ M + 1 := by
        cases M with
        | zero => simp [mSize]
        | succ M => simp [mSize]
      have h2M : 2 ^ M ≤ 2 ^ m := Nat.pow_le_pow_right (by norm_num) hMm
      show (c - 1).toNat ≤ _
      generalize 2 ^ m = a at h2M ⊢
      generalize 2 ^ M = b at h2M hsz
      omega
  rw [z1, z2]
  have := reduceMul_close (R := R) (fun q : ℤ × Fl R => chebRec (1 : Fl R) q.2 (q.1 - 1).toNat)
    (fun q => chebRec (1 : ℝ) q.2.val (q.1 - 1).toNat) (ε := 4 * 2 ^ m * (2 ^ m + 1) * R.u) (by positivity)
    (comb.zip (rowOf pts d r)) (fun q hq => chebRec_T_le (hin q hq).1 _) (fun q hq => by
      obtain ⟨h1, h2⟩ := hin q hq
      have h2' : ((q.1 - 1).toNat : ℝ) ≤ 2 ^ m := by exact_mod_cast h2
      have q0 : (0 : ℝ) ≤ ((q.1 - 1).toNat : ℝ) := Nat.cast_nonneg _
      have hq' : ((q.1 - 1).toNat : ℝ) * ((q.1 - 1).toNat + 1) * R.u ≤ 2 ^ m * (2 ^ m + 1) * R.u := by gcongr
      have := chebRec_close hu 1 q.2 (by rw [Fl.one_val]; norm_num) h1 le_rfl (q.1 - 1).toNat (by linarith)
        (fun j _ => by rw [Fl.one_val]; exact chebRec_T_le h1 j)
      rw [Fl.one_val, mul_one] at this
      linarith)
  rwa [hlen] at this

/-- In doubles: the polynomial of degree 100 has an error below `10^-11` at every point of `[-1, 1]`. -/
example [Trig (Fl (.ofDigits 52))] (x : Fl (.ofDigits 52)) (hx : |x.val| ≤ 1) : ∃ T, cheby2n ⟨[], fun _ => x⟩ 100 1 = .ok T ∧
    |(T.get [100]).val - (Polynomial.Chebyshev.T ℝ 100).eval x.val| ≤ 1 / 10 ^ 11 := by
  have hu : (Rounding.ofDigits 52).u = (2 : ℝ) ^ (-((52 : ℤ) + 1)) := rfl
  obtain ⟨T, h1, -, h2⟩ := C125_first_kind (.ofDigits 52) (by rw [hu]; norm_num) ⟨[], fun _ => x⟩ 100 (by norm_num)
  refine ⟨T, h1, (h2 100 le_rfl (by rw [hu]; norm_num) [] hx).trans ?_⟩
  rw [hu]; norm_num

/-- In doubles: the entries for two variables and level 3 have errors below `10^-13`. -/
example [Trig (Fl (.ofDigits 52))] (pts : NdArray (Fl (.ofDigits 52))) (hp : pts.shape = [7, 2])
    (hx : ∀ r < 7, ∀ i < 2, |(pts.get [r, i]).val| ≤ 1) : ∃ (B : NdArray (Fl (.ofDigits 52))) (B' : NdArray ℝ) (N : ℕ),
    buildB 2 (.iso 3) pts none = .ok B ∧ buildB 2 (.iso 3) (exactArray pts) none = .ok B' ∧
    ∀ r < 7, ∀ j < N, |(B.get [r, j]).val - B'.get [r, j]| ≤ 1 / 10 ^ 13 := by
  have hu : (Rounding.ofDigits 52).u = (2 : ℝ) ^ (-((52 : ℤ) + 1)) := rfl
  obtain ⟨B, B', N, h1, h2, -, -, h3⟩ := C125_build_B (.ofDigits 52) (by rw [hu]; norm_num) 2 3 (.iso 3) (by norm_num)
    (by simp [ValidMu]) (by simp [MuLe]) (by rw [hu]; norm_num) 7 pts hp
  refine ⟨B, B', N, h1, h2, fun r hr j hj => (h3 r (hx r hr) j hj).trans ?_⟩
  rw [hu]; norm_num

end Interp.Props
