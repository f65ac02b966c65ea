import Verif.Proofs.SmolRounding

/-!
# Smolyak interpolation in rounded arithmetic: C127

The numbers are computed with rounding rule `R` (`Verif/Spec/Rounding.lean`); `numpy.dot` adds from left to right.
Nothing is assumed about `scipy.linalg.lu`, `numpy.linalg.solve`, `numpy.cos`, so the coefficients are arbitrary.
-/

set_option linter.unusedSectionVars false

namespace Interp.Props
open Interp.Spec Interp.Smolyak Interp.Codegen
open Interp.CompletePoly (transpose dot rangeN)

/-- C127: the value of the interpolant at a point of the domain, computed from given coefficients `theta`, differs from the
exact value with the same coefficients by at most a small multiple of the sum of the absolute values of the coefficients.
Here all levels are at most `m`, the midpoints of the domain are at most `k` times its half-widths, and `N` is the number of
coefficients. -/
theorem C127_interpolate (R : Rounding) [Trig (Fl R)] (la : LinAlg (Fl R)) (la' : LinAlg ℝ) (d : ℤ) (mu : Mu) (lb ub : Bound (Fl R))
    (s : SInterp (Fl R)) (hs : Grid.new la d mu lb ub = .ok s.sg) (m : ℕ) (hm : MuLe m mu) (k : ℝ) (hk : 0 ≤ k)
    (hu : 12 * ((13 + 3 * k) * R.u) * (2 ^ m * (2 ^ m + 1)) ≤ 1)
    (hb : ∀ i < s.sg.d, (s.sg.lb.getD i 0).val < (s.sg.ub.getD i 0).val ∧
      |(s.sg.lb.getD i 0).val + (s.sg.ub.getD i 0).val| ≤ k * ((s.sg.ub.getD i 0).val - (s.sg.lb.getD i 0).val))
    (N npts : ℕ) (t : List ℕ) (hN : s.sg.pinds.length = N) (ht : s.theta.shape = N :: t)
    (pts : NdArray (Fl R)) (hp : pts.shape = [npts, s.sg.d]) :
    ∃ (V : NdArray (Fl R)) (V' : NdArray ℝ), SInterp.interpolate la s pts true false false false = .ok (.one V) ∧
      SInterp.interpolate la' (exactSmolyak s) (exactArray pts) true false false false = .ok (.one V') ∧
      V.shape = npts :: t ∧ V'.shape = npts :: t ∧
      ∀ r, (∀ i < s.sg.d, (s.sg.lb.getD i 0).val ≤ (pts.get [r, i]).val ∧ (pts.get [r, i]).val ≤ (s.sg.ub.getD i 0).val) →
        ∀ idx, |(V.get (r :: idx)).val - V'.get (r :: idx)| ≤
          (((1 + (13 + 3 * k) * R.u * (2 ^ m * (2 ^ m + 1))) * (1 + R.u)) ^ s.sg.d * (1 + R.u) ^ (N + 1) - 1) *
            ((List.range N).map fun j => |(s.theta.get (j :: idx)).val|).sum := by
  have u0 := Rounding.u_nonneg R
  obtain ⟨hd2, hv, hd, hmu, hlb, hub, inds, he, hpi⟩ := new_any la d mu lb ub s.sg hs
  obtain ⟨M, inds', e', hi, hMu⟩ := exists_inds d.toNat mu (by omega) hv
  obtain rfl : inds = inds' := by rw [he] at e'; exact Except.ok.inj e'
  have hpR : s.sg.pinds = pRows inds := by rw [polyInds_ok hi] at hpi; exact (Except.ok.inj hpi).symm
  have hMm : M ≤ m := by exact_mod_cast (hMu m).1 hm
  have hM1 := hi.pos
  rw [← hd] at hlb hub hi
  rw [← hmu] at hi
  have hbd := fun p hp => hi.pRows_bounds (p := p) hp
  -- sizes
  have h2m : (2 : ℝ) ≤ 2 ^ m := by
    calc (2 : ℝ) = 2 ^ 1 := by norm_num
      _ ≤ 2 ^ m := pow_le_pow_right₀ (by norm_num) (by omega)
  have q0 : 0 ≤ (13 + 3 * k) * R.u := by positivity
  have q1 : 72 * ((13 + 3 * k) * R.u) ≤ 1 := by
    have : (6 : ℝ) ≤ 2 ^ m * (2 ^ m + 1) := by nlinarith
    have := mul_le_mul_of_nonneg_left this q0
    linarith
  have ku0 : 0 ≤ k * R.u := mul_nonneg hk u0
  have hu500 : R.u ≤ 1 / 500 := by linarith
  have hku : k * R.u ≤ 1 / 100 := by linarith
  set ξ : ℝ := (7 + 2 * k) * R.u with hξ
  have hξ0 : 0 ≤ ξ := by positivity
  have hξ1 : ξ ≤ 1 / 100 := by rw [hξ]; linarith
  -- the two runs
  set x : NdArray (Fl R) := ⟨[npts, s.sg.d], fun idx =>
      (pts.get idx - center (s.sg.lb.getD (idx.getLastD 0) 0) (s.sg.ub.getD (idx.getLastD 0) 0))
        / radius (s.sg.lb.getD (idx.getLastD 0) 0) (s.sg.ub.getD (idx.getLastD 0) 0)⟩ with hx
  set x' : NdArray ℝ := ⟨[npts, s.sg.d], fun idx =>
      ((exactArray pts).get idx - center ((s.sg.lb.map Fl.val).getD (idx.getLastD 0) 0) ((s.sg.ub.map Fl.val).getD (idx.getLastD 0) 0))
        / radius ((s.sg.lb.map Fl.val).getD (idx.getLastD 0) 0) ((s.sg.ub.map Fl.val).getD (idx.getLastD 0) 0)⟩ with hx'
  have hdom : dom2cube s.sg.lb s.sg.ub pts = .ok x := by
    simp [dom2cube, alongLast, hlb, hub, hp, pure_eq_ok, hx]
  have hdom' : dom2cube (s.sg.lb.map Fl.val) (s.sg.ub.map Fl.val) (exactArray pts) = .ok x' := by
    refine dom2cube_ok (by exact hp) (by simpa using hlb) (by simpa using hub)
  have hdims : dims2 pts = .ok (npts, s.sg.d) := by rw [dims2, hp]; rfl
  have hdims' : dims2 (exactArray pts) = .ok (npts, s.sg.d) := by rw [dims2, show (exactArray pts).shape = _ from hp]; rfl
  have hd1 : 1 ≤ s.sg.d := by omega
  obtain ⟨B, eB, sB, gB⟩ := buildB_ok (K := Fl R) s.sg.d M npts s.sg.mu x (pRows inds) hd1 hi.top rfl
    (fun p hp => (hbd p hp).1) (fun p hp => (hbd p hp).2)
  obtain ⟨B', eB', sB', gB'⟩ := buildB_ok (K := ℝ) s.sg.d M npts s.sg.mu x' (pRows inds) hd1 hi.top rfl
    (fun p hp => (hbd p hp).1) (fun p hp => (hbd p hp).2)
  rw [hpR] at hN
  rw [hN] at sB sB'
  set V : NdArray (Fl R) := ⟨npts :: t, fun idx => ((List.range N).map fun j =>
    B.get [idx.headD 0, j] * s.theta.get (j :: idx.tail)).foldl (· + ·) 0⟩ with hV
  set V' : NdArray ℝ := ⟨npts :: t, fun idx => ((List.range N).map fun j =>
    B'.get [idx.headD 0, j] * (s.theta.get (j :: idx.tail)).val).foldl (· + ·) 0⟩ with hV'
  have eV : dot B s.theta = .ok V := by
    rw [dot, sB, ht]; simp only [if_true, pure_eq_ok, hV]
  have eV' : dot B' (exactArray s.theta) = .ok V' := by
    rw [dot, sB', show (exactArray s.theta).shape = N :: t from ht]; simp only [if_true, pure_eq_ok, hV']; rfl
  refine ⟨V, V', ?_, ?_, rfl, rfl, fun r hr idx => ?_⟩
  · rw [← hpR] at eB
    simp only [SInterp.interpolate, hdims, ok_bind, hdom, eB, eV, if_true, Bool.false_eq_true, if_false, pure_eq_ok, unwrap]
  · rw [← hpR] at eB'
    simp only [SInterp.interpolate, exactSmolyak, hdims', ok_bind, hdom', eB', eV', if_true, Bool.false_eq_true, if_false,
      pure_eq_ok, unwrap]
  -- the entries of the matrix
  set ε : ℝ := (13 + 3 * k) * R.u * (2 ^ m * (2 ^ m + 1)) with hε
  have hε0 : 0 ≤ ε := by positivity
  have hpt : ∀ i < s.sg.d, |x'.get [r, i]| ≤ 1 ∧ |(x.get [r, i]).val - x'.get [r, i]| ≤ ξ := by
    intro i hid
    have g1 : (s.sg.lb.map Fl.val).getD i 0 = (s.sg.lb.getD i 0).val := by simp [List.getD, hlb, hid]
    have g2 : (s.sg.ub.map Fl.val).getD i 0 = (s.sg.ub.getD i 0).val := by simp [List.getD, hub, hid]
    have := dom2cube_close (R := R) hu500 hk hku (pts.get [r, i]) (s.sg.lb.getD i 0) (s.sg.ub.getD i 0) (hb i hid).1 (hb i hid).2 (hr i hid)
    simp only [hx, hx', List.getLastD_cons, List.getLastD_nil, g1, g2]
    exact ⟨this.2, this.1⟩
  have hexp : 4 * R.u + 1.15 * ξ ≤ (13 + 3 * k) * R.u := by rw [hξ]; linarith
  have hpow : (((2 ^ m : ℕ) : ℝ)) = 2 ^ m := by push_cast; ring
  have hle : (4 * R.u + 1.15 * ξ) * (((2 ^ m : ℕ) : ℝ) * (((2 ^ m : ℕ) : ℝ) + 1)) ≤ ε := by
    rw [hpow, hε]; gcongr
  have hent : ∀ j < N, |B'.get [r, j]| ≤ 1 ∧ |(B.get [r, j]).val - B'.get [r, j]| ≤ ((1 + ε) * (1 + R.u)) ^ s.sg.d - 1 := by
    intro j hj
    rw [gB r j (by omega), gB' r j (by omega)]
    have hmem : (pRows inds).getD j [] ∈ pRows inds := by simp [List.getD, show j < (pRows inds).length by omega]
    obtain ⟨hl, hc⟩ := hbd _ hmem
    constructor
    · refine basisVal_le _ fun y hy => ?_
      rw [rowOf, List.mem_map] at hy
      obtain ⟨i, hi', rfl⟩ := hy
      exact (hpt i (List.mem_range.1 hi')).1
    · have := basisVal_close (R := R) (hu500.trans (by norm_num)) hξ0 hξ1 (2 ^ m) (by linarith) ((pRows inds).getD j [])
        (fun c hc' => by
          have := (hc c hc').2
          have hsz : mSize (M + 1) ≤ 2 ^ M + 1 := by
            cases M with
            | zero => simp [mSize]
            | succ M => simp [mSize]
          have h2M : 2 ^ M ≤ 2 ^ m := Nat.pow_le_pow_right (by norm_num) hMm
          generalize 2 ^ m = a at h2M ⊢
          generalize 2 ^ M = b at h2M hsz
          omega) s.sg.d hl (fun i => x.get [r, i]) (fun i => x'.get [r, i]) hpt
      refine this.trans ?_
      gcongr
  -- the sum
  set H : ℝ := ((1 + ε) * (1 + R.u)) ^ s.sg.d with hH
  have hH1 : 1 ≤ H := one_le_pow₀ (by nlinarith)
  have hG : 1 ≤ H * (1 + R.u) := by nlinarith
  have := sum_close (R := R) (fun j => B.get [r, j] * s.theta.get (j :: idx)) (fun j => B'.get [r, j] * (s.theta.get (j :: idx)).val)
    (fun j => |(s.theta.get (j :: idx)).val|) (G0 := H * (1 + R.u)) (List.range N) 0 0 0 (H * (1 + R.u)) le_rfl hG
    (fun j hj => by
      rw [abs_mul]
      have := mul_le_mul_of_nonneg_right (hent j (List.mem_range.1 hj)).1 (abs_nonneg (s.theta.get (j :: idx)).val)
      linarith)
    (fun j hj => by
      obtain ⟨h1, h2⟩ := hent j (List.mem_range.1 hj)
      set θ := (s.theta.get (j :: idx)).val
      set b := (B.get [r, j]).val
      set b' := B'.get [r, j]
      have hbH : |b| ≤ H := by
        have := abs_add_le (b - b') b'
        rw [sub_add_cancel] at this; linarith
      have a1 : |b * θ - b' * θ| ≤ (H - 1) * |θ| := by
        rw [← sub_mul, abs_mul]; exact mul_le_mul_of_nonneg_right h2 (abs_nonneg _)
      have a2 : |b * θ| ≤ H * |θ| := by
        rw [abs_mul]; exact mul_le_mul_of_nonneg_right hbH (abs_nonneg _)
      have a3 := (R.err (b * θ)).trans (mul_le_mul_of_nonneg_left a2 u0)
      have a4 := abs_add_le (R.rnd (b * θ) - b * θ) (b * θ - b' * θ)
      rw [sub_add_sub_cancel] at a4
      show |R.rnd (b * θ) - b' * θ| ≤ _
      linarith)
    (by simp) (by simp [Fl.zero_val])
  rw [List.length_range, zero_add] at this
  show |(((List.range N).map fun j => B.get [r, j] * s.theta.get (j :: idx)).foldl (· + ·) 0).val
    - ((List.range N).map fun j => B'.get [r, j] * (s.theta.get (j :: idx)).val).foldl (· + ·) 0| ≤ _
  refine this.trans (le_of_eq ?_)
  rw [pow_succ (1 + R.u) N]; ring

/-- The assumptions can be met: in doubles, three variables, level 3 and the default domain, with any linear algebra that returns
and any coefficients. -/
example [Trig (Fl (.ofDigits 52))] (la : LinAlg (Fl (.ofDigits 52))) (hla : ∀ B, ∃ p, la.lu B = .ok p) (la' : LinAlg ℝ) (x : Fl (.ofDigits 52))
    (hx : |x.val| ≤ 1) : ∃ (sg : Grid (Fl (.ofDigits 52))) (N : ℕ), Grid.new la 3 (.iso 3) .default .default = .ok sg ∧
    ∀ f θ : NdArray (Fl (.ofDigits 52)), θ.shape = [N] → ∃ (V : NdArray (Fl (.ofDigits 52))) (V' : NdArray ℝ),
      SInterp.interpolate la ⟨sg, f, θ⟩ ⟨[1, 3], fun _ => x⟩ true false false false = .ok (.one V) ∧
      SInterp.interpolate la' (exactSmolyak ⟨sg, f, θ⟩) ⟨[1, 3], fun _ => x.val⟩ true false false false = .ok (.one V') ∧
      |(V.get [0]).val - V'.get [0]| ≤ (1 + 1 / 10 ^ 12) * (1 + (2:ℝ) ^ (-(53 : ℤ))) ^ (N + 1) * ((List.range N).map fun j => |(θ.get [j]).val|).sum
        - ((List.range N).map fun j => |(θ.get [j]).val|).sum := by
  have hu : (Rounding.ofDigits 52).u = (2 : ℝ) ^ (-(53 : ℤ)) := rfl
  obtain ⟨sg, h1, h2, h3, h4⟩ := new_total la hla 3 (.iso 3) .default .default [-1, -1, -1] [1, 1, 1] (by norm_num)
    (by simp [ValidMu]) rfl rfl
  refine ⟨sg, sg.pinds.length, h1, fun f θ hθ => ?_⟩
  have hb : ∀ i < 3, (sg.lb.getD i 0).val = -1 ∧ (sg.ub.getD i 0).val = 1 := by
    intro i hi
    rw [h3, h4]
    interval_cases i <;> simp [Fl.neg_val, Fl.one_val]
  obtain ⟨V, V', e1, e2, -, -, h⟩ := C127_interpolate (.ofDigits 52) la la' 3 (.iso 3) .default .default ⟨sg, f, θ⟩ h1 3
    (by simp [MuLe]) 0 le_rfl (by rw [hu]; norm_num) (fun i hi => by
      obtain ⟨a, b⟩ := hb i (by simpa [h2] using hi)
      rw [a, b]; norm_num) _ 1 [] rfl hθ ⟨[1, 3], fun _ => x⟩ (by rw [h2])
  refine ⟨V, V', e1, e2, (h 0 (fun i hi => ?_) []).trans ?_⟩
  · obtain ⟨a, b⟩ := hb i (by simpa [h2] using hi)
    rw [a, b]; exact abs_le.1 hx
  · rw [sub_mul, one_mul, hu]
    refine sub_le_sub_right (mul_le_mul_of_nonneg_right (mul_le_mul_of_nonneg_right ?_ (by positivity)) ?_) _
    · simp only [h2]; norm_num
    · exact List.sum_nonneg fun y hy => by
        rw [List.mem_map] at hy
        obtain ⟨j, -, rfl⟩ := hy
        exact abs_nonneg _

end Interp.Props
