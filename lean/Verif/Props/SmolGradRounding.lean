import Verif.Proofs.SmolGradRounding
import Verif.Props.SmolRounding

/-!
# The gradient of the Smolyak interpolant in rounded arithmetic: C129

As in C127, with one output.
-/

set_option linter.unusedSectionVars false

namespace Interp.Props
open Interp.Spec Interp.Smolyak Interp.Codegen
open Interp.CompletePoly (transpose dot rangeN)

theorem abs_sum_map_le {α : Type} (g w : α → ℝ) : ∀ l : List α, (∀ j ∈ l, |g j| ≤ w j) → |(l.map g).sum| ≤ (l.map w).sum
  | [], _ => by simp
  | a :: l, h => by
    rw [List.map_cons, List.map_cons, List.sum_cons, List.sum_cons]
    exact (abs_add_le _ _).trans (add_le_add (h a (by simp)) (abs_sum_map_le g w l fun j hj => h j (by simp [hj])))

/-- The factor `2 / (ub - lb)`. -/
theorem scale_close {R : Rounding} (hu : R.u ≤ 1 / 500) {l h : ℝ} (hlh : l < h) :
    |R.rnd (2 / R.rnd (h - l)) - 2 / (h - l)| ≤ ((1 + R.u) ^ 3 - 1) * (2 / (h - l)) := by
  have u0 := Rounding.u_nonneg R
  have w0 : 0 < h - l := by linarith
  have q0 : 0 < 2 / (h - l) := by positivity
  have n1 : Near R.u (h - l) (R.rnd (h - l)) := R.err _
  have n2 := (Near.div (Near.refl 2) n1 le_rfl u0 (by linarith)).rnd (R := R)
  have n3 : Near ((1 + R.u) ^ 3 - 1) (2 / (h - l)) (R.rnd (2 / R.rnd (h - l))) := by
    refine n2.mono ?_
    have d1 : (0 + R.u) / (1 - R.u) ≤ (1 + R.u) ^ 2 - 1 := by
      rw [div_le_iff₀ (by linarith)]
      nlinarith [mul_nonneg u0 u0, mul_nonneg u0 (mul_nonneg u0 u0)]
    nlinarith [mul_le_mul_of_nonneg_right d1 (show 0 ≤ 1 + R.u by linarith)]
  have := n3
  rw [Near, abs_of_pos q0] at this
  exact this

/-- C129: the gradient of the interpolant at a point of the domain, computed from given coefficients `theta`, differs from the
gradient computed exactly from the same coefficients (which is the gradient of the interpolant by C66) by at most a small multiple
of `4^m * 2 / (ub - lb)` times the sum of the absolute values of the coefficients. All levels are at most `m`, the midpoints of the
domain are at most `k` times its half-widths, and `N` is the number of coefficients. -/
theorem C129_gradient (R : Rounding) [Trig (Fl R)] (la : LinAlg (Fl R)) (la' : LinAlg ℝ) (d : ℤ) (mu : Mu) (lb ub : Bound (Fl R))
    (s : SInterp (Fl R)) (hs : Grid.new la d mu lb ub = .ok s.sg) (m : ℕ) (hm : MuLe m mu) (k : ℝ) (hk : 0 ≤ k)
    (hu : 12 * ((13 + 3 * k) * R.u) * (2 ^ m * (2 ^ m + 1)) ≤ 1)
    (hb : ∀ i < s.sg.d, (s.sg.lb.getD i 0).val < (s.sg.ub.getD i 0).val ∧
      |(s.sg.lb.getD i 0).val + (s.sg.ub.getD i 0).val| ≤ k * ((s.sg.ub.getD i 0).val - (s.sg.lb.getD i 0).val))
    (N npts : ℕ) (hN : s.sg.pinds.length = N) (ht : s.theta.shape = [N])
    (pts : NdArray (Fl R)) (hp : pts.shape = [npts, s.sg.d]) :
    ∃ (G : NdArray (Fl R)) (G' : NdArray ℝ), SInterp.interpolate la s pts false true false false = .ok (.one G) ∧
      SInterp.interpolate la' (exactSmolyak s) (exactArray pts) false true false false = .ok (.one G') ∧
      G.shape = [npts, s.sg.d] ∧ G'.shape = [npts, s.sg.d] ∧
      ∀ r, (∀ i < s.sg.d, (s.sg.lb.getD i 0).val ≤ (pts.get [r, i]).val ∧ (pts.get [r, i]).val ≤ (s.sg.ub.getD i 0).val) →
        ∀ i < s.sg.d, |(G.get [r, i]).val - G'.get [r, i]| ≤
          (((1 + (13 + 3 * k) * R.u * (2 ^ m * (2 ^ m + 1))) * (1 + R.u) ^ 2) ^ s.sg.d * (1 + R.u) ^ (N + 5) - 1) *
            (4 ^ m * (2 / ((s.sg.ub.getD i 0).val - (s.sg.lb.getD i 0).val)) *
              ((List.range N).map fun j => |(s.theta.get [j]).val|).sum) := by
  have u0 := Rounding.u_nonneg R
  obtain ⟨hd2, hv, hd, hmu, hlb, hub, inds, he, hpi⟩ := new_any la d mu lb ub s.sg hs
  obtain ⟨M, inds', e', hi, hMu⟩ := exists_inds d.toNat mu (by omega) hv
  obtain rfl : inds = inds' := by rw [he] at e'; exact Except.ok.inj e'
  have hpR : s.sg.pinds = pRows inds := by rw [polyInds_ok hi] at hpi; exact (Except.ok.inj hpi).symm
  have hMm : M ≤ m := by exact_mod_cast (hMu m).1 hm
  have hM1 := hi.pos
  rw [← hd] at hlb hub hi
  rw [← hmu] at hi
  have hbd := fun p hp => hi.pRows_bounds (p := p) hp
  -- sizes
  have h2m : (2 : ℝ) ≤ 2 ^ m := by
    calc (2 : ℝ) = 2 ^ 1 := by norm_num
      _ ≤ 2 ^ m := pow_le_pow_right₀ (by norm_num) (by omega)
  have q0 : 0 ≤ (13 + 3 * k) * R.u := by positivity
  have q1 : 72 * ((13 + 3 * k) * R.u) ≤ 1 := by
    have : (6 : ℝ) ≤ 2 ^ m * (2 ^ m + 1) := by nlinarith
    have := mul_le_mul_of_nonneg_left this q0
    linarith
  have ku0 : 0 ≤ k * R.u := mul_nonneg hk u0
  have hu500 : R.u ≤ 1 / 500 := by linarith
  have hku : k * R.u ≤ 1 / 100 := by linarith
  set ξ : ℝ := (7 + 2 * k) * R.u with hξ
  have hξ0 : 0 ≤ ξ := by positivity
  have hξ1 : ξ ≤ 1 / 100 := by rw [hξ]; linarith
  -- the two runs
  set x : NdArray (Fl R) := ⟨[npts, s.sg.d], fun idx =>
      (pts.get idx - center (s.sg.lb.getD (idx.getLastD 0) 0) (s.sg.ub.getD (idx.getLastD 0) 0))
        / radius (s.sg.lb.getD (idx.getLastD 0) 0) (s.sg.ub.getD (idx.getLastD 0) 0)⟩ with hx
  set x' : NdArray ℝ := ⟨[npts, s.sg.d], fun idx =>
      ((exactArray pts).get idx - center ((s.sg.lb.map Fl.val).getD (idx.getLastD 0) 0) ((s.sg.ub.map Fl.val).getD (idx.getLastD 0) 0))
        / radius ((s.sg.lb.map Fl.val).getD (idx.getLastD 0) 0) ((s.sg.ub.map Fl.val).getD (idx.getLastD 0) 0)⟩ with hx'
  have hdom : dom2cube s.sg.lb s.sg.ub pts = .ok x := by
    simp [dom2cube, alongLast, hlb, hub, hp, pure_eq_ok, hx]
  have hdom' : dom2cube (s.sg.lb.map Fl.val) (s.sg.ub.map Fl.val) (exactArray pts) = .ok x' := by
    refine dom2cube_ok (by exact hp) (by simpa using hlb) (by simpa using hub)
  have hdims : dims2 pts = .ok (npts, s.sg.d) := by rw [dims2, hp]; rfl
  have hdims' : dims2 (exactArray pts) = .ok (npts, s.sg.d) := by rw [dims2, show (exactArray pts).shape = _ from hp]; rfl
  have hd1 : 1 ≤ s.sg.d := by omega
  obtain ⟨B, D, -, eB, sB, -, sD, gD⟩ := buildBDeriv_ok (K := Fl R) s.sg.d M npts s.sg.mu x (pRows inds) hd1 hi.top rfl
    (fun p hp => (hbd p hp).1) (fun p hp => (hbd p hp).2)
  obtain ⟨B', D', -, eB', sB', -, sD', gD'⟩ := buildBDeriv_ok (K := ℝ) s.sg.d M npts s.sg.mu x' (pRows inds) hd1 hi.top rfl
    (fun p hp => (hbd p hp).1) (fun p hp => (hbd p hp).2)
  rw [hpR] at hN
  rw [hN] at sB sB' sD sD'
  obtain ⟨V, eV⟩ : ∃ V, dot B s.theta = .ok V := ⟨_, by rw [dot, sB, ht]; simp only [if_true]; rfl⟩
  obtain ⟨V', eV'⟩ : ∃ V', dot B' (exactArray s.theta) = .ok V' :=
    ⟨_, by rw [dot, sB', show (exactArray s.theta).shape = [N] from ht]; simp only [if_true]; rfl⟩
  set G0 : NdArray (Fl R) := ⟨npts :: s.sg.d :: [], fun idx => ((List.range N).map fun j =>
      s.theta.get (j :: (idx.drop 2).reverse) * D.get [j, idx.getD 1 0, idx.getD 0 0]).foldl (· + ·) 0⟩ with hG0
  set G0' : NdArray ℝ := ⟨npts :: s.sg.d :: [], fun idx => ((List.range N).map fun j =>
      (exactArray s.theta).get (j :: (idx.drop 2).reverse) * D'.get [j, idx.getD 1 0, idx.getD 0 0]).foldl (· + ·) 0⟩ with hG0'
  have eG0 : gradDot s.theta D = .ok G0 := by rw [gradDot, ht, sD]; simp [hG0, pure_eq_ok]
  have eG0' : gradDot (exactArray s.theta) D' = .ok G0' := by
    rw [gradDot, show (exactArray s.theta).shape = [N] from ht, sD']; simp [hG0', pure_eq_ok]
  set q : List (Fl R) := List.zipWith (fun u l => ((2 : ℕ) : Fl R) / (u - l)) s.sg.ub s.sg.lb with hq
  set q' : List ℝ := List.zipWith (fun u l => ((2 : ℕ) : ℝ) / (u - l)) (s.sg.ub.map Fl.val) (s.sg.lb.map Fl.val) with hq'
  have lq : q.length = s.sg.d := by simp [hq, hlb, hub]
  have lq' : q'.length = s.sg.d := by simp [hq', hlb, hub]
  set G : NdArray (Fl R) := ⟨[npts, s.sg.d], fun idx => G0.get idx * q.getD (idx.getLast?.getD 0) 0⟩ with hG
  set G' : NdArray ℝ := ⟨[npts, s.sg.d], fun idx => G0'.get idx * q'.getD (idx.getLast?.getD 0) 0⟩ with hG'
  have eG : scaleLast G0 q = .ok G := by
    rw [scaleLast]; simp [hG0, lq, hG, pure_eq_ok]
  have eG' : scaleLast G0' q' = .ok G' := by
    rw [scaleLast]; simp [hG0', lq', hG', pure_eq_ok]
  refine ⟨G, G', ?_, ?_, rfl, rfl, fun r hr i hid => ?_⟩
  · rw [← hpR] at eB
    simp only [SInterp.interpolate, hdims, ok_bind, hdom, eB, eV, eG0, ← hq, eG, if_true, Bool.false_eq_true, if_false, pure_eq_ok,
      unwrap, List.nil_append]
  · rw [← hpR] at eB'
    simp only [SInterp.interpolate, exactSmolyak, hdims', ok_bind, hdom', eB', eV', eG0', ← hq', eG', if_true, Bool.false_eq_true,
      if_false, pure_eq_ok, unwrap, List.nil_append]
  -- the entries of the matrix
  set ε : ℝ := (13 + 3 * k) * R.u * (2 ^ m * (2 ^ m + 1)) with hε
  have hε0 : 0 ≤ ε := by positivity
  have hpt : ∀ i < s.sg.d, |x'.get [r, i]| ≤ 1 ∧ |(x.get [r, i]).val - x'.get [r, i]| ≤ ξ := by
    intro i hid
    have g1 : (s.sg.lb.map Fl.val).getD i 0 = (s.sg.lb.getD i 0).val := by simp [List.getD, hlb, hid]
    have g2 : (s.sg.ub.map Fl.val).getD i 0 = (s.sg.ub.getD i 0).val := by simp [List.getD, hub, hid]
    have := dom2cube_close (R := R) hu500 hk hku (pts.get [r, i]) (s.sg.lb.getD i 0) (s.sg.ub.getD i 0) (hb i hid).1 (hb i hid).2 (hr i hid)
    simp only [hx, hx', List.getLastD_cons, List.getLastD_nil, g1, g2]
    exact ⟨this.2, this.1⟩
  have hexp : 4 * R.u + 1.15 * ξ ≤ (13 + 3 * k) * R.u := by rw [hξ]; linarith
  have hpow : (((2 ^ m : ℕ) : ℝ)) = 2 ^ m := by push_cast; ring
  have hpow4 : ((2 : ℝ) ^ m) * 2 ^ m = 4 ^ m := by rw [← mul_pow]; norm_num
  have hle : (4 * R.u + 1.15 * ξ) * (((2 ^ m : ℕ) : ℝ) * (((2 ^ m : ℕ) : ℝ) + 1)) ≤ ε := by
    rw [hpow, hε]; gcongr
  set H : ℝ := ((1 + ε) * (1 + R.u) ^ 2) ^ s.sg.d with hH
  have hH1 : 1 ≤ H := one_le_pow₀ (by nlinarith)
  have hent : ∀ j < N, |D'.get [j, i, r]| ≤ 4 ^ m ∧ |(D.get [j, i, r]).val - D'.get [j, i, r]| ≤ (H - 1) * 4 ^ m := by
    intro j hj
    rw [gD j i r (by omega), gD' j i r (by omega)]
    have hmem : (pRows inds).getD j [] ∈ pRows inds := by simp [List.getD, show j < (pRows inds).length by omega]
    obtain ⟨hl, hc⟩ := hbd _ hmem
    have := basisDer_close (R := R) (hu500.trans (by norm_num)) hξ0 hξ1 (2 ^ m) (by linarith) ((pRows inds).getD j [])
        (fun c hc' => by
          have := (hc c hc').2
          have hsz : mSize (M + 1) ≤ 2 ^ M + 1 := by
            cases M with
            | zero => simp [mSize]
            | succ M => simp [mSize]
          have h2M : 2 ^ M ≤ 2 ^ m := Nat.pow_le_pow_right (by norm_num) hMm
          generalize 2 ^ m = a at h2M ⊢
          generalize 2 ^ M = b at h2M hsz
          omega) s.sg.d hl (fun i => x.get [r, i]) (fun i => x'.get [r, i]) hpt i hid
    rw [hpow] at hle this
    rw [hpow4] at this
    refine ⟨this.1, this.2.trans (mul_le_mul_of_nonneg_right (sub_le_sub_right ?_ 1) (by positivity))⟩
    rw [hH, mul_assoc _ (1 + R.u) (1 + R.u), ← pow_two]
    gcongr
  -- the sum
  set θ : ℕ → Fl R := fun j => s.theta.get [j] with hθ
  set S : ℝ := ((List.range N).map fun j => |(θ j).val|).sum with hS
  have hG1 : 1 ≤ H * (1 + R.u) := by nlinarith
  have hterm : ∀ j < N, |(θ j).val * D'.get [j, i, r]| ≤ |(θ j).val| * 4 ^ m := by
    intro j hj
    rw [abs_mul]; exact mul_le_mul_of_nonneg_left (hent j hj).1 (abs_nonneg _)
  have hsum := sum_close (R := R) (fun j => θ j * D.get [j, i, r]) (fun j => (θ j).val * D'.get [j, i, r])
    (fun j => |(θ j).val| * 4 ^ m) (G0 := H * (1 + R.u)) (List.range N) 0 0 0 (H * (1 + R.u)) le_rfl hG1
    (fun j hj => hterm j (List.mem_range.1 hj))
    (fun j hj => by
      obtain ⟨h1, h2⟩ := hent j (List.mem_range.1 hj)
      have := mul_step_w (R := R) (G := 1) (H := H) (W := |(θ j).val|) (w := 4 ^ m) le_rfl h1 le_rfl hH1 (p' := (θ j).val) (by simp) h2
      rw [one_mul] at this
      exact this)
    (by simp) (by simp [Fl.zero_val])
  have hS' : ((List.range N).map fun j => |(θ j).val| * 4 ^ m).sum = 4 ^ m * S := by
    rw [List.sum_map_mul_right, mul_comm]
  rw [List.length_range, zero_add, hS'] at hsum
  have hS0 : 0 ≤ S := List.sum_nonneg fun y hy => by
    rw [List.mem_map] at hy
    obtain ⟨j, -, rfl⟩ := hy
    exact abs_nonneg _
  have habs : |((List.range N).map fun j => (θ j).val * D'.get [j, i, r]).foldl (· + ·) 0| ≤ 4 ^ m * S := by
    rw [← List.sum_eq_foldl, ← hS']
    exact abs_sum_map_le _ _ _ fun j hj => hterm j (List.mem_range.1 hj)
  -- the scaling
  have g0 : q.getD i 0 = ((2 : ℕ) : Fl R) / (s.sg.ub.getD i 0 - s.sg.lb.getD i 0) := by
    simp [hq, List.getD, hlb, hub, hid]
  have g0' : q'.getD i 0 = 2 / ((s.sg.ub.getD i 0).val - (s.sg.lb.getD i 0).val) := by
    simp [hq', List.getD, hlb, hub, hid]
  have hsc := scale_close hu500 (hb i hid).1
  set w : ℝ := 2 / ((s.sg.ub.getD i 0).val - (s.sg.lb.getD i 0).val) with hw
  have w0 : 0 ≤ w := div_nonneg (by norm_num) (by linarith [(hb i hid).1])
  have e2 : (q.getD i 0).val = R.rnd (2 / R.rnd ((s.sg.ub.getD i 0).val - (s.sg.lb.getD i 0).val)) := by
    rw [g0, Fl.div_val, Fl.natCast_val, Fl.sub_val]; norm_num
  rw [← e2] at hsc
  have hF1 : 1 ≤ H * (1 + R.u) * (1 + R.u) ^ N := one_le_mul_of_one_le_of_one_le hG1 (one_le_pow₀ (by linarith))
  have := mul_step_w (R := R) (W := 4 ^ m * S) (w := w) habs (le_of_eq (abs_of_nonneg w0)) hF1
    (one_le_pow₀ (by linarith : 1 ≤ 1 + R.u)) hsum hsc
  show |R.rnd ((((List.range N).map fun j => θ j * D.get [j, i, r]).foldl (· + ·) 0).val * (q.getD i 0).val)
    - ((List.range N).map fun j => (θ j).val * D'.get [j, i, r]).foldl (· + ·) 0 * q'.getD i 0| ≤ _
  rw [g0']
  refine this.trans (le_of_eq ?_)
  rw [pow_add (1 + R.u) N 5]; ring

/-- The assumptions can be met: in doubles, three variables, level 3 and the default domain, with any linear algebra that returns
and any coefficients. -/
example [Trig (Fl (.ofDigits 52))] (la : LinAlg (Fl (.ofDigits 52))) (hla : ∀ B, ∃ p, la.lu B = .ok p) (la' : LinAlg ℝ) (x : Fl (.ofDigits 52))
    (hx : |x.val| ≤ 1) : ∃ (sg : Grid (Fl (.ofDigits 52))) (N : ℕ), Grid.new la 3 (.iso 3) .default .default = .ok sg ∧
    ∀ f θ : NdArray (Fl (.ofDigits 52)), θ.shape = [N] → ∃ (G : NdArray (Fl (.ofDigits 52))) (G' : NdArray ℝ),
      SInterp.interpolate la ⟨sg, f, θ⟩ ⟨[1, 3], fun _ => x⟩ false true false false = .ok (.one G) ∧
      SInterp.interpolate la' (exactSmolyak ⟨sg, f, θ⟩) ⟨[1, 3], fun _ => x.val⟩ false true false false = .ok (.one G') ∧
      |(G.get [0, 2]).val - G'.get [0, 2]| ≤ ((1 + 1 / 10 ^ 12) * (1 + (2:ℝ) ^ (-(53 : ℤ))) ^ (N + 5) - 1) *
        (64 * ((List.range N).map fun j => |(θ.get [j]).val|).sum) := by
  have hu : (Rounding.ofDigits 52).u = (2 : ℝ) ^ (-(53 : ℤ)) := rfl
  obtain ⟨sg, h1, h2, h3, h4⟩ := new_total la hla 3 (.iso 3) .default .default [-1, -1, -1] [1, 1, 1] (by norm_num)
    (by simp [ValidMu]) rfl rfl
  refine ⟨sg, sg.pinds.length, h1, fun f θ hθ => ?_⟩
  have hb : ∀ i < 3, (sg.lb.getD i 0).val = -1 ∧ (sg.ub.getD i 0).val = 1 := by
    intro i hi
    rw [h3, h4]
    interval_cases i <;> simp [Fl.neg_val, Fl.one_val]
  obtain ⟨G, G', e1, e2, -, -, h⟩ := C129_gradient (.ofDigits 52) la la' 3 (.iso 3) .default .default ⟨sg, f, θ⟩ h1 3
    (by simp [MuLe]) 0 le_rfl (by rw [hu]; norm_num) (fun i hi => by
      obtain ⟨a, b⟩ := hb i (by simpa [h2] using hi)
      rw [a, b]; norm_num) _ 1 rfl hθ ⟨[1, 3], fun _ => x⟩ (by rw [h2])
  refine ⟨G, G', e1, e2, (h 0 (fun i hi => ?_) 2 (by simp [h2])).trans ?_⟩
  · obtain ⟨a, b⟩ := hb i (by simpa [h2] using hi)
    rw [a, b]; exact abs_le.1 hx
  · obtain ⟨a, b⟩ := hb 2 (by norm_num)
    simp only [a, b, hu, h2]
    have hS : 0 ≤ ((List.range sg.pinds.length).map fun j => |(θ.get [j]).val|).sum :=
      List.sum_nonneg fun y hy => by
        rw [List.mem_map] at hy
        obtain ⟨j, -, rfl⟩ := hy
        exact abs_nonneg _
    rw [show (4 : ℝ) ^ 3 * (2 / (1 - -1)) = 64 by norm_num]
    refine mul_le_mul_of_nonneg_right (sub_le_sub_right (mul_le_mul_of_nonneg_right ?_ (by positivity)) _) (by positivity)
    norm_num

end Interp.Props
