import Verif.Proofs.SmolReproRounding
import Verif.Props.SmolRounding

/-!
# Smolyak interpolation reproduces the data in rounded arithmetic: C130

As in C127. The linear solver is described by the residual it leaves with the stored matrix `B`.
-/

set_option linter.unusedSectionVars false

namespace Interp.Props
open Interp.Spec Interp.Smolyak Interp.Codegen
open Interp.CompletePoly (transpose dot rangeN)

/-- C130: if the coefficients `theta` solve the equations `B theta = f` of the stored matrix `B` up to a residual `ρ`, then the
interpolant computed at the stored grid differs from the data by at most `ρ` and a small multiple of the sum of the absolute values
of the coefficients. All levels are at most `m`, the midpoints of the domain are at most `k` times its half-widths, `cos` returns
numbers in `[-1, 1]`, and `N` is the number of coefficients. -/
theorem C130_reproduces (R : Rounding) [Trig (Fl R)] (hcos : ∀ x : Fl R, |(Trig.cos x).val| ≤ 1) (la : LinAlg (Fl R)) (d : ℤ) (mu : Mu) (lb ub : Bound (Fl R))
    (s : SInterp (Fl R)) (hs : Grid.new la d mu lb ub = .ok s.sg) (m : ℕ) (hm : MuLe m mu) (k : ℝ) (hk : 0 ≤ k)
    (hu : 12 * ((13 + 3 * k) * R.u) * (2 ^ m * (2 ^ m + 1)) ≤ 1)
    (hb : ∀ i < s.sg.d, (s.sg.lb.getD i 0).val < (s.sg.ub.getD i 0).val ∧
      |(s.sg.lb.getD i 0).val + (s.sg.ub.getD i 0).val| ≤ k * ((s.sg.ub.getD i 0).val - (s.sg.lb.getD i 0).val))
    (N : ℕ) (t : List ℕ) (hN : s.sg.pinds.length = N) (ht : s.theta.shape = N :: t) :
    ∃ (npts : ℕ) (V : NdArray (Fl R)), s.sg.grid.shape = [npts, s.sg.d] ∧ s.sg.B.shape = [npts, N] ∧
      SInterp.interpolate la s s.sg.grid true false false false = .ok (.one V) ∧ V.shape = npts :: t ∧
      ∀ r (idx : List ℕ) (ρ : ℝ),
        |((List.range N).map fun j => (s.sg.B.get [r, j]).val * (s.theta.get (j :: idx)).val).sum - (s.f.get (r :: idx)).val| ≤ ρ →
        |(V.get (r :: idx)).val - (s.f.get (r :: idx)).val| ≤ ρ +
          2 * (((1 + (13 + 3 * k) * R.u * (2 ^ m * (2 ^ m + 1))) * (1 + R.u)) ^ s.sg.d * (1 + R.u) ^ (N + 1) - 1) *
            ((List.range N).map fun j => |(s.theta.get (j :: idx)).val|).sum := by
  have u0 := Rounding.u_nonneg R
  obtain ⟨hd2, hv, hd, hmu, hlb, hub, inds, he, hpi⟩ := new_any la d mu lb ub s.sg hs
  obtain ⟨npts, hcs, hgrid, hB, hcube⟩ := new_arrays la d mu lb ub s.sg hs
  obtain ⟨M, inds', e', hi, hMu⟩ := exists_inds d.toNat mu (by omega) hv
  obtain rfl : inds = inds' := by rw [he] at e'; exact Except.ok.inj e'
  have hpR : s.sg.pinds = pRows inds := by rw [polyInds_ok hi] at hpi; exact (Except.ok.inj hpi).symm
  have hMm : M ≤ m := by exact_mod_cast (hMu m).1 hm
  have hM1 := hi.pos
  have hr : ∀ r i, |(s.sg.cubeGrid.get [r, i]).val| ≤ 1 + R.u := by
    obtain ⟨g, h1, h2⟩ := buildGrid_le hcos hi
    rw [hcube _ he] at h1
    cases h1
    exact h2
  rw [← hd] at hlb hub hi
  rw [← hmu] at hi
  have hbd := fun p hp => hi.pRows_bounds (p := p) hp
  -- sizes
  have h2m : (2 : ℝ) ≤ 2 ^ m := by
    calc (2 : ℝ) = 2 ^ 1 := by norm_num
      _ ≤ 2 ^ m := pow_le_pow_right₀ (by norm_num) (by omega)
  have q0 : 0 ≤ (13 + 3 * k) * R.u := by positivity
  have q1 : 72 * ((13 + 3 * k) * R.u) ≤ 1 := by
    have : (6 : ℝ) ≤ 2 ^ m * (2 ^ m + 1) := by nlinarith
    have := mul_le_mul_of_nonneg_left this q0
    linarith
  have ku0 : 0 ≤ k * R.u := mul_nonneg hk u0
  have hu500 : R.u ≤ 1 / 500 := by linarith
  have hku : k * R.u ≤ 1 / 100 := by linarith
  set ξ : ℝ := (7 + 2 * k) * R.u with hξ
  have hξ0 : 0 ≤ ξ := by positivity
  have hξ1 : ξ ≤ 1 / 100 := by rw [hξ]; linarith
  -- the run
  set g : NdArray (Fl R) := ⟨[npts, s.sg.d], fun idx =>
      s.sg.cubeGrid.get idx * radius (s.sg.lb.getD (idx.getLastD 0) 0) (s.sg.ub.getD (idx.getLastD 0) 0)
        + center (s.sg.lb.getD (idx.getLastD 0) 0) (s.sg.ub.getD (idx.getLastD 0) 0)⟩ with hg
  have hg' : s.sg.grid = g := by
    have : cube2dom s.sg.lb s.sg.ub s.sg.cubeGrid = .ok g := by
      simp [cube2dom, alongLast, hlb, hub, hcs, pure_eq_ok, hg]
    rw [this] at hgrid; exact (Except.ok.inj hgrid).symm
  set x : NdArray (Fl R) := ⟨[npts, s.sg.d], fun idx =>
      (g.get idx - center (s.sg.lb.getD (idx.getLastD 0) 0) (s.sg.ub.getD (idx.getLastD 0) 0))
        / radius (s.sg.lb.getD (idx.getLastD 0) 0) (s.sg.ub.getD (idx.getLastD 0) 0)⟩ with hx
  have hdom : dom2cube s.sg.lb s.sg.ub g = .ok x := by
    simp [dom2cube, alongLast, hlb, hub, pure_eq_ok, hx, hg]
  have hdims : dims2 g = .ok (npts, s.sg.d) := rfl
  have hd1 : 1 ≤ s.sg.d := by omega
  obtain ⟨B, eB, sB, gB⟩ := buildB_ok (K := Fl R) s.sg.d M npts s.sg.mu x (pRows inds) hd1 hi.top rfl
    (fun p hp => (hbd p hp).1) (fun p hp => (hbd p hp).2)
  obtain ⟨B0, eB0, sB0, gB0⟩ := buildB_ok (K := Fl R) s.sg.d M npts s.sg.mu s.sg.cubeGrid (pRows inds) hd1 hi.top hcs
    (fun p hp => (hbd p hp).1) (fun p hp => (hbd p hp).2)
  obtain rfl : s.sg.B = B0 := by rw [hpR, eB0] at hB; exact (Except.ok.inj hB).symm
  rw [hpR] at hN
  rw [hN] at sB sB0
  set V : NdArray (Fl R) := ⟨npts :: t, fun idx => ((List.range N).map fun j =>
    B.get [idx.headD 0, j] * s.theta.get (j :: idx.tail)).foldl (· + ·) 0⟩ with hV
  have eV : dot B s.theta = .ok V := by
    rw [dot, sB, ht]; simp only [if_true, pure_eq_ok, hV]
  refine ⟨npts, V, by rw [hg'], sB0, ?_, rfl, fun r idx ρ hρ => ?_⟩
  · rw [← hpR] at eB
    rw [hg']
    simp only [SInterp.interpolate, hdims, ok_bind, hdom, eB, eV, if_true, Bool.false_eq_true, if_false, pure_eq_ok, unwrap]
  -- the entries of the matrices
  set ε : ℝ := (13 + 3 * k) * R.u * (2 ^ m * (2 ^ m + 1)) with hε
  have hε0 : 0 ≤ ε := by positivity
  -- the point of the cube next to the stored one
  set z : ℕ → ℝ := fun i => max (-1) (min 1 (s.sg.cubeGrid.get [r, i]).val) with hz
  have hz1 : ∀ i, |z i| ≤ 1 := fun i => abs_le.2 ⟨le_max_left _ _, max_le (by norm_num) (min_le_left _ _)⟩
  have hz2 : ∀ i, |(s.sg.cubeGrid.get [r, i]).val - z i| ≤ R.u := fun i => by
    obtain ⟨h1, h2⟩ := abs_le.1 (hr r i)
    simp only [hz]
    generalize (s.sg.cubeGrid.get [r, i]).val = y at h1 h2
    rw [abs_le]
    rcases le_total y (-1) with h | h
    · rw [min_eq_right (by linarith), max_eq_left h]; constructor <;> linarith
    rcases le_total y 1 with h' | h'
    · rw [min_eq_right h', max_eq_right h]; constructor <;> linarith
    · rw [min_eq_left h', max_eq_right (by norm_num)]; constructor <;> linarith
  have hpt : ∀ i < s.sg.d, |z i| ≤ 1 ∧ |(x.get [r, i]).val - z i| ≤ ξ := by
    intro i hid
    have := roundtrip_close (R := R) hu500 hk hku (s.sg.cubeGrid.get [r, i]) (s.sg.lb.getD i 0) (s.sg.ub.getD i 0)
      (hb i hid).1 (hb i hid).2 (hr r i)
    refine ⟨hz1 i, ?_⟩
    have h1 := abs_add_le ((x.get [r, i]).val - (s.sg.cubeGrid.get [r, i]).val) ((s.sg.cubeGrid.get [r, i]).val - z i)
    rw [sub_add_sub_cancel] at h1
    have h2 : |(x.get [r, i]).val - (s.sg.cubeGrid.get [r, i]).val| ≤ (6 + 2 * k) * R.u := by
      simp only [hx, hg, List.getLastD_cons, List.getLastD_nil]
      exact this
    have h3 := hz2 i
    rw [hξ]
    linarith
  have hexp : 4 * R.u + 1.15 * ξ ≤ (13 + 3 * k) * R.u := by rw [hξ]; linarith
  have hpow : (((2 ^ m : ℕ) : ℝ)) = 2 ^ m := by push_cast; ring
  have hle : (4 * R.u + 1.15 * ξ) * (((2 ^ m : ℕ) : ℝ) * (((2 ^ m : ℕ) : ℝ) + 1)) ≤ ε := by
    rw [hpow, hε]; gcongr
  have hle0 : (4 * R.u + 1.15 * R.u) * (((2 ^ m : ℕ) : ℝ) * (((2 ^ m : ℕ) : ℝ) + 1)) ≤ ε := by
    rw [hpow, hε]; gcongr; linarith
  set b : ℕ → ℝ := fun j => basisVal ((pRows inds).getD j []) ((List.range s.sg.d).map z) with hbv
  set H : ℝ := ((1 + ε) * (1 + R.u)) ^ s.sg.d with hH
  have hent : ∀ j < N, |b j| ≤ 1 ∧ |(B.get [r, j]).val - b j| ≤ H - 1 ∧ |(s.sg.B.get [r, j]).val - b j| ≤ H - 1 := by
    intro j hj
    rw [gB r j (by omega), gB0 r j (by omega)]
    have hmem : (pRows inds).getD j [] ∈ pRows inds := by simp [List.getD, show j < (pRows inds).length by omega]
    obtain ⟨hl, hc⟩ := hbd _ hmem
    have hcK : ∀ c ∈ (pRows inds).getD j [], (c - 1).toNat ≤ 2 ^ m := fun c hc' => by
      have := (hc c hc').2
      have hsz : mSize (M + 1) ≤ 2 ^ M + 1 := by
        cases M with
        | zero => simp [mSize]
        | succ M => simp [mSize]
      have h2M : 2 ^ M ≤ 2 ^ m := Nat.pow_le_pow_right (by norm_num) hMm
      generalize 2 ^ m = a at h2M ⊢
      generalize 2 ^ M = b at h2M hsz
      omega
    refine ⟨?_, ?_, ?_⟩
    · refine basisVal_le _ fun y hy => ?_
      rw [List.mem_map] at hy
      obtain ⟨i, hi', rfl⟩ := hy
      exact (hpt i (List.mem_range.1 hi')).1
    · have := basisVal_close (R := R) (hu500.trans (by norm_num)) hξ0 hξ1 (2 ^ m) (by linarith) ((pRows inds).getD j [])
        hcK s.sg.d hl (fun i => x.get [r, i]) z hpt
      refine this.trans ?_
      rw [hH]; gcongr
    · have := basisVal_close (R := R) (hu500.trans (by norm_num)) u0 (by linarith) (2 ^ m) (by linarith) ((pRows inds).getD j [])
        hcK s.sg.d hl (fun i => s.sg.cubeGrid.get [r, i]) z (fun i _ => ⟨hz1 i, hz2 i⟩)
      refine this.trans ?_
      rw [hH]; gcongr
  -- the sums
  have hH1 : 1 ≤ H := one_le_pow₀ (by nlinarith)
  have hG : 1 ≤ H * (1 + R.u) := by nlinarith
  have hGH : H ≤ H * (1 + R.u) := by nlinarith
  set θ : ℕ → ℝ := fun j => (s.theta.get (j :: idx)).val with hθ
  have hV := sum_close (R := R) (fun j => B.get [r, j] * s.theta.get (j :: idx)) (fun j => b j * θ j)
    (fun j => |θ j|) (G0 := H * (1 + R.u)) (List.range N) 0 0 0 (H * (1 + R.u)) le_rfl hG
    (fun j hj => by
      rw [abs_mul]
      have := mul_le_mul_of_nonneg_right (hent j (List.mem_range.1 hj)).1 (abs_nonneg (θ j))
      linarith)
    (fun j hj => by
      obtain ⟨h1, h2, -⟩ := hent j (List.mem_range.1 hj)
      have a1 : |(B.get [r, j]).val * θ j - b j * θ j| ≤ (H - 1) * |θ j| := by
        rw [← sub_mul, abs_mul]; exact mul_le_mul_of_nonneg_right h2 (abs_nonneg _)
      have a2 : |(B.get [r, j]).val * θ j| ≤ H * |θ j| := by
        rw [abs_mul]
        refine mul_le_mul_of_nonneg_right ?_ (abs_nonneg _)
        have := abs_add_le ((B.get [r, j]).val - b j) (b j)
        rw [sub_add_cancel] at this; linarith
      have a3 := (R.err ((B.get [r, j]).val * θ j)).trans (mul_le_mul_of_nonneg_left a2 u0)
      have a4 := abs_add_le (R.rnd ((B.get [r, j]).val * θ j) - (B.get [r, j]).val * θ j) ((B.get [r, j]).val * θ j - b j * θ j)
      rw [sub_add_sub_cancel] at a4
      show |R.rnd ((B.get [r, j]).val * θ j) - b j * θ j| ≤ _
      linarith)
    (by simp) (by simp [Fl.zero_val])
  rw [List.length_range, zero_add, ← List.sum_eq_foldl (xs := (List.range N).map fun j => b j * θ j)] at hV
  have hB' : ∀ l : List ℕ, (∀ j ∈ l, j < N) →
      |(l.map fun j => (s.sg.B.get [r, j]).val * θ j).sum - (l.map fun j => b j * θ j).sum| ≤ (H - 1) * (l.map fun j => |θ j|).sum := by
    intro l
    induction l with
    | nil => simp
    | cons a l ih =>
      intro hl
      have ih := ih fun j hj => hl j (by simp [hj])
      have h1 : |(s.sg.B.get [r, a]).val * θ a - b a * θ a| ≤ (H - 1) * |θ a| := by
        rw [← sub_mul, abs_mul]; exact mul_le_mul_of_nonneg_right (hent a (hl a (by simp))).2.2 (abs_nonneg _)
      simp only [List.map_cons, List.sum_cons]
      have h2 := abs_add_le ((s.sg.B.get [r, a]).val * θ a - b a * θ a)
        ((l.map fun j => (s.sg.B.get [r, j]).val * θ j).sum - (l.map fun j => b j * θ j).sum)
      rw [show ∀ p q v w : ℝ, p - q + (v - w) = p + v - (q + w) from fun p q v w => by ring] at h2
      linarith
  have hB'' := hB' (List.range N) fun j hj => List.mem_range.1 hj
  set S : ℝ := ((List.range N).map fun j => |θ j|).sum with hS
  have hS0 : 0 ≤ S := List.sum_nonneg fun y hy => by
    rw [List.mem_map] at hy
    obtain ⟨j, -, rfl⟩ := hy
    exact abs_nonneg _
  have hHN : H ≤ H * (1 + R.u) ^ (N + 1) := le_mul_of_one_le_right (by linarith) (one_le_pow₀ (by linarith))
  rw [show H * (1 + R.u) * (1 + R.u) ^ N = H * (1 + R.u) ^ (N + 1) by rw [pow_succ (1 + R.u) N]; ring] at hV
  have hB3 := hB''.trans (mul_le_mul_of_nonneg_right (sub_le_sub_right hHN 1) hS0)
  have c1 : |(V.get (r :: idx)).val - ((List.range N).map fun j => b j * θ j).sum| ≤ (H * (1 + R.u) ^ (N + 1) - 1) * S := hV
  generalize (V.get (r :: idx)).val = v at c1 ⊢
  generalize ((List.range N).map fun j => b j * θ j).sum = σ at c1 hB3
  generalize ((List.range N).map fun j => (s.sg.B.get [r, j]).val * θ j).sum = τ at hρ hB3
  have c2 := abs_add_le (v - σ) (σ - τ)
  rw [sub_add_sub_cancel, abs_sub_comm σ τ] at c2
  have c3 := abs_add_le (v - τ) (τ - (s.f.get (r :: idx)).val)
  rw [sub_add_sub_cancel] at c3
  linarith

/-- In doubles, on `[-1, 1]^3` with levels up to 3. -/
example [Trig (Fl (.ofDigits 52))] (hcos : ∀ x : Fl (.ofDigits 52), |(Trig.cos x).val| ≤ 1)
    (la : LinAlg (Fl (.ofDigits 52))) (hla : ∀ B, ∃ p, la.lu B = .ok p) :
    ∃ (sg : Grid (Fl (.ofDigits 52))) (N : ℕ), Grid.new la 3 (.iso 3) .default .default = .ok sg ∧
    ∀ (f θ : NdArray (Fl (.ofDigits 52))), θ.shape = [N] → ∃ V : NdArray (Fl (.ofDigits 52)),
      SInterp.interpolate la ⟨sg, f, θ⟩ sg.grid true false false false = .ok (.one V) ∧
      ∀ r ρ, |((List.range N).map fun j => (sg.B.get [r, j]).val * (θ.get [j]).val).sum - (f.get [r]).val| ≤ ρ →
        |(V.get [r]).val - (f.get [r]).val| ≤ ρ +
          2 * ((1 + 1 / 10 ^ 12) * (1 + (2:ℝ) ^ (-(53 : ℤ))) ^ (N + 1) - 1) * ((List.range N).map fun j => |(θ.get [j]).val|).sum := by
  have hu : (Rounding.ofDigits 52).u = (2 : ℝ) ^ (-(53 : ℤ)) := rfl
  obtain ⟨sg, h1, h2, h3, h4⟩ := new_total la hla 3 (.iso 3) .default .default [-1, -1, -1] [1, 1, 1] (by norm_num)
    (by simp [ValidMu]) rfl rfl
  refine ⟨sg, sg.pinds.length, h1, fun f θ hθ => ?_⟩
  have hb : ∀ i < 3, (sg.lb.getD i 0).val = -1 ∧ (sg.ub.getD i 0).val = 1 := by
    intro i hi
    rw [h3, h4]
    interval_cases i <;> simp [Fl.neg_val, Fl.one_val]
  obtain ⟨n, V, -, -, e, -, h⟩ := C130_reproduces (.ofDigits 52) hcos la 3 (.iso 3) .default .default ⟨sg, f, θ⟩ h1 3
    (by simp [MuLe]) 0 le_rfl (by rw [hu]; norm_num) (fun i hi => by
      obtain ⟨a, b⟩ := hb i (by simpa [h2] using hi)
      rw [a, b]; norm_num) _ [] rfl hθ
  refine ⟨V, e, fun r ρ hρ => (h r [] ρ hρ).trans ?_⟩
  have hS : 0 ≤ ((List.range sg.pinds.length).map fun j => |(θ.get [j]).val|).sum := List.sum_nonneg fun y hy => by
    rw [List.mem_map] at hy
    obtain ⟨j, -, rfl⟩ := hy
    exact abs_nonneg _
  refine add_le_add_right (mul_le_mul_of_nonneg_right (mul_le_mul_of_nonneg_left (sub_le_sub_right ?_ 1) (by norm_num)) hS) ρ
  rw [hu]
  refine mul_le_mul_of_nonneg_right ?_ (by positivity)
  simp only [h2]; norm_num

end Interp.Props
