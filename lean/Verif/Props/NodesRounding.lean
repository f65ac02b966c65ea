import Verif.Proofs.NodesRounding

/-!
# The nodes and the Smolyak grid in rounded arithmetic: C126

The numbers are computed with rounding rule `R` (`Verif/Spec/Rounding.lean`); `numpy.cos`, `numpy.pi` and the literal
`1e-14` have the errors of `TrigErr` (`Verif/Spec/RoundingTrig.lean`).
-/

set_option linter.unusedSectionVars false

namespace Interp.Props
open Interp.Spec Interp.Smolyak Interp.Codegen

/-- C126: up to level 47, entry `j` of `s_n(n)` is within `21 u` of the extremum `-cos(pi j / 2^(n-1))`; the middle entry
is exactly zero and no other entry is. -/
theorem C126_nodes (R : Rounding) [Trig (Fl R)] (hT : TrigErr R) (hu : R.u ≤ 1 / 2 ^ 52) (n : ℕ) (hn : 2 ≤ n) (h47 : n ≤ 47) :
    (sN n : List (Fl R)).length = 2 ^ (n - 1) + 1 ∧ ∀ (j : ℕ) (hj : j < (sN n : List (Fl R)).length),
      |(sN n : List (Fl R))[j].val - -Real.cos (Real.pi * j / 2 ^ (n - 1))| ≤ 21 * R.u ∧
      ((sN n : List (Fl R))[j].val = 0 ↔ 2 * j = 2 ^ (n - 1)) := by
  have e := sN_fl (R := R) n hn
  have hl : (sN n : List (Fl R)).length = 2 ^ (n - 1) + 1 := by rw [e]; simp
  refine ⟨hl, fun j hj => ?_⟩
  have hj' : j ≤ 2 ^ (n - 1) := by omega
  simp only [e, List.getElem_map, List.getElem_range]
  obtain ⟨m, rfl⟩ : ∃ m, n = m + 2 := ⟨n - 2, by omega⟩
  simp only [show m + 2 - 1 = m + 1 by omega] at hj' ⊢
  have h := raw_close hT hu j (2 ^ (m + 1)) Nat.one_le_two_pow hj'
  rw [show ((2 ^ (m + 1) : ℕ) : ℝ) = 2 ^ (m + 1) by push_cast; ring] at h
  obtain ⟨h1, h2⟩ := node_close hT hu m j (by omega) hj' _ h
  refine ⟨h1, h2.trans ?_⟩
  rw [pow_succ]
  generalize 2 ^ m = a
  omega

/-- C126: as long as `21 u 4^(n-1) < 1` (in doubles: up to level 25), the computed nodes are strictly increasing. -/
theorem C126_increasing (R : Rounding) [Trig (Fl R)] (hT : TrigErr R) (hu : R.u ≤ 1 / 2 ^ 52) (n : ℕ) (hn : 2 ≤ n) (h47 : n ≤ 47)
    (hs : 21 * R.u * 4 ^ (n - 1) < 1) : (sN n : List (Fl R)).Pairwise fun a b => a.val < b.val := by
  obtain ⟨hl, h⟩ := C126_nodes R hT hu n hn h47
  rw [List.pairwise_iff_getElem]
  intro i j hi hj hij
  have h1 := abs_le.1 (h i hi).1
  have h2 := abs_le.1 (h j hj).1
  have h3 := extrema_apart (2 ^ (n - 1)) i j hij (by omega)
  push_cast at h3
  have h4 : 42 * R.u < 2 / (2 ^ (n - 1)) ^ 2 := by
    rw [lt_div_iff₀ (by positivity), ← pow_mul, mul_comm (n - 1) 2, pow_mul]
    norm_num
    linarith
  linarith [h1.1, h1.2, h2.1, h2.2]

/-- C126: the grid of `build_grid(d, mu)` on the cube has the shape of the exact grid, and every coordinate is within
`21 u` of the exact one. -/
theorem C126_grid (R : Rounding) [Trig (Fl R)] (hT : TrigErr R) (hu : R.u ≤ 1 / 2 ^ 52) (d : ℕ) (mu : Mu) (hd : 2 ≤ d)
    (hv : ValidMu d mu) (hm : MuLe 46 mu) : ∃ (A : NdArray (Fl R)) (A' : NdArray ℝ), buildGrid d mu none = .ok A ∧
      buildGrid d mu none = .ok A' ∧ A.shape = A'.shape ∧ ∀ idx, |(A.get idx).val - A'.get idx| ≤ 21 * R.u := by
  obtain ⟨M, inds, e, hi, hMu⟩ := exists_inds d mu hd hv
  have hM : M ≤ 46 := by have := (hMu 46).1 hm; omega
  obtain ⟨rows, h1, h2⟩ := buildGrid_rel hT hu hi hM
  refine ⟨ofRows d rows, ofRows d (gridRows inds), ?_, ?_, ?_, fun idx => ?_⟩
  · rw [← h1]; simp only [buildGrid, indsOr, e, ok_bind, pure_bind]
  · rw [← buildGrid_ok hi]; simp only [buildGrid, indsOr, e, ok_bind, pure_bind]
  · simp [ofRows, h2.length_eq]
  · have h3 : List.Forall₂ (Close R) (rows.getD (idx.getD 0 0) []) ((gridRows inds).getD (idx.getD 0 0) []) :=
      getD_rel h2 .nil _
    have h4 : Close R (0 : Fl R) (0 : ℝ) := by simpa [Fl.zero_val] using close_of_eq (0 : Fl R)
    exact getD_rel h3 h4 (idx.getD 1 0)

/-- C126: the computed points are distinct as long as `21 u 4^m < 1`, `m` the greatest level (in doubles: up to 24). -/
theorem C126_distinct (R : Rounding) [Trig (Fl R)] (hT : TrigErr R) (hu : R.u ≤ 1 / 2 ^ 52) (d m : ℕ) (mu : Mu) (hd : 2 ≤ d)
    (hv : ValidMu d mu) (hm : MuLe m mu) (hm46 : m ≤ 46) (hs : 21 * R.u * 4 ^ m < 1) : ∃ (A : NdArray (Fl R)) (N : ℕ),
      buildGrid d mu none = .ok A ∧ A.shape = [N, d] ∧ ∀ r < N, ∀ r' < N,
        (∀ i < d, (A.get [r, i]).val = (A.get [r', i]).val) → r = r' := by
  have u0 := Rounding.u_nonneg R
  obtain ⟨M, inds, e, hi, hMu⟩ := exists_inds d mu hd hv
  have hMm : M ≤ m := by exact_mod_cast (hMu m).1 hm
  have hM1 := hi.pos
  obtain ⟨rows, h1, h2⟩ := buildGrid_rel hT hu hi (show M ≤ 46 by omega)
  refine ⟨ofRows d rows, rows.length, ?_, rfl, fun r hr r' hr' heq => ?_⟩
  · rw [← h1]; simp only [buildGrid, indsOr, e, ok_bind, pure_bind]
  have hlen := h2.length_eq
  have hr2 : r < (gridRows inds).length := by omega
  have hr2' : r' < (gridRows inds).length := by omega
  -- the exact rows are equal
  have hrow : (gridRows inds)[r] = (gridRows inds)[r'] := by
    have m1 := List.getElem_mem hr2
    have m2 := List.getElem_mem hr2'
    have l1 := gridRows_length_row hi m1
    have l2 := gridRows_length_row hi m2
    refine List.ext_getElem (by rw [l1, l2]) fun i hi1 hi2 => ?_
    have hid : i < d := by omega
    have hc := heq i hid
    have h4 : Close R (0 : Fl R) (0 : ℝ) := by simpa [Fl.zero_val] using close_of_eq (0 : Fl R)
    have c1 : Close R ((rows.getD r []).getD i 0) ((gridRows inds)[r][i]) := by
      have := getD_rel (getD_rel h2 .nil r) h4 i
      rwa [List.getD_eq_getElem (gridRows inds) _ hr2, List.getD_eq_getElem _ _ hi1] at this
    have c2 : Close R ((rows.getD r' []).getD i 0) ((gridRows inds)[r'][i]) := by
      have := getD_rel (getD_rel h2 .nil r') h4 i
      rwa [List.getD_eq_getElem (gridRows inds) _ hr2', List.getD_eq_getElem _ _ hi2] at this
    have hc' : ((rows.getD r []).getD i 0).val = ((rows.getD r' []).getD i 0).val := hc
    unfold Close at c1 c2
    rw [← hc'] at c2
    have hd' : |(gridRows inds)[r][i] - (gridRows inds)[r'][i]| ≤ 42 * R.u := by
      rw [abs_sub_comm] at c1
      have := abs_add_le ((gridRows inds)[r][i] - ((rows.getD r []).getD i 0).val)
        (((rows.getD r []).getD i 0).val - (gridRows inds)[r'][i])
      rw [sub_add_sub_cancel] at this
      linarith
    -- both are nodes of `s_n`
    have node : ∀ x ∈ gridRows inds, ∀ (i : ℕ) (hx : i < x.length), ∃ j : ℕ, j ≤ 2 ^ M ∧ x[i] = -Real.cos (Real.pi * j / 2 ^ M) := by
      intro x hx i hix
      obtain ⟨el, hel, hf⟩ := (mem_gridRows x).1 hx
      rw [List.forall₂_iff_get] at hf
      have hile : i < el.length := by rw [← hf.1]; exact hix
      have hb := (hi.entry hel).2 (el.get ⟨i, hile⟩) (List.get_mem _ _)
      have := (aLevel_sNode (M + 1) (el.get ⟨i, hile⟩).toNat (by omega) (by omega) (by omega) (by omega) _).1 (hf.2 i hix hile)
      obtain ⟨j, hj, hxj, -⟩ := this
      refine ⟨j, by simpa using hj, ?_⟩
      rw [sNode_exact (M + 1) j (by omega) (by omega) hj] at hxj
      simpa using hxj
    obtain ⟨j, hj, ej⟩ := node _ m1 i hi1
    obtain ⟨k, hk, ek⟩ := node _ m2 i hi2
    rw [ej, ek] at hd' ⊢
    have far : ∀ a b : ℕ, a < b → b ≤ 2 ^ M →
        42 * R.u < Real.cos (Real.pi * a / 2 ^ M) - Real.cos (Real.pi * b / 2 ^ M) := by
      intro a b hab hb
      have h3 := extrema_apart (2 ^ M) a b hab hb
      push_cast at h3
      refine lt_of_lt_of_le ?_ h3
      rw [lt_div_iff₀ (by positivity), ← pow_mul, mul_comm M 2, pow_mul]
      have : (4:ℝ) ^ M ≤ 4 ^ m := pow_le_pow_right₀ (by norm_num) hMm
      have := mul_le_mul_of_nonneg_left this (show 0 ≤ 21 * R.u by linarith)
      norm_num
      linarith
    rcases lt_trichotomy j k with h | h | h
    · have := far j k h hk
      have := (abs_le.1 hd').1
      linarith
    · rw [h]
    · have := far k j h hj
      have := (abs_le.1 hd').2
      linarith
  exact (hi.gridRows_nodup (by omega)).getElem_inj_iff.1 hrow

/-- Correctly rounded functions satisfy the assumption. -/
theorem C126_trigErr (p : ℕ) (hp : 46 ≤ p) :
    letI : Trig (Fl (.ofDigits p)) := ⟨fun x => ⟨(Rounding.ofDigits p).rnd (Real.cos x.val)⟩,
      ⟨(Rounding.ofDigits p).rnd Real.pi⟩, ⟨(Rounding.ofDigits p).rnd (1 / 10 ^ 14)⟩⟩
    TrigErr (.ofDigits p) := by
  have u0 := Rounding.u_nonneg (.ofDigits p)
  letI : Trig (Fl (.ofDigits p)) := ⟨fun x => ⟨(Rounding.ofDigits p).rnd (Real.cos x.val)⟩,
      ⟨(Rounding.ofDigits p).rnd Real.pi⟩, ⟨(Rounding.ofDigits p).rnd (1 / 10 ^ 14)⟩⟩
  refine ⟨?_, fun x _ => ?_, ?_⟩
  · have := (Rounding.ofDigits p).err Real.pi
    rwa [abs_of_pos Real.pi_pos] at this
  · refine ((Rounding.ofDigits p).err (Real.cos x.val)).trans ?_
    have := mul_le_mul_of_nonneg_left (Real.abs_cos_le_one x.val) u0
    linarith
  · refine ((Rounding.ofDigits p).err (1 / 10 ^ 14)).trans ?_
    have hu : (Rounding.ofDigits p).u ≤ 1 / 100 := by
      show (2 : ℝ) ^ (-((p : ℤ) + 1)) ≤ _
      calc (2 : ℝ) ^ (-((p : ℤ) + 1)) ≤ (2 : ℝ) ^ (-(47 : ℤ)) := zpow_le_zpow_right₀ (by norm_num) (by omega)
        _ ≤ 1 / 100 := by norm_num
    rw [abs_of_pos (by norm_num)]
    have := mul_le_mul_of_nonneg_right hu (show (0:ℝ) ≤ 1 / 10 ^ 14 by norm_num)
    norm_num at this ⊢
    linarith

/-- In doubles, three variables and level 20: distinct points. -/
example [Trig (Fl (.ofDigits 52))] (hT : TrigErr (.ofDigits 52)) : ∃ (A : NdArray (Fl (.ofDigits 52))) (N : ℕ),
    buildGrid 3 (.iso 20) none = .ok A ∧ A.shape = [N, 3] ∧ ∀ r < N, ∀ r' < N,
      (∀ i < 3, (A.get [r, i]).val = (A.get [r', i]).val) → r = r' := by
  have hu : (Rounding.ofDigits 52).u = (2 : ℝ) ^ (-((52 : ℤ) + 1)) := rfl
  exact C126_distinct (.ofDigits 52) hT (by rw [hu]; norm_num) 3 20 (.iso 20) (by norm_num) (by simp [ValidMu])
    (by simp [MuLe]) (by norm_num) (by rw [hu]; norm_num)

end Interp.Props
