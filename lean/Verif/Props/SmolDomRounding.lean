import Verif.Proofs.SmolDomRounding
import Verif.Props.NodesRounding

/-!
# The Smolyak grid in the domain is accurate in rounded arithmetic: C131
-/

set_option linter.unusedSectionVars false

namespace Interp.Props
open Interp.Spec Interp.Smolyak Interp.Codegen

/-- C131: the stored grid and the exact grid have the same shape, and their coordinates differ by at most `u` times 14 widths and
twice the absolute sum of the bounds. The stored points are in the domain up to that error. -/
theorem C131_grid (R : Rounding) [Trig (Fl R)] (hT : TrigErr R) (hu : R.u ≤ 1 / 2 ^ 52) (la : LinAlg (Fl R)) (d : ℤ) (mu : Mu)
    (lb ub : Bound (Fl R)) (sg : Grid (Fl R)) (hs : Grid.new la d mu lb ub = .ok sg) (hm : MuLe 46 mu)
    (hb : ∀ i < sg.d, (sg.lb.getD i 0).val < (sg.ub.getD i 0).val) :
    ∃ (A G : NdArray ℝ), buildGrid d.toNat mu none = .ok A ∧ cube2dom (sg.lb.map Fl.val) (sg.ub.map Fl.val) A = .ok G ∧
      sg.grid.shape = G.shape ∧ ∀ r, ∀ i < sg.d, ∀ e,
        e = R.u * (14 * ((sg.ub.getD i 0).val - (sg.lb.getD i 0).val) + 2 * |(sg.lb.getD i 0).val + (sg.ub.getD i 0).val|) →
        |(sg.grid.get [r, i]).val - G.get [r, i]| ≤ e ∧
        (sg.lb.getD i 0).val - e ≤ (sg.grid.get [r, i]).val ∧ (sg.grid.get [r, i]).val ≤ (sg.ub.getD i 0).val + e := by
  obtain ⟨hd2, hv, hd, hmu, hlb, hub, -⟩ := new_any la d mu lb ub sg hs
  obtain ⟨npts, hcs, hgrid, -, hcube⟩ := new_arrays la d mu lb ub sg hs
  obtain ⟨M, inds, e, hi, hMu⟩ := exists_inds d.toNat mu (by omega) hv
  have hM : M ≤ 46 := by have := (hMu 46).1 hm; omega
  obtain ⟨rows, h1, h2⟩ := buildGrid_rel hT hu hi hM
  rw [hcube _ e] at h1
  have hc : sg.cubeGrid = ofRows d.toNat rows := Except.ok.inj h1
  have hl := h2.length_eq
  rw [← hd] at hlb hub
  have hg : sg.grid = ⟨[rows.length, sg.d], fun idx =>
      (ofRows d.toNat rows).get idx * radius (sg.lb.getD (idx.getLastD 0) 0) (sg.ub.getD (idx.getLastD 0) 0)
        + center (sg.lb.getD (idx.getLastD 0) 0) (sg.ub.getD (idx.getLastD 0) 0)⟩ := by
    have : cube2dom sg.lb sg.ub sg.cubeGrid = .ok _ := hgrid
    rw [hc] at this
    simp [cube2dom, alongLast, hlb, hub, pure_eq_ok, ofRows, ← hd] at this
    rw [← this]
    simp [ofRows]
  refine ⟨ofRows d.toNat (gridRows inds), ⟨[rows.length, sg.d], fun idx =>
      (ofRows d.toNat (gridRows inds)).get idx
        * radius ((sg.lb.map Fl.val).getD (idx.getLastD 0) 0) ((sg.ub.map Fl.val).getD (idx.getLastD 0) 0)
        + center ((sg.lb.map Fl.val).getD (idx.getLastD 0) 0) ((sg.ub.map Fl.val).getD (idx.getLastD 0) 0)⟩, ?_, ?_, ?_, ?_⟩
  · rw [← buildGrid_ok hi]; simp only [buildGrid, indsOr, e, ok_bind, pure_bind]
  · simp [cube2dom, alongLast, hlb, hub, pure_eq_ok, ofRows, ← hd, hl]
  · rw [hg]
  intro r i hid ε hε
  have hlh := hb i hid
  have g1 : (sg.lb.map Fl.val).getD i 0 = (sg.lb.getD i 0).val := by simp [List.getD, hlb, hid]
  have g2 : (sg.ub.map Fl.val).getD i 0 = (sg.ub.getD i 0).val := by simp [List.getD, hub, hid]
  have h4 : Close R (0 : Fl R) (0 : ℝ) := by simpa [Fl.zero_val] using close_of_eq (0 : Fl R)
  have c1 : Close R ((rows.getD r []).getD i 0) (((gridRows inds).getD r []).getD i 0) := getD_rel (getD_rel h2 .nil r) h4 i
  have c2 := gridRows_le hi hM r i
  have c3 := cube2dom_close hu _ (sg.lb.getD i 0) (sg.ub.getD i 0) _ hlh c2 c1
  rw [← hε] at c3
  rw [hg]
  simp only [List.getLastD_cons, List.getLastD_nil, g1, g2]
  have e1 : ∀ {K : Type} [Zero K] (l : List (List K)), (ofRows d.toNat l).get [r, i] = (l.getD r []).getD i 0 := fun _ => rfl
  rw [e1, e1]
  refine ⟨c3, ?_⟩
  obtain ⟨c4, c5⟩ := abs_le.1 c3
  obtain ⟨c6, c7⟩ := cube2dom_mem _ _ _ hlh.le c2
  constructor <;> linarith

/-- C131: the stored points are distinct, if the rounding errors are small compared with the distances of the nodes. All levels are
at most `m` and the midpoints of the domain are at most `k` times its half-widths. -/
theorem C131_distinct (R : Rounding) [Trig (Fl R)] (hT : TrigErr R) (hu : R.u ≤ 1 / 2 ^ 52) (la : LinAlg (Fl R)) (d : ℤ) (mu : Mu)
    (lb ub : Bound (Fl R)) (sg : Grid (Fl R)) (hs : Grid.new la d mu lb ub = .ok sg) (m : ℕ) (hm : MuLe m mu) (hm46 : m ≤ 46)
    (k : ℝ) (hb : ∀ i < sg.d, (sg.lb.getD i 0).val < (sg.ub.getD i 0).val ∧
      |(sg.lb.getD i 0).val + (sg.ub.getD i 0).val| ≤ k * ((sg.ub.getD i 0).val - (sg.lb.getD i 0).val))
    (hsm : (28 + 4 * k) * R.u * 4 ^ m < 1) :
    ∃ N, sg.grid.shape = [N, sg.d] ∧ ∀ r < N, ∀ r' < N,
      (∀ i < sg.d, (sg.grid.get [r, i]).val = (sg.grid.get [r', i]).val) → r = r' := by
  have u0 := Rounding.u_nonneg R
  have hm46' : MuLe 46 mu := by
    obtain ⟨hd2, hv, -⟩ := new_any la d mu lb ub sg hs
    obtain ⟨M, inds, e, hi, hMu⟩ := exists_inds d.toNat mu (by omega) hv
    have := (hMu m).1 hm
    exact (hMu 46).2 (by omega)
  obtain ⟨A, G, hA, hG, hsh, h⟩ := C131_grid R hT hu la d mu lb ub sg hs hm46' fun i hi => (hb i hi).1
  obtain ⟨hd2, hv, hd, hmu, hlb, hub, -⟩ := new_any la d mu lb ub sg hs
  obtain ⟨M, inds, e, hi, hMu⟩ := exists_inds d.toNat mu (by omega) hv
  have hMm : M ≤ m := by exact_mod_cast (hMu m).1 hm
  have hA' : A = ofRows d.toNat (gridRows inds) := by
    have : buildGrid d.toNat mu none = .ok (ofRows d.toNat (gridRows inds)) := by
      rw [← buildGrid_ok hi]; simp only [buildGrid, indsOr, e, ok_bind, pure_bind]
    rw [this] at hA; exact (Except.ok.inj hA).symm
  rw [← hd] at hlb hub
  have hG' : G = ⟨[(gridRows inds).length, sg.d], fun idx => A.get idx
        * radius ((sg.lb.map Fl.val).getD (idx.getLastD 0) 0) ((sg.ub.map Fl.val).getD (idx.getLastD 0) 0)
        + center ((sg.lb.map Fl.val).getD (idx.getLastD 0) 0) ((sg.ub.map Fl.val).getD (idx.getLastD 0) 0)⟩ := by
    have : cube2dom (sg.lb.map Fl.val) (sg.ub.map Fl.val) A = .ok _ := hG
    rw [hA'] at this ⊢
    simp [cube2dom, alongLast, hlb, hub, pure_eq_ok, ofRows, ← hd] at this
    rw [← this]
    simp [ofRows]
  refine ⟨(gridRows inds).length, by rw [hsh, hG'], fun r hr r' hr' heq => ?_⟩
  refine gridRows_sep hi (by omega) r r' hr hr' fun i hid => ?_
  rw [← hd] at hid
  obtain ⟨hlh, hk⟩ := hb i hid
  have g1 : (sg.lb.map Fl.val).getD i 0 = (sg.lb.getD i 0).val := by simp [List.getD, hlb, hid]
  have g2 : (sg.ub.map Fl.val).getD i 0 = (sg.ub.getD i 0).val := by simp [List.getD, hub, hid]
  have h1 := (h r i hid _ rfl).1
  have h2 := (h r' i hid _ rfl).1
  rw [← heq i hid] at h2
  rw [abs_sub_comm] at h1
  have h3 := (abs_add_le _ _).trans (add_le_add h1 h2)
  rw [sub_add_sub_cancel, hG', hA'] at h3
  simp only [List.getLastD_cons, List.getLastD_nil, g1, g2] at h3
  have e1 : ∀ r, (ofRows d.toNat (gridRows inds)).get [r, i] = ((gridRows inds).getD r []).getD i 0 := fun _ => rfl
  rw [e1, e1] at h3
  generalize ((gridRows inds).getD r []).getD i 0 = x at h3 ⊢
  generalize ((gridRows inds).getD r' []).getD i 0 = x' at h3 ⊢
  generalize (sg.lb.getD i 0).val = l at *
  generalize (sg.ub.getD i 0).val = u at *
  have er : radius l u = (u - l) / 2 := by rw [radius]; push_cast; ring
  rw [add_sub_add_right_eq_sub, ← sub_mul, abs_mul, er, abs_of_pos (show 0 < (u - l) / 2 by linarith)] at h3
  have w0 : 0 < u - l := by linarith
  have h4 : R.u * (14 * (u - l) + 2 * |l + u|) ≤ R.u * ((14 + 2 * k) * (u - l)) := mul_le_mul_of_nonneg_left (by linarith) u0
  have h5 : |x - x'| * (u - l) ≤ (2 * ((28 + 4 * k) * R.u)) * (u - l) := by linarith
  have h6 : |x - x'| ≤ 2 * ((28 + 4 * k) * R.u) := le_of_mul_le_mul_right h5 w0
  have p1 : (4:ℝ) ^ M ≤ 4 ^ m := pow_le_pow_right₀ (by norm_num) hMm
  have k0 : 0 ≤ k := by
    by_contra hn
    have := mul_neg_of_neg_of_pos (not_le.1 hn) w0
    have := abs_nonneg (l + u)
    linarith
  have p2 := mul_le_mul_of_nonneg_left p1 (show 0 ≤ (28 + 4 * k) * R.u by positivity)
  rw [lt_div_iff₀ (by positivity)]
  have h7 := mul_le_mul_of_nonneg_right h6 (show (0:ℝ) ≤ 4 ^ M by positivity)
  linarith

/-- In doubles with correctly rounded functions, on the unit cube with levels up to 20. -/
example (la : LinAlg (Fl (.ofDigits 52))) (hla : ∀ B, ∃ p, la.lu B = .ok p) :
    letI : Trig (Fl (.ofDigits 52)) := ⟨fun x => ⟨(Rounding.ofDigits 52).rnd (Real.cos x.val)⟩,
      ⟨(Rounding.ofDigits 52).rnd Real.pi⟩, ⟨(Rounding.ofDigits 52).rnd (1 / 10 ^ 14)⟩⟩
    ∃ (sg : Grid (Fl (.ofDigits 52))) (N : ℕ), Grid.new la 2 (.iso 20) (.array [0, 0]) (.array [1, 1]) = .ok sg ∧
      sg.grid.shape = [N, 2] ∧ ∀ r < N, ∀ r' < N, (∀ i < 2, (sg.grid.get [r, i]).val = (sg.grid.get [r', i]).val) → r = r' := by
  letI : Trig (Fl (.ofDigits 52)) := ⟨fun x => ⟨(Rounding.ofDigits 52).rnd (Real.cos x.val)⟩,
      ⟨(Rounding.ofDigits 52).rnd Real.pi⟩, ⟨(Rounding.ofDigits 52).rnd (1 / 10 ^ 14)⟩⟩
  have hu : (Rounding.ofDigits 52).u = (2 : ℝ) ^ (-(53 : ℤ)) := rfl
  obtain ⟨sg, h1, h2, h3, h4⟩ := new_total la hla 2 (.iso 20) (.array [0, 0]) (.array [1, 1]) [0, 0] [1, 1] (by norm_num)
    (by simp [ValidMu]) rfl rfl
  obtain ⟨N, h5, h6⟩ := C131_distinct (.ofDigits 52) (C126_trigErr 52 (by norm_num)) (by rw [hu]; norm_num) la 2 (.iso 20) _ _ sg h1 20
    (by simp [MuLe]) (by norm_num) 1 (fun i hi => by
      rw [h2] at hi
      rw [h3, h4]
      interval_cases i <;> simp [Fl.zero_val, Fl.one_val]) (by rw [hu]; norm_num)
  rw [h2] at h5 h6
  exact ⟨sg, N, h1, h5, h6⟩

end Interp.Props
