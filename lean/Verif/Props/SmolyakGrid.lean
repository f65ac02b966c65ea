import Verif.Proofs.SmolCount
import Verif.Proofs.SmolPoly

/-!
# Smolyak grids: C58–C63, C68, C71–C73
-/

set_option linter.unusedSectionVars false
set_option linter.unusedSimpArgs false

namespace Interp.Props
open Interp.Spec Interp.Smolyak
open Interp.CompletePoly (transpose dot rangeN)

/-! ### C58: `permute` -/

/-- **C58.** `permute` yields, in increasing lexicographic order, every distinct rearrangement exactly
once. -/
theorem C58_permute {α : Type} [LinearOrder α] (a : List α) (h : 2 ≤ a.length) :
    ∃ r, permute a = .ok r ∧ r.Pairwise (· < ·) ∧ ∀ c, c ∈ r ↔ c.Perm a := permute_ok a h

example : ∃ r, permute [2, 1, 2] = .ok r ∧ [2, 2, 1] ∈ r ∧ [1, 2, 2] ∈ r ∧ [2, 2, 2] ∉ r := by
  obtain ⟨r, h, _, hm⟩ := C58_permute ([2, 1, 2] : List ℕ) (by simp)
  refine ⟨r, h, (hm _).mpr ?_, (hm _).mpr ?_, fun h => ?_⟩
  · decide
  · decide
  · exact absurd ((hm _).mp h) (by decide)

/-- Lists of fewer than two elements make `permute` raise `IndexError` (after having yielded the
list). -/
theorem C58_short {α : Type} [LinearOrder α] (a : List α) (h : a.length < 2) :
    permute a = .error .index := by
  match a, h with
  | [], _ => simp [permute, pySort, permLoop, scanI, pyGet, wrapIndex]
  | [x], _ =>
    simp [permute, pySort, permLoop, scanI, pyGet, wrapIndex]

/-! ### C59: `smol_inds` -/

/-- **C59.** `smol_inds(d, mu)` lists the admissible index vectors, each exactly once. -/
theorem C59_smol_inds (d : ℕ) (mu : Mu) (hd : 2 ≤ d) (hv : ValidMu d mu) :
    ∃ inds, smolInds d mu = .ok inds ∧ inds.Nodup ∧ ∀ el, el ∈ inds ↔ Admissible d mu el :=
  inds_ok d mu hd hv

example : ValidMu 3 (.iso 2) ∧ ValidMu 2 (.aniso [1, 3]) ∧ Admissible 2 (.aniso [1, 3]) [2, 3] ∧
    ¬ Admissible 2 (.aniso [1, 3]) [3, 1] ∧ ¬ Admissible 2 (.iso 1) [2, 2] := by
  refine ⟨by simp [ValidMu], by simp [ValidMu], ?_, ?_, ?_⟩ <;> simp [Admissible]

/-! ### C60: number of grid points -/

/-- **C60.** `num_grid_points(d, mu)` is the number of rows of the grid, for `mu` = 1, 2, 3. -/
theorem C60_num_grid_points (d : ℕ) (hd : 2 ≤ d) (mu : ℤ) (hmu : mu = 1 ∨ mu = 2 ∨ mu = 3) :
    ∃ (inds : List (List ℤ)) (g : NdArray ℝ) (N : ℕ), smolInds d (.iso mu) = .ok inds ∧
      buildGrid d (.iso mu) (some inds) = .ok g ∧ g.shape = [N, d] ∧
      numGridPoints (K := ℝ) d mu = some (N : ℝ) := by
  obtain ⟨m, rfl⟩ : ∃ m : ℕ, mu = m := ⟨mu.toNat, by omega⟩
  obtain ⟨M, inds, e, hi, hM⟩ := exists_inds d (.iso m) hd (by simp only [ValidMu]; omega)
  have hMm : M = m := by
    have h1 := (hM m).mp (by simp [MuLe])
    have h2 := (hM M).mpr le_rfl
    simp only [MuLe] at h2
    omega
  subst hMm
  refine ⟨inds, _, cnt d M, e, buildGrid_ok hi, by simp [ofRows, gridRows_count hi], ?_⟩
  rcases hmu with h | h | h
  · have h1 : M = 1 := by omega
    subst h1
    have := cnt1 d
    rw [this]
    simp [numGridPoints]
  · have h1 : M = 2 := by omega
    subst h1
    have := congrArg (fun q : ℚ => (q : ℝ)) (cnt2 d)
    push_cast at this
    rw [this]
    simp only [numGridPoints]
    norm_num
    ring
  · have h1 : M = 3 := by omega
    subst h1
    have := congrArg (fun q : ℚ => (q : ℝ)) (cnt3 d)
    push_cast at this
    rw [this]
    simp only [numGridPoints]
    norm_num
    ring

/-- The same for the grid of a `SmolyakGrid` object. -/
theorem C60_rows (la : LinAlg ℝ) (hla : LinAlgOK la) (d : ℕ) (mu : ℤ) (hmu : mu = 1 ∨ mu = 2 ∨ mu = 3)
    (lb ub : Bound ℝ) (sg : Grid ℝ) (h : Grid.new la d (.iso mu) lb ub = .ok sg) :
    ∃ N : ℕ, sg.grid.shape = [N, d] ∧ numGridPoints (K := ℝ) d mu = some (N : ℝ) := by
  obtain ⟨M, hg, hd, hmu', _⟩ := new_gridOK la hla d _ lb ub sg h
  obtain ⟨h2, _⟩ := new_elim la hla d _ lb ub sg h
  have hd' : sg.d = d := by omega
  obtain ⟨inds, g, N, e1, e2, e3, e4⟩ := C60_num_grid_points d (by omega) mu hmu
  refine ⟨N, ?_, e4⟩
  obtain ⟨inds', e1', hn, hm⟩ := inds_ok d (.iso mu) (by omega) (hmu' ▸ hd' ▸ hg.inds.valid)
  rw [e1] at e1'
  injection e1' with e1'
  subst e1'
  have hperm : inds.Perm sg.inds := by
    rw [List.perm_ext_iff_of_nodup hn hg.inds.nodup]
    intro el
    rw [hm, hg.inds.mem, hmu', hd']
  have htop : IndsOK d (.iso mu) M inds :=
    ⟨by omega, hmu' ▸ hd' ▸ hg.inds.valid, hg.inds.pos, hmu' ▸ hg.inds.top, hn, hm⟩
  rw [buildGrid_ok htop] at e2
  injection e2 with e2
  rw [← e2] at e3
  simp only [ofRows, List.cons.injEq, and_true] at e3
  rw [hg.gridArr.1, ← hg.inds.length_eq, hd', ← e3]
  simp only [gridRows, List.length_flatMap]
  rw [(hperm.map _).sum_eq]

example : numGridPoints (K := ℝ) 2 1 = some 5 ∧ numGridPoints (K := ℝ) 3 2 = some 25 := by
  constructor <;> norm_num [numGridPoints]

/-! ### C61: one dimensional nodes -/

/-- **C61**, for the levels up to 49: the sets of new nodes of the levels are disjoint, without
repetition, and their union up to level `n` is the set of Chebyshev extrema of level `n`.

Missing: the levels above 49, where the claim is false, see `C61_levels_fails`. -/
theorem C61_levels_partial (n : ℕ) (hn : 2 ≤ n) (h49 : n ≤ 49) :
    ∃ A : ℕ → List ℝ, (∀ i, 1 ≤ i → i ≤ n → dictGet (aChain n : Dict ℝ) i = .ok (A i) ∧ (A i).Nodup) ∧
      (∀ i i' x, 1 ≤ i → i ≤ n → 1 ≤ i' → i' ≤ n → x ∈ A i → x ∈ A i' → i = i') ∧
      (∀ m, 1 ≤ m → m ≤ n → ∀ x, (∃ i, 1 ≤ i ∧ i ≤ m ∧ x ∈ A i) ↔ IsExtremum m x) := by
  refine ⟨aLevel, fun i h1 h2 => ⟨aChain_lookup n i h1 h2 hn, aLevel_nodup i (by omega)⟩, ?_, ?_⟩
  · intro i i' x h1 h2 h3 h4 hx hx'
    exact aLevel_disjoint i i' h1 h3 (by omega) (by omega) x hx hx'
  · intro m hm hmn x
    rcases Nat.lt_or_ge m 2 with h2 | h2
    · have : m = 1 := by omega
      subst this
      constructor
      · rintro ⟨i, h1, h2, hx⟩
        have : i = 1 := by omega
        subst this
        exact Or.inl ⟨rfl, by simpa [aLevel] using hx⟩
      · rintro (⟨_, rfl⟩ | ⟨h, _⟩)
        · exact ⟨1, le_rfl, le_rfl, by simp [aLevel]⟩
        · omega
    · constructor
      · rintro ⟨i, h1, h3, hx⟩
        obtain ⟨j, hj, rfl, _⟩ := (aLevel_sNode m i h1 h3 h2 (by omega) x).mp hx
        exact Or.inr ⟨h2, j, hj, sNode_exact m j h2 (by omega) hj⟩
      · rintro (⟨h, _⟩ | ⟨_, j, hj, rfl⟩)
        · omega
        · obtain ⟨i, h1, h3, hx⟩ := sNode_level m j h2 (by omega) hj
          rw [sNode_exact m j h2 (by omega) hj] at hx
          exact ⟨i, h1, h3, hx⟩

theorem zero_mem_level50 : (0 : ℝ) ∈ aLevel 50 := by
  rw [aLevel, if_neg (by omega), if_neg (by omega), List.mem_map]
  refine ⟨2 ^ 47, List.mem_range.mpr (by norm_num), ?_⟩
  have h1 : Real.pi * ((2 * 2 ^ 47 + 1 : ℕ) : ℝ) / 2 ^ (50 - 1) = Real.pi / 2 ^ 49 + Real.pi / 2 := by
    push_cast
    ring
  rw [sNode, h1, Real.cos_add_pi_div_two, flush_eq, if_pos]
  rw [neg_neg]
  have hp : (0 : ℝ) < Real.pi / 2 ^ 49 := by positivity
  have hs := Real.sin_lt hp
  have hpi := Real.pi_lt_four
  have hs0 : 0 < Real.sin (Real.pi / 2 ^ 49) := by
    apply Real.sin_pos_of_pos_of_lt_pi hp
    have := Real.pi_pos
    have : Real.pi / 2 ^ 49 < Real.pi / 1 := by
      apply div_lt_div_of_pos_left this (by norm_num) (by norm_num)
    simpa using this
  rw [abs_of_pos hs0]
  have : Real.pi / 2 ^ 49 < 4 / 2 ^ 49 := by
    apply div_lt_div_of_pos_right hpi (by positivity)
  norm_num at this ⊢
  linarith

/-- From level 50 on the threshold `1e-14` of `s_n` replaces nodes by zero, so that the levels 1 and 50
share a node. -/
theorem C61_levels_fails (n : ℕ) (hn : 50 ≤ n) :
    ∃ A1 A50 : List ℝ, dictGet (aChain n : Dict ℝ) (1 : ℕ) = .ok A1 ∧
      dictGet (aChain n : Dict ℝ) (50 : ℕ) = .ok A50 ∧ ∃ x, x ∈ A1 ∧ x ∈ A50 :=
  ⟨aLevel 1, aLevel 50, aChain_lookup n 1 le_rfl (by omega) (by omega),
    aChain_lookup n 50 (by omega) hn (by omega), 0, by simp [aLevel], zero_mem_level50⟩

/-! ### C62: the grid -/

theorem mem_of_row {rows : List (List ℝ)} {r : ℕ} (h : r < rows.length) : rows.getD r [] ∈ rows := by
  rw [List.getD_eq_getElem _ _ h]; exact List.getElem_mem h

theorem aLevel_bound (i : ℕ) (x : ℝ) (h : x ∈ aLevel i) : -1 ≤ x ∧ x ≤ 1 := by
  have hf : ∀ y : ℝ, -1 ≤ y ∧ y ≤ 1 → -1 ≤ flush y ∧ flush y ≤ 1 := by
    intro y hy
    rw [flush_eq]
    split
    · norm_num
    · exact hy
  unfold aLevel at h
  split at h
  · rw [List.mem_singleton] at h; subst h; norm_num
  · split at h
    · simp only [List.mem_cons, List.not_mem_nil, or_false] at h
      rcases h with rfl | rfl <;> norm_num
    · rw [List.mem_map] at h
      obtain ⟨k, _, rfl⟩ := h
      apply hf
      constructor
      · have := Real.cos_le_one (Real.pi * ((2 * k + 1 : ℕ) : ℝ) / 2 ^ (i - 1)); linarith
      · have := Real.neg_one_le_cos (Real.pi * ((2 * k + 1 : ℕ) : ℝ) / 2 ^ (i - 1)); linarith

section
variable (la : LinAlg ℝ) (hla : LinAlgOK la) (d : ℕ) (mu : Mu) (lb ub : Bound ℝ) (sg : Grid ℝ)
  (h : Grid.new la d mu lb ub = .ok sg)
include hla h

/-- **C62.** The grid lies in the domain (any `mu`). -/
theorem C62_inside (hb : ∀ i < d, sg.lb.getD i 0 ≤ sg.ub.getD i 0) :
    ∃ N, sg.grid.shape = [N, d] ∧ ∀ r < N, ∀ i < d,
      sg.lb.getD i 0 ≤ sg.grid.get [r, i] ∧ sg.grid.get [r, i] ≤ sg.ub.getD i 0 := by
  obtain ⟨M, hg, hd, hmu', _⟩ := new_gridOK la hla d mu lb ub sg h
  have hd' : sg.d = d := by omega
  refine ⟨(pRows sg.inds).length, by rw [hg.gridArr.1, hd'], fun r hr i hi => ?_⟩
  rw [hg.gridArr.2]
  have hmem := mem_of_row (rows := gridRows sg.inds) (r := r) (by rw [hg.inds.length_eq]; exact hr)
  have hlen := gridRows_length_row hg.inds hmem
  obtain ⟨el, hel, hf⟩ := (mem_gridRows _).mp hmem
  have hx : -1 ≤ ((gridRows sg.inds).getD r []).getD i 0 ∧ ((gridRows sg.inds).getD r []).getD i 0 ≤ 1 := by
    rw [List.getD_eq_getElem _ _ (by omega)]
    rw [List.forall₂_iff_get] at hf
    have := hf.2 i (by omega) (by rw [← hf.1]; omega)
    exact aLevel_bound _ _ this
  have hbi := hb i hi
  have hr0 : 0 ≤ radius (sg.lb.getD i 0) (sg.ub.getD i 0) := by
    rw [radius]; push_cast; linarith
  have hc1 : center (sg.lb.getD i 0) (sg.ub.getD i 0) - radius (sg.lb.getD i 0) (sg.ub.getD i 0) = sg.lb.getD i 0 := by
    rw [radius, center]; push_cast; ring
  have hc2 : center (sg.lb.getD i 0) (sg.ub.getD i 0) + radius (sg.lb.getD i 0) (sg.ub.getD i 0) = sg.ub.getD i 0 := by
    rw [radius, center]; push_cast; ring
  constructor
  · nlinarith [mul_le_mul_of_nonneg_right hx.1 hr0]
  · nlinarith [mul_le_mul_of_nonneg_right hx.2 hr0]

/-- **C62**, for `mu` up to 48: the rows of the grid are pairwise distinct.

Missing: larger `mu`, where the claim is false, see `C62_distinct_fails`. -/
theorem C62_distinct_partial (hmu : MuLe 48 mu) (hb : ∀ i < d, sg.lb.getD i 0 ≠ sg.ub.getD i 0) :
    ∃ N, sg.grid.shape = [N, d] ∧ ∀ r < N, ∀ r' < N,
      (∀ i < d, sg.grid.get [r, i] = sg.grid.get [r', i]) → r = r' := by
  obtain ⟨M, hg, hd, hmu', hM⟩ := new_gridOK la hla d mu lb ub sg h
  have hd' : sg.d = d := by omega
  have hM48 : M ≤ 48 := by have := (hM 48).mp hmu; omega
  refine ⟨(pRows sg.inds).length, by rw [hg.gridArr.1, hd'], fun r hr r' hr' he => ?_⟩
  have e : (gridRows sg.inds).getD r [] = (gridRows sg.inds).getD r' [] := by
    apply List.ext_getElem
    · rw [hg.row_length hr, hg.row_length hr']
    · intro i h1 h2
      have hi : i < d := by rw [hg.row_length hr, hd'] at h1; exact h1
      have := he i hi
      rw [hg.gridArr.2, hg.gridArr.2, List.getD_eq_getElem _ _ h1, List.getD_eq_getElem _ _ h2] at this
      have hr0 : radius (sg.lb.getD i 0) (sg.ub.getD i 0) ≠ 0 := by
        rw [radius]; push_cast
        exact div_ne_zero (sub_ne_zero.mpr (hb i hi).symm) two_ne_zero
      exact mul_right_cancel₀ hr0 (add_right_cancel this)
  rw [← hg.inds.length_eq] at hr hr'
  rw [List.getD_eq_getElem _ _ hr, List.getD_eq_getElem _ _ hr'] at e
  exact (List.Nodup.getElem_inj_iff (hg.inds.gridRows_nodup hM48)).mp e

end

theorem admissible_mono (d : ℕ) (mu mu' : Mu) (hv : ValidMu d mu') (hd : 2 ≤ d) (hb : MuBelow mu mu') (el : List ℤ)
    (hel : Admissible d mu el) : Admissible d mu' el := by
  match mu, mu', hb with
  | .iso m, .iso m', hb =>
    obtain ⟨h1, h2, h3⟩ := hel
    have : m ≤ m' := hb
    exact ⟨h1, h2, by omega⟩
  | .aniso ms, .iso m', hb =>
    obtain ⟨h1, h2, ⟨m, hm, h3⟩, _⟩ := hel
    have := hb m hm
    exact ⟨h1, h2, by omega⟩
  | .iso m, .aniso ms', hb =>
    obtain ⟨h1, h2, h3⟩ := hel
    obtain ⟨hl, _⟩ := hv
    have hb' : ∀ m' ∈ ms', m ≤ m' := hb
    refine ⟨h1, h2, ?_, ?_⟩
    · cases ms' with
      | nil => simp at hl; omega
      | cons m' l => exact ⟨m', by simp, by have := hb' m' (by simp); omega⟩
    · rw [List.forall₂_iff_get]
      refine ⟨by omega, fun i hi1 hi2 => ?_⟩
      have ha := entry_le el h2 _ (List.get_mem el ⟨i, hi1⟩)
      have hc := hb' _ (List.get_mem ms' ⟨i, hi2⟩)
      omega
  | .aniso ms, .aniso ms', hb =>
    obtain ⟨h1, h2, ⟨m, hm, h3⟩, h4⟩ := hel
    have hb' : List.Forall₂ (· ≤ ·) ms ms' := hb
    refine ⟨h1, h2, ?_, ?_⟩
    · obtain ⟨i, e⟩ := List.mem_iff_get.mp hm
      rw [List.forall₂_iff_get] at hb'
      have := hb'.2 i i.2 (by rw [← hb'.1]; exact i.2)
      refine ⟨_, List.get_mem ms' ⟨i, by rw [← hb'.1]; exact i.2⟩, ?_⟩
      have e' : ms.get ⟨i, i.2⟩ = m := e
      omega
    · rw [List.forall₂_iff_get] at hb' h4 ⊢
      refine ⟨by omega, fun i hi1 hi2 => ?_⟩
      have := h4.2 i hi1 (by omega)
      have := hb'.2 i (by omega) hi2
      omega

theorem dup_rows {sg : Grid ℝ} {M : ℕ} (hg : GridOK sg M) (m : ℤ) (hmu : sg.mu = .iso m) (hm : 49 ≤ m) :
    ∃ r r' : Fin (pRows sg.inds).length, r ≠ r' ∧
      (gridRows sg.inds).getD r [] = (gridRows sg.inds).getD r' [] := by
  have hd2 := hg.inds.hd
  have hnot : ¬ (gridRows sg.inds).Nodup := by
    intro hn
    rw [gridRows, List.nodup_flatMap] at hn
    have ha : Admissible sg.d sg.mu (List.replicate sg.d 1) := admissible_ones _ _ hg.inds.hd hg.inds.valid
    have hb : Admissible sg.d sg.mu (50 :: List.replicate (sg.d - 1) 1) := by
      rw [hmu]
      refine ⟨by simp; omega, ?_, ?_⟩
      · intro e he
        rcases List.mem_cons.mp he with rfl | he
        · norm_num
        · rw [List.eq_of_mem_replicate he]
      · rw [List.sum_cons, sum_ones]; omega
    have hne : List.replicate sg.d (1 : ℤ) ≠ 50 :: List.replicate (sg.d - 1) 1 := by
      intro he
      rw [show sg.d = (sg.d - 1) + 1 by omega, List.replicate_succ] at he
      have := (List.cons.inj he).1
      omega
    haveI : Std.Symm (Function.onFun List.Disjoint fun el : List ℤ =>
        iterProduct (List.map (fun e => aLevel e.toNat) el)) := ⟨fun x y h => List.Disjoint.symm h⟩
    have hdis := hn.2.forall ((hg.inds.mem _).mpr ha) ((hg.inds.mem _).mpr hb) hne
    refine hdis (a := List.replicate sg.d 0) ?_ ?_
    · rw [mem_iterProduct, List.forall₂_map_right_iff, List.forall₂_iff_get]
      refine ⟨by simp, fun i h1 h2 => ?_⟩
      simp [aLevel]
    · rw [mem_iterProduct, List.forall₂_map_right_iff]
      rw [show sg.d = (sg.d - 1) + 1 by omega, List.replicate_succ, Nat.add_sub_cancel]
      refine .cons zero_mem_level50 ?_
      rw [List.forall₂_iff_get]
      refine ⟨by simp, fun i h1 h2 => ?_⟩
      simp [aLevel]
  rw [List.nodup_iff_injective_getElem, Function.not_injective_iff] at hnot
  obtain ⟨r, r', h1, h2⟩ := hnot
  have hl := hg.inds.length_eq
  refine ⟨⟨r, by omega⟩, ⟨r', by omega⟩, ?_, ?_⟩
  · intro e
    exact h2 (Fin.ext (by simpa using e))
  · rw [List.getD_eq_getElem _ _ r.2, List.getD_eq_getElem _ _ r'.2]
    exact h1

section
variable (la : LinAlg ℝ) (hla : LinAlgOK la) (d : ℕ) (mu : Mu) (lb ub : Bound ℝ) (sg : Grid ℝ)
  (h : Grid.new la d mu lb ub = .ok sg)
include hla h

/-- From `mu` = 49 on the grid has two equal rows. -/
theorem C62_distinct_fails (m : ℤ) (hmu : mu = .iso m) (hm : 49 ≤ m) :
    ∃ N, sg.grid.shape = [N, d] ∧ ∃ r r', r < N ∧ r' < N ∧ r ≠ r' ∧
      ∀ i, sg.grid.get [r, i] = sg.grid.get [r', i] := by
  obtain ⟨M, hg, hd, hmu', hM⟩ := new_gridOK la hla d mu lb ub sg h
  have hd' : sg.d = d := by omega
  obtain ⟨r, r', h1, h2⟩ := dup_rows hg m (hmu'.trans hmu) hm
  refine ⟨(pRows sg.inds).length, by rw [hg.gridArr.1, hd'], r, r', r.2, r'.2,
    fun e => h1 (Fin.ext e), fun i => ?_⟩
  rw [hg.gridArr.2, hg.gridArr.2, h2]

/-- **C62.** Increasing `mu` only adds grid points (any `mu`). -/
theorem C62_nested (mu' : Mu) (hb : MuBelow mu mu') (sg' : Grid ℝ)
    (h' : Grid.new la d mu' lb ub = .ok sg') :
    ∃ N N', sg.grid.shape = [N, d] ∧ sg'.grid.shape = [N', d] ∧
      ∀ r < N, ∃ r' < N', ∀ i < d, sg'.grid.get [r', i] = sg.grid.get [r, i] := by
  obtain ⟨M, hg, hd, hmu, _⟩ := new_gridOK la hla d mu lb ub sg h
  obtain ⟨M', hg', hd', hmu', _⟩ := new_gridOK la hla d mu' lb ub sg' h'
  obtain ⟨h2, _, hlb, hub⟩ := new_elim la hla d mu lb ub sg h
  obtain ⟨_, hv', hlb', hub'⟩ := new_elim la hla d mu' lb ub sg' h'
  have e1 : sg.d = d := by omega
  have e2 : sg'.d = d := by omega
  have elb : sg'.lb = sg.lb := by
    have h1 := (boundIs_iff _ _ _ _).mpr hlb
    have h2 := (boundIs_iff _ _ _ _).mpr hlb'
    rw [h1] at h2
    injection h2 with h2
    injection h2 with h2
    exact h2.symm
  have eub : sg'.ub = sg.ub := by
    have h1 := (boundIs_iff _ _ _ _).mpr hub
    have h2 := (boundIs_iff _ _ _ _).mpr hub'
    rw [h1] at h2
    injection h2 with h2
    injection h2 with h2
    exact h2.symm
  refine ⟨(pRows sg.inds).length, (pRows sg'.inds).length, by rw [hg.gridArr.1, e1],
    by rw [hg'.gridArr.1, e2], fun r hr => ?_⟩
  have hmem := mem_of_row (rows := gridRows sg.inds) (r := r) (by rw [hg.inds.length_eq]; exact hr)
  obtain ⟨el, hel, hf⟩ := (mem_gridRows _).mp hmem
  have hel' : el ∈ sg'.inds := by
    rw [hg'.inds.mem, e2, hmu']
    refine admissible_mono d mu mu' hv' (by omega) hb el ?_
    rw [← hmu, ← e1]
    exact (hg.inds.mem el).mp hel
  have hmem' : (gridRows sg.inds).getD r [] ∈ gridRows sg'.inds := (mem_gridRows _).mpr ⟨el, hel', hf⟩
  obtain ⟨r', hr', e⟩ := List.mem_iff_getElem.mp hmem'
  refine ⟨r', by rw [← hg'.inds.length_eq]; exact hr', fun i hi => ?_⟩
  rw [hg.gridArr.2, hg'.gridArr.2, elb, eub, List.getD_eq_getElem _ _ hr', e]

/-! ### C63: the basis matrix -/

/-- **C63**, for `mu` up to 48: the basis matrix is square and nonsingular, its entries are the
products of Chebyshev polynomials of all admissible degrees at the grid points, and fitting never
fails.

Missing: larger `mu`, where the claim is false, see `C63_nonsingular_fails`. -/
theorem C63_nonsingular_partial (hmu : MuLe 48 mu) :
    ∃ N, sg.grid.shape = [N, d] ∧ sg.B.shape = [N, N] ∧ (toMat sg.B N).det ≠ 0 ∧
      ∀ f : NdArray ℝ, ∀ t, t.length ≤ 1 → f.shape = N :: t → ∃ s, SInterp.new la sg f = .ok s := by
  obtain ⟨M, hg, hd, hmu', hM⟩ := new_gridOK la hla d mu lb ub sg h
  have hd' : sg.d = d := by omega
  have hM48 : M ≤ 48 := by have := (hM 48).mp hmu; omega
  refine ⟨(pRows sg.inds).length, by rw [hg.gridArr.1, hd'], hg.Bs, ?_, fun f t ht hf => ?_⟩
  · rw [hg.B]; exact hg.inds.basisMat_det hM48
  · obtain ⟨θ, e, _⟩ := theta_ok la hla hg hM48 f t ht hf
    exact ⟨_, by rw [SInterp.new, e, ok_bind]; rfl⟩

/-- The basis functions are the products of Chebyshev polynomials of admissible degrees, each
once; the basis matrix contains their values at the points of the grid on the cube (any `mu`). -/
theorem C63_entries : ∃ (N : ℕ) (ks : ℕ → List ℕ), sg.B.shape = [N, N] ∧ sg.cubeGrid.shape = [N, d] ∧
    (∀ j < N, Admissible d mu ((ks j).map fun k => (degLevel k : ℤ))) ∧
    (∀ e, Admissible d mu (e.map fun k => (degLevel k : ℤ)) → ∃! j, j < N ∧ ks j = e) ∧
    ∀ r < N, ∀ j < N, sg.B.get [r, j] = (List.zipWith (fun (k : ℕ) x => (Polynomial.Chebyshev.T ℝ k).eval x)
      (ks j) (rowOf sg.cubeGrid d r)).prod := by
  obtain ⟨M, hg, hd, hmu', hM⟩ := new_gridOK la hla d mu lb ub sg h
  have hd' : sg.d = d := by omega
  have hl : ∀ e : List ℕ, (e.map fun k => (degLevel k : ℤ)) = levs e := fun e => by
    simp only [levs, lev_degLevel]
  subst hd'
  subst hmu'
  refine ⟨(pRows sg.inds).length, ksOf sg.inds, hg.Bs, by rw [hg.cube, ofRows, hg.inds.length_eq], ?_, ?_, ?_⟩
  · intro j hj; rw [hl]; exact (hg.inds.ksOf_spec hj).2.2
  · intro e he
    rw [hl] at he
    obtain ⟨j, hj, ej⟩ := hg.inds.exists_ksOf e he
    exact ⟨j, ⟨hj, ej⟩, fun j' h' => hg.inds.ksOf_inj h'.1 hj (h'.2.trans ej.symm)⟩
  · intro r hr j hj
    have := congrFun (congrFun hg.B ⟨r, hr⟩) ⟨j, hj⟩
    rw [show sg.B.get [r, j] = toMat sg.B _ ⟨r, hr⟩ ⟨j, hj⟩ from rfl, this, basisMat, chebProd_zip]
    rw [hg.cube, rowOf_ofRows _ _ _ (hg.row_length hr)]
    rfl

/-- From `mu` = 49 on the basis matrix is singular. -/
theorem C63_nonsingular_fails (m : ℤ) (hmu : mu = .iso m) (hm : 49 ≤ m) :
    ∃ N, sg.B.shape = [N, N] ∧ (toMat sg.B N).det = 0 := by
  obtain ⟨M, hg, hd, hmu', hM⟩ := new_gridOK la hla d mu lb ub sg h
  obtain ⟨r, r', h1, h2⟩ := dup_rows hg m (hmu'.trans hmu) hm
  refine ⟨(pRows sg.inds).length, hg.Bs, ?_⟩
  rw [hg.B]
  exact Matrix.det_zero_of_row_eq h1 (by funext j; simp only [basisMat, h2])

end

end Interp.Props
