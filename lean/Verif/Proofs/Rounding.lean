import Verif.Spec.Rounding
import Verif.Proofs.LinearMulti
import Mathlib.Tactic.NormNum
import Mathlib.Tactic.GCongr

/-! Propagation of rounding errors through the evaluation of linear splines. -/

set_option linter.unusedSectionVars false
set_option linter.unusedSimpArgs false

namespace Interp.Codegen
open Interp.Ref Interp.Spec

/-- `y` approximates `x` with relative error `p`. -/
def Near (p x y : ℝ) : Prop := |y - x| ≤ p * |x|

theorem Near.mono {p q x y : ℝ} (h : Near p x y) (hpq : p ≤ q) : Near q x y :=
  le_trans h (by gcongr)

theorem Near.abs_le {p x y : ℝ} (h : Near p x y) : |y| ≤ (1 + p) * |x| := by
  have h1 : |y| ≤ |y - x| + |x| := by
    have := abs_add_le (y - x) x; simpa using this
  have h2 : |y - x| ≤ p * |x| := h
  linarith

theorem Near.le_abs {p x y : ℝ} (h : Near p x y) : (1 - p) * |x| ≤ |y| := by
  have h1 : |x| ≤ |y - x| + |y| := by
    have := abs_add_le (x - y) y
    rw [abs_sub_comm] at this
    simpa using this
  have h2 : |y - x| ≤ p * |x| := h
  linarith

theorem Near.refl (x : ℝ) : Near 0 x x := by simp [Near]

theorem Rounding.u_nonneg (R : Rounding) : 0 ≤ R.u := by
  have h := R.err 1
  rw [abs_one, mul_one] at h
  exact le_trans (abs_nonneg _) h

theorem Rounding.rnd_zero (R : Rounding) : R.rnd 0 = 0 := by
  have h := R.err 0
  simp only [sub_zero, abs_zero, mul_zero] at h
  exact abs_eq_zero.1 (le_antisymm h (abs_nonneg _))

theorem Near.rnd {R : Rounding} {p x y : ℝ} (h : Near p x y) :
    Near (p + R.u + p * R.u) x (R.rnd y) := by
  have h1 := R.err y
  have h2 := h.abs_le
  have h3 : |R.rnd y - x| ≤ |R.rnd y - y| + |y - x| := abs_sub_le _ _ _
  have h4 : |y - x| ≤ p * |x| := h
  have h5 := mul_le_mul_of_nonneg_left h2 (Rounding.u_nonneg R)
  unfold Near
  nlinarith

theorem Near.mul {p q x y x' y' : ℝ} (h : Near p x y) (h' : Near q x' y') :
    Near (p + q + p * q) (x * x') (y * y') := by
  have h1 : |y - x| ≤ p * |x| := h
  have h2 : |y' - x'| ≤ q * |x'| := h'
  have h3 := h.abs_le
  have e : y * y' - x * x' = (y - x) * x' + y * (y' - x') := by ring
  unfold Near
  rw [e]
  calc |(y - x) * x' + y * (y' - x')| ≤ |y - x| * |x'| + |y| * |y' - x'| := by
        rw [← abs_mul, ← abs_mul]; exact abs_add_le _ _
    _ ≤ p * |x| * |x'| + (1 + p) * |x| * (q * |x'|) := by
        have a1 : 0 ≤ |x'| := abs_nonneg _
        have a2 : 0 ≤ |y| := abs_nonneg _
        have a3 : 0 ≤ q * |x'| := le_trans (abs_nonneg _) h2
        have a4 : 0 ≤ (1 + p) * |x| := a2.trans h3
        gcongr
    _ = _ := by rw [abs_mul]; ring

theorem Near.div {p q x y x' y' : ℝ} (h : Near p x y) (h' : Near q x' y') (hp : 0 ≤ p)
    (hq0 : 0 ≤ q) (hq : q < 1) : Near ((p + q) / (1 - q)) (x / x') (y / y') := by
  by_cases hx' : x' = 0
  · subst hx'
    have : y' = 0 := by
      have h2 : |y' - 0| ≤ q * |0| := h'
      simp only [sub_zero, abs_zero, mul_zero] at h2
      exact abs_eq_zero.1 (le_antisymm h2 (abs_nonneg _))
    subst this
    simp [Near]
  have hpos : 0 < |x'| := abs_pos.2 hx'
  have hq1 : 0 < 1 - q := by linarith
  have h3 := h'.le_abs
  have hy' : 0 < |y'| := lt_of_lt_of_le (by positivity) h3
  have hy0 : y' ≠ 0 := abs_pos.1 hy'
  have h1 : |y - x| ≤ p * |x| := h
  have h2 : |y' - x'| ≤ q * |x'| := h'
  have e : y / y' - x / x' = ((y - x) * x' - x * (y' - x')) / (y' * x') := by
    field_simp; ring
  have hn : |(y - x) * x' - x * (y' - x')| ≤ (p + q) * |x| * |x'| := by
    calc _ ≤ |y - x| * |x'| + |x| * |y' - x'| := by
          rw [← abs_mul, ← abs_mul]; exact abs_sub _ _
      _ ≤ p * |x| * |x'| + |x| * (q * |x'|) := by gcongr
      _ = _ := by ring
  unfold Near
  rw [e, abs_div, abs_mul, abs_div]
  calc _ ≤ (p + q) * |x| * |x'| / (|y'| * |x'|) := by gcongr
    _ = (p + q) * |x| / |y'| := by field_simp
    _ ≤ (p + q) * |x| / ((1 - q) * |x'|) := by gcongr
    _ = _ := by field_simp

/-! ### One axis -/

variable {R : Rounding}

theorem bsearch_val (gc : List (Fl R)) (v : Fl R) : ∀ lo hi,
    bsearch gc v lo hi = bsearch (gc.map Fl.val) v.val lo hi := by
  intro lo hi
  induction lo, hi using bsearch.induct gc v with
  | case1 lo hi h mid y hy hlt ih =>
    rw [bsearch, dif_pos h, bsearch, dif_pos h]
    have h1 : gc[(lo + hi) / 2]? = some y := hy
    have h2 : (gc.map Fl.val)[(lo + hi) / 2]? = some y.val := by simp [h1]
    have h3 : y.val < v.val := hlt
    simp only [h1, h2, hlt, h3, if_true]
    exact ih
  | case2 lo hi h mid y hy hlt ih =>
    rw [bsearch, dif_pos h, bsearch, dif_pos h]
    have h1 : gc[(lo + hi) / 2]? = some y := hy
    have h2 : (gc.map Fl.val)[(lo + hi) / 2]? = some y.val := by simp [h1]
    have h3 : ¬ y.val < v.val := hlt
    simp only [h1, h2, hlt, h3, if_false]
    exact ih
  | case3 lo hi h mid hy ih =>
    rw [bsearch, dif_pos h, bsearch, dif_pos h]
    have h1 : gc[(lo + hi) / 2]? = none := hy
    have h2 : (gc.map Fl.val)[(lo + hi) / 2]? = none := by simpa using h1
    simp only [h1, h2]
    exact ih
  | case4 lo hi h =>
    rw [bsearch, dif_neg h, bsearch, dif_neg h]

theorem cell_array_val (gc : List (Fl R)) (x : Fl R) :
    cell (.array gc) x = cell (.array (gc.map Fl.val)) x.val := by
  simp only [cell, searchsorted, bsearch_val, List.length_map]

theorem getD_val (gc : List (Fl R)) (i : ℕ) : (gc.getD i 0).val = (gc.map Fl.val).getD i 0 := by
  simp only [List.getD_eq_getElem?_getD, List.getElem?_map]
  cases gc[i]? <;> rfl

/-- Linear interpolation is Lipschitz if its slopes are bounded. -/
theorem seg_lipschitz {g : GridDim ℝ} (h : ValidAxis g) (c : ℕ → ℝ) (S : ℝ)
    (hS : ∀ j, j + 1 < nNodes g → |c (j + 1) - c j| ≤ S * (node g (j + 1) - node g j)) :
    ∀ (k : ℕ) (x y : ℝ) (j : ℕ), x ≤ y → InCell g x j → InCell g y (j + k) →
      |lin1 g y c - lin1 g x c| ≤ S * (y - x) := by
  intro k
  induction k with
  | zero =>
    intro x y j hxy hx hy
    rw [lin1_eq h x c hx, lin1_eq h y c hy, segVal, segVal]
    have hw := width_pos h hx.1
    have e : c (j + 0) + (y - node g (j + 0)) / (node g (j + 0 + 1) - node g (j + 0)) *
        (c (j + 0 + 1) - c (j + 0)) - (c j + (x - node g j) / (node g (j + 1) - node g j) *
        (c (j + 1) - c j)) = (y - x) / (node g (j + 1) - node g j) * (c (j + 1) - c j) := by
      simp only [Nat.add_zero]
      field_simp
      ring
    rw [e, abs_mul, abs_div, abs_of_nonneg (sub_nonneg.2 hxy), abs_of_pos hw]
    calc _ ≤ (y - x) / (node g (j + 1) - node g j) * (S * (node g (j + 1) - node g j)) := by
          have := sub_nonneg.2 hxy
          have := hS j hx.1
          gcongr
      _ = _ := by field_simp
  | succ k ih =>
    intro x y j hxy hx hy
    have h1 : j + 1 + 1 < nNodes g := by have := hy.1; omega
    have hxz : x ≤ node g (j + 1) := by
      rcases hx.2.2 with h' | h'
      · omega
      · exact h'
    have hzy : node g (j + 1) ≤ y := by
      rcases hy.2.1 with h' | h'
      · omega
      · exact (node_le h (by omega) (by have := hy.1; omega)).trans h'
    have hz1 : InCell g (node g (j + 1)) j :=
      ⟨hx.1, Or.inr (node_le h (by omega) hx.1), Or.inr le_rfl⟩
    have hz2 : InCell g (node g (j + 1)) (j + 1) :=
      ⟨h1, Or.inr le_rfl, Or.inr (node_le h (by omega) h1)⟩
    have a1 : |lin1 g (node g (j + 1)) c - lin1 g x c| ≤ S * (node g (j + 1) - x) := by
      rw [lin1_eq h x c hx, lin1_eq h _ c hz1, segVal, segVal]
      have hw := width_pos h hx.1
      have e : c j + (node g (j + 1) - node g j) / (node g (j + 1) - node g j) *
          (c (j + 1) - c j) - (c j + (x - node g j) / (node g (j + 1) - node g j) *
          (c (j + 1) - c j)) = (node g (j + 1) - x) / (node g (j + 1) - node g j) *
          (c (j + 1) - c j) := by
        field_simp
        ring
      rw [e, abs_mul, abs_div, abs_of_nonneg (sub_nonneg.2 hxz), abs_of_pos hw]
      calc _ ≤ (node g (j + 1) - x) / (node g (j + 1) - node g j) *
            (S * (node g (j + 1) - node g j)) := by
            have := sub_nonneg.2 hxz
            have := hS j hx.1
            gcongr
        _ = _ := by field_simp
    have a2 := ih (node g (j + 1)) y (j + 1) hzy hz2 (by rwa [show j + 1 + k = j + (k + 1) by ring])
    have := abs_sub_le (lin1 g y c) (lin1 g (node g (j + 1)) c) (lin1 g x c)
    linarith

theorem inCell_mono {g : GridDim ℝ} (h : ValidAxis g) {x y : ℝ} {i j : ℕ} (hxy : x < y)
    (hx : InCell g x i) (hy : InCell g y j) : i ≤ j := by
  by_contra hcon
  have h1 : node g i ≤ x := by
    rcases hx.2.1 with h' | h'
    · omega
    · exact h'
  have h2 : y ≤ node g (j + 1) := by
    rcases hy.2.2 with h' | h'
    · have := hx.1; omega
    · exact h'
  have h3 : node g (j + 1) ≤ node g i := node_le h (by omega) (by have := hx.1; omega)
  linarith

theorem lin1_lipschitz {g : GridDim ℝ} (h : ValidAxis g) (c : ℕ → ℝ) (S : ℝ)
    (hS : ∀ j, j + 1 < nNodes g → |c (j + 1) - c j| ≤ S * (node g (j + 1) - node g j)) (x y : ℝ) :
    |lin1 g y c - lin1 g x c| ≤ S * |y - x| := by
  wlog hxy : x ≤ y generalizing x y
  · have := this y x (le_of_lt (not_le.1 hxy))
    rwa [abs_sub_comm, abs_sub_comm x y] at this
  rcases eq_or_lt_of_le hxy with rfl | hlt
  · simp
  have hx := inCell_cell h x
  have hy := inCell_cell h y
  obtain ⟨k, hk⟩ := Nat.exists_eq_add_of_le (inCell_mono h hlt hx hy)
  rw [hk] at hy
  rw [abs_of_nonneg (sub_nonneg.2 hxy)]
  exact seg_lipschitz h c S hS k x y _ hxy hx hy

/-- What the rounded evaluation does along one uniform axis: the cell is that of a point `y` close to
`x`, the weight that of `y` rounded once. -/
theorem uniform_near (a b : Fl R) (n : ℤ) (x : Fl R)
    (hg : ValidAxis (exactAxis (.uniform a b n))) (hs : 13 * (n : ℝ) * R.u ≤ 1 / 4)
    (h1 : first (exactAxis (.uniform a b n)) ≤ x.val)
    (h2 : x.val ≤ last (exactAxis (.uniform a b n))) :
    ∃ y : ℝ, cell (.uniform a b n) x = cell (.uniform a.val b.val n) y ∧
      Near R.u (lam (.uniform a.val b.val n) y) (lam (.uniform a b n) x).val ∧
      0 ≤ lam (.uniform a.val b.val n) y ∧ lam (.uniform a.val b.val n) y ≤ 9 / 8 ∧
      |y - x.val| ≤ (b.val - a.val) / ((n : ℝ) - 1) * (6 * R.u * ((n : ℝ) - 1)) := by
  have hu0 := Rounding.u_nonneg R
  obtain ⟨hn, hb⟩ := uniform_pos (show ValidAxis (.uniform a.val b.val n) from hg)
  have hn2 : (2 : ℝ) ≤ n := by linarith [show (2 : ℝ) ≤ n from by exact_mod_cast hg.2]
  have hu1 : R.u ≤ 1 / 104 := by nlinarith
  set w : ℝ := (x.val - a.val) * (((n : ℝ) - 1) / (b.val - a.val)) with hw
  set û : ℝ := R.rnd (R.rnd (x.val - a.val) * R.rnd (R.rnd ((n : ℝ) - 1) / R.rnd (b.val - a.val)))
    with hû
  have n1 : ∀ z : ℝ, Near R.u z (R.rnd z) := fun z => R.err z
  have nu : Near (6 * R.u) w û := by
    have n2 := (((n1 (x.val - a.val)).mul (((n1 ((n : ℝ) - 1)).div (n1 (b.val - a.val)) hu0 hu0
      (by linarith)).rnd (R := R)))).rnd (R := R)
    refine n2.mono ?_
    have hd : (R.u + R.u) / (1 - R.u) ≤ 2.02 * R.u := by
      rw [div_le_iff₀ (by linarith)]
      nlinarith
    have hd0 : 0 ≤ (R.u + R.u) / (1 - R.u) := div_nonneg (by linarith) (by linarith)
    set D := (R.u + R.u) / (1 - R.u)
    have hA : D + R.u + D * R.u ≤ 3.05 * R.u := by nlinarith
    have hA0 : 0 ≤ D + R.u + D * R.u := by positivity
    set A := D + R.u + D * R.u
    have hB : R.u + A + R.u * A ≤ 4.1 * R.u := by nlinarith
    nlinarith
  have hxa : 0 ≤ x.val - a.val := by
    have : first (exactAxis (.uniform a b n)) = a.val := by simp [exactAxis, first, node]
    rw [this] at h1; linarith
  have hbx : x.val - a.val ≤ b.val - a.val := by
    rw [← hi_eq hg] at h2
    have : hi (exactAxis (.uniform a b n)) = b.val := rfl
    linarith
  have hw0 : 0 ≤ w := mul_nonneg hxa (div_nonneg hn.le hb.le)
  have hw1 : w ≤ (n : ℝ) - 1 := by
    rw [hw]
    calc _ ≤ (b.val - a.val) * (((n : ℝ) - 1) / (b.val - a.val)) := by
          have := div_nonneg hn.le hb.le
          gcongr
      _ = _ := by field_simp
  have hd : |û - w| ≤ 6 * R.u * w := by
    have : |û - w| ≤ 6 * R.u * |w| := nu
    rwa [abs_of_nonneg hw0] at this
  have hû0 : 0 ≤ û := by
    have := (abs_le.1 hd).1
    nlinarith
  have hû1 : û ≤ (n : ℝ) - 1 + 1 / 8 := by
    have := (abs_le.1 hd).2
    nlinarith
  set y : ℝ := a.val + û * ((b.val - a.val) / ((n : ℝ) - 1)) with hy
  have hyu : (y - a.val) * (((n : ℝ) - 1) / (b.val - a.val)) = û := by
    rw [hy]; field_simp; ring
  have hcell : cell (.uniform a b n) x = cell (.uniform a.val b.val n) y := by
    simp only [cell, hyu]
    rfl
  have hlam : lam (.uniform a.val b.val n) y = û - ((cell (.uniform a.val b.val n) y : ℤ) : ℝ) := by
    simp only [lam, hyu]
  have hci : cell (.uniform a.val b.val n) y = max (min ⌊û⌋ (n - 2)) 0 := by
    rw [← pyMinZ_eq, ← pyMaxZ_eq]
    simp only [cell, hyu]
    rfl
  have hf0 : 0 ≤ ⌊û⌋ := Int.floor_nonneg.2 hû0
  have hmu : 0 ≤ lam (.uniform a.val b.val n) y ∧ lam (.uniform a.val b.val n) y ≤ 9 / 8 := by
    rw [hlam, hci]
    have hn2' : 2 ≤ n := hg.2
    rcases le_total ⌊û⌋ (n - 2) with hle | hle
    · rw [min_eq_left hle, max_eq_left hf0]
      have := Int.floor_le û
      have := Int.lt_floor_add_one û
      constructor <;> linarith
    · rw [min_eq_right hle, max_eq_left (by omega)]
      have h3 : ((n - 2 : ℤ) : ℝ) ≤ ((⌊û⌋ : ℤ) : ℝ) := by exact_mod_cast hle
      have := Int.floor_le û
      push_cast at h3 ⊢
      constructor <;> linarith
  refine ⟨y, hcell, ?_, hmu.1, hmu.2, ?_⟩
  · have e : (lam (.uniform a b n) x).val = R.rnd (û - ((cell (.uniform a.val b.val n) y : ℤ) : ℝ)) := by
      rw [← hcell]
      rfl
    rw [e, hlam]
    exact n1 _
  · set h : ℝ := (b.val - a.val) / ((n : ℝ) - 1) with hh
    have hh0 : 0 < h := div_pos hb hn
    have hyx : |y - x.val| = h * |û - w| := by
      have : y - x.val = h * (û - w) := by
        have := uniform_step (show ValidAxis (.uniform a.val b.val n) from hg) x.val
        rw [← hw, ← hh] at this
        rw [hy]
        linarith
      rw [this, abs_mul, abs_of_pos hh0]
    rw [hyx]
    gcongr
    exact hd.trans (by gcongr)

/-- What the rounded evaluation does along one axis: the cell and the weight are, up to a small
relative error, those of a point `y` close to `x`. -/
theorem axis_near (g : GridDim (Fl R)) (x : Fl R) (hg : ValidAxis (exactAxis g))
    (hsmall : axisErr R (exactAxis g) ≤ 1 / 4) (h1 : first (exactAxis g) ≤ x.val)
    (h2 : x.val ≤ last (exactAxis g)) :
    ∃ y : ℝ, cell g x = cell (exactAxis g) y ∧
      Near (4 * R.u) (lam (exactAxis g) y) (lam g x).val ∧
      0 ≤ lam (exactAxis g) y ∧ lam (exactAxis g) y ≤ 9 / 8 ∧
      ∀ (c : ℕ → ℝ) (M : ℝ), (∀ j < nNodes (exactAxis g), |c j| ≤ M) →
        |lin1 (exactAxis g) y c - lin1 (exactAxis g) x.val c| ≤ (axisErr R (exactAxis g) - 13 * R.u) * M := by
  have hu0 := Rounding.u_nonneg R
  cases g with
  | array gc =>
    have hs : 13 * R.u ≤ 1 / 4 := hsmall
    refine ⟨x.val, cell_array_val gc x, ?_, (lam_mem hg h1 h2).1,
      (lam_mem hg h1 h2).2.trans (by norm_num), fun c M _ => by simp [axisErr, exactAxis]⟩
    have e : (lam (.array gc) x).val = R.rnd (R.rnd (x.val - (gc.map Fl.val).getD
        (cell (.array (gc.map Fl.val)) x.val).toNat 0) / R.rnd ((gc.map Fl.val).getD
        ((cell (.array (gc.map Fl.val)) x.val).toNat + 1) 0 - (gc.map Fl.val).getD
        (cell (.array (gc.map Fl.val)) x.val).toNat 0)) := by
      simp only [lam, delta, Fl.div_val, Fl.sub_val, getD_val, cell_array_val]
    rw [e]
    have n1 : ∀ z : ℝ, Near R.u z (R.rnd z) := fun z => R.err z
    have n2 := ((n1 (x.val - (gc.map Fl.val).getD
        (cell (.array (gc.map Fl.val)) x.val).toNat 0)).div (n1 ((gc.map Fl.val).getD
        ((cell (.array (gc.map Fl.val)) x.val).toNat + 1) 0 - (gc.map Fl.val).getD
        (cell (.array (gc.map Fl.val)) x.val).toNat 0)) hu0 hu0 (by linarith)).rnd (R := R)
    refine n2.mono ?_
    have hu1 : R.u ≤ 1 / 52 := by linarith
    have hd : (R.u + R.u) / (1 - R.u) ≤ 2.05 * R.u := by
      rw [div_le_iff₀ (by linarith)]
      nlinarith
    nlinarith
  | uniform a b n =>
    have hs : 13 * (n : ℝ) * R.u ≤ 1 / 4 := hsmall
    obtain ⟨hn, hb⟩ := uniform_pos (show ValidAxis (.uniform a.val b.val n) from hg)
    obtain ⟨y, hcell, hnear, hm0, hm1, hyx⟩ := uniform_near a b n x hg hs h1 h2
    refine ⟨y, hcell, hnear.mono (by linarith), hm0, hm1, fun c M hc => ?_⟩
    set h : ℝ := (b.val - a.val) / ((n : ℝ) - 1) with hh
    have hh0 : 0 < h := div_pos hb hn
    have hM : 0 ≤ M := le_trans (abs_nonneg _)
      (hc 0 (by have := ValidAxis.two_le hg; omega))
    have hstep : ∀ j : ℕ, node (GridDim.uniform a.val b.val n) (j + 1) - node (.uniform a.val b.val n) j = h := by
      intro j
      simp only [node]
      push_cast
      rw [← hh]; ring
    have hl := lin1_lipschitz (show ValidAxis (.uniform a.val b.val n) from hg) c (2 * M / h) (by
      intro j hj
      rw [hstep j]
      have e1 := abs_sub (c (j + 1)) (c j)
      have e2 := hc (j + 1) hj
      have e3 := hc j (by show j < nNodes (.uniform a.val b.val n); omega)
      have : 2 * M / h * h = 2 * M := by field_simp
      linarith) x.val y
    refine hl.trans ?_
    have e4 : 2 * M / h * (h * (6 * R.u * ((n : ℝ) - 1))) = 2 * M * (6 * R.u * ((n : ℝ) - 1)) := by
      field_simp
    show 2 * M / h * |y - x.val| ≤ (13 * (n : ℝ) * R.u - 13 * R.u) * M
    calc 2 * M / h * |y - x.val| ≤ 2 * M / h * (h * (6 * R.u * ((n : ℝ) - 1))) := by gcongr
      _ = 2 * M * (6 * R.u * ((n : ℝ) - 1)) := e4
      _ ≤ _ := by nlinarith [mul_nonneg hu0 hM, mul_nonneg (mul_nonneg hu0 hM) hn.le]

theorem combine_near (R : Rounding) (hu : R.u ≤ 1 / 52) (μ lm c0 c1 M : ℝ)
    (hl : Near (4 * R.u) μ lm) (h0 : 0 ≤ μ) (h1 : μ ≤ 9 / 8) (hc0 : |c0| ≤ M) (hc1 : |c1| ≤ M) :
    |R.rnd (R.rnd (R.rnd (1 - lm) * c0) + R.rnd (lm * c1)) - ((1 - μ) * c0 + μ * c1)|
      ≤ 13 * R.u * M := by
  have hu0 := Rounding.u_nonneg R
  have hM : 0 ≤ M := (abs_nonneg _).trans hc0
  have a0 : |lm - μ| ≤ 4 * R.u * μ := by
    have : |lm - μ| ≤ 4 * R.u * |μ| := hl
    rwa [abs_of_nonneg h0] at this
  have a1 : |lm - μ| ≤ 4.5 * R.u := by nlinarith
  have a2 : |1 - lm| ≤ |1 - μ| + |lm - μ| := by
    have := abs_sub_le 1 μ lm
    rwa [abs_sub_comm μ lm] at this
  have a3 : |1 - μ| ≤ 1 := by rw [abs_le]; constructor <;> linarith
  have a4 : |1 - μ| + μ ≤ 1.25 := by
    rcases le_total μ 1 with h | h
    · rw [abs_of_nonneg (by linarith)]; linarith
    · rw [abs_of_nonpos (by linarith)]; linarith
  -- the weight 1 - λ
  set w := R.rnd (1 - lm) with hw
  have b1 : |w - (1 - μ)| ≤ R.u * |1 - μ| + 4.6 * R.u := by
    have e1 := R.err (1 - lm)
    have e2 := abs_sub_le w (1 - lm) (1 - μ)
    have e3 : |1 - lm - (1 - μ)| = |lm - μ| := by
      rw [show 1 - lm - (1 - μ) = -(lm - μ) by ring, abs_neg]
    have e4 := mul_le_mul_of_nonneg_left a2 hu0
    have e5 : R.u * |lm - μ| ≤ 0.1 * R.u := by nlinarith
    nlinarith
  have b2 : |w| ≤ |1 - μ| + (R.u * |1 - μ| + 4.6 * R.u) := by
    have := abs_sub_abs_le_abs_sub w (1 - μ)
    linarith
  -- the products
  set A := R.rnd (w * c0) with hA
  set B := R.rnd (lm * c1) with hB
  have c1' : |A - (1 - μ) * c0| ≤ (2.2 * R.u * |1 - μ| + 4.8 * R.u) * M := by
    have e1 := R.err (w * c0)
    have e2 := abs_sub_le A (w * c0) ((1 - μ) * c0)
    have e3 : |w * c0 - (1 - μ) * c0| ≤ (R.u * |1 - μ| + 4.6 * R.u) * M := by
      rw [← sub_mul, abs_mul]
      have := abs_nonneg (1 - μ)
      gcongr
    have e4 : R.u * |w * c0| ≤ R.u * ((|1 - μ| + (R.u * |1 - μ| + 4.6 * R.u)) * M) := by
      rw [abs_mul]
      have := abs_nonneg (1 - μ)
      gcongr
    have e5 : R.u * (R.u * |1 - μ| + 4.6 * R.u) ≤ 0.2 * R.u * |1 - μ| + 0.1 * R.u := by
      have := abs_nonneg (1 - μ)
      nlinarith [mul_nonneg hu0 (abs_nonneg (1 - μ))]
    have e6 := mul_le_mul_of_nonneg_right e5 hM
    nlinarith
  have c2' : |B - μ * c1| ≤ (1.1 * R.u * μ + 4.5 * R.u) * M := by
    have e1 := R.err (lm * c1)
    have e2 := abs_sub_le B (lm * c1) (μ * c1)
    have e3 : |lm * c1 - μ * c1| ≤ 4.5 * R.u * M := by
      rw [← sub_mul, abs_mul]
      gcongr
    have e0 : |lm| ≤ (1 + 4 * R.u) * μ := by
      have := hl.abs_le
      rwa [abs_of_nonneg h0] at this
    have e4 : R.u * |lm * c1| ≤ R.u * ((1 + 4 * R.u) * μ * M) := by
      rw [abs_mul]
      gcongr
    have e5 : R.u * ((1 + 4 * R.u) * μ) ≤ 1.1 * R.u * μ := by
      have : 0 ≤ R.u * μ := mul_nonneg hu0 h0
      nlinarith
    have e6 := mul_le_mul_of_nonneg_right e5 hM
    nlinarith
  -- the sum
  have d1 := R.err (A + B)
  have d2 : |A + B - ((1 - μ) * c0 + μ * c1)| ≤ |A - (1 - μ) * c0| + |B - μ * c1| := by
    rw [show A + B - ((1 - μ) * c0 + μ * c1) = (A - (1 - μ) * c0) + (B - μ * c1) by ring]
    exact abs_add_le _ _
  have d3 : |(1 - μ) * c0 + μ * c1| ≤ 1.25 * M := by
    calc _ ≤ |1 - μ| * |c0| + μ * |c1| := by
          have := abs_add_le ((1 - μ) * c0) (μ * c1)
          rwa [abs_mul, abs_mul, abs_of_nonneg h0] at this
      _ ≤ |1 - μ| * M + μ * M := by gcongr
      _ = (|1 - μ| + μ) * M := by ring
      _ ≤ _ := by gcongr
  set X := (1 - μ) * c0 + μ * c1 with hX
  have d4 : |A + B| ≤ |A + B - X| + |X| := by
    have := abs_add_le (A + B - X) X
    simpa using this
  have d5 := abs_sub_le (R.rnd (A + B)) (A + B) X
  have d6 : |A + B - X| ≤ 11.5 * R.u * M := by
    have f0 : 2.2 * |1 - μ| + 1.1 * μ ≤ 2.2 := by
      rcases le_total μ 1 with h | h
      · rw [abs_of_nonneg (by linarith)]; linarith
      · rw [abs_of_nonpos (by linarith)]; linarith
    have f1 : 2.2 * R.u * |1 - μ| + 4.8 * R.u + (1.1 * R.u * μ + 4.5 * R.u) ≤ 11.5 * R.u := by
      nlinarith
    have f2 := mul_le_mul_of_nonneg_right f1 hM
    linarith
  have d7 : R.u * |A + B| ≤ R.u * (11.5 * R.u * M + 1.25 * M) := by
    gcongr
    linarith
  have d8 : R.u * (11.5 * R.u * M) ≤ 0.25 * R.u * M := by
    have : 0 ≤ R.u * M := mul_nonneg hu0 hM
    nlinarith
  linarith

/-! ### Several axes -/

theorem plain_abs_le (G : List (GridDim ℝ)) (x : List ℝ) (c : List ℕ → ℝ) (M : ℝ)
    (hG : ∀ g ∈ G, ValidAxis g) (hx : InBox G x)
    (hc : ∀ idx, InShape (gridShape G) idx → |c idx| ≤ M) : |plain 1 G x c| ≤ M := by
  obtain ⟨J, hJ⟩ := inClosedCell_exists G x hG hx
  have hl := inClosedCell_length G x J hJ
  have hb := fun idx hidx => abs_le.1 (hc idx (corner_inShape G x J idx hJ hidx))
  rw [abs_le]
  constructor
  · rw [← plain_const G x (-M) hl hG]
    exact plain_mono G x J _ _ hG hJ fun idx hidx => (hb idx hidx).1
  · rw [← plain_const G x M hl hG]
    exact plain_mono G x J _ _ hG hJ fun idx hidx => (hb idx hidx).2

theorem lin1_near {g : GridDim ℝ} (h : ValidAxis g) {x : ℝ} (h1 : first g ≤ x) (h2 : x ≤ last g)
    {c c' : ℕ → ℝ} {E : ℝ} (hc : ∀ j < nNodes g, |c j - c' j| ≤ E) :
    |lin1 g x c - lin1 g x c'| ≤ E := by
  obtain ⟨l0, l1⟩ := lam_mem h h1 h2
  have hj := (inCell_cell h x).1
  have e1 := hc _ (show (cell g x).toNat < nNodes g by omega)
  have e2 := hc _ hj
  have : lin1 g x c - lin1 g x c' = (1 - lam g x) * (c (cell g x).toNat - c' (cell g x).toNat)
      + lam g x * (c ((cell g x).toNat + 1) - c' ((cell g x).toNat + 1)) := by
    simp only [lin1]; ring
  rw [this]
  calc _ ≤ (1 - lam g x) * |c (cell g x).toNat - c' (cell g x).toNat|
        + lam g x * |c ((cell g x).toNat + 1) - c' ((cell g x).toNat + 1)| := by
        refine (abs_add_le _ _).trans (le_of_eq ?_)
        rw [abs_mul, abs_mul, abs_of_nonneg l0, abs_of_nonneg (sub_nonneg.2 l1)]
    _ ≤ (1 - lam g x) * E + lam g x * E := by
        have := sub_nonneg.2 l1
        gcongr
    _ = E := by ring

/-- The product of the error factors of the axes. -/
noncomputable def errFactor (R : Rounding) (G : List (GridDim (Fl R))) : ℝ :=
  (G.map fun g => 1 + axisErr R (exactAxis g)).prod

theorem axisErr_nonneg {g : GridDim ℝ} (h : ValidAxis g) : 0 ≤ axisErr R g := by
  have := Rounding.u_nonneg R
  cases g with
  | uniform a b n =>
    have : (0 : ℝ) ≤ n := by
      have : (2 : ℝ) ≤ n := by exact_mod_cast h.2
      linarith
    simp only [axisErr]; positivity
  | array gc => simp only [axisErr]; positivity

theorem errFactor_one_le : ∀ (G : List (GridDim (Fl R))), (∀ g ∈ G, ValidAxis (exactAxis g)) →
    1 ≤ errFactor R G
  | [], _ => by simp [errFactor]
  | g :: G, h => by
    have h1 := errFactor_one_le G fun g' hg' => h g' (by simp [hg'])
    have h2 := axisErr_nonneg (R := R) (h g (by simp))
    simp only [errFactor, List.map_cons, List.prod_cons] at h1 ⊢
    nlinarith

theorem u_small {g : GridDim ℝ} (h : ValidAxis g) (hs : axisErr R g ≤ 1 / 4) : R.u ≤ 1 / 52 := by
  have hu0 := Rounding.u_nonneg R
  cases g with
  | uniform a b n =>
    have h2 : (2 : ℝ) ≤ n := by exact_mod_cast h.2
    have : 13 * (n : ℝ) * R.u ≤ 1 / 4 := hs
    nlinarith
  | array gc =>
    have : 13 * R.u ≤ 1 / 4 := hs
    linarith

theorem plain_rounding : ∀ (G : List (GridDim (Fl R))) (x : List (Fl R)) (c : List ℕ → Fl R) (M : ℝ),
    (∀ g ∈ G, ValidAxis (exactAxis g)) → (∀ g ∈ G, axisErr R (exactAxis g) ≤ 1 / 4) →
    InBox (G.map exactAxis) (x.map Fl.val) →
    (∀ idx, InShape (gridShape (G.map exactAxis)) idx → |(c idx).val| ≤ M) →
    |(evalAt 1 G (List.replicate G.length 0) x c).val
      - plain 1 (G.map exactAxis) (x.map Fl.val) (fun r => (c r).val)| ≤ (errFactor R G - 1) * M
  | [], x, c, M, _, _, _, _ => by
    rw [List.map_nil, plain_nil]
    simp [evalAt, errFactor]
  | g :: G, [], c, M, _, _, hx, _ => by cases hx
  | g :: G, x :: xs, c, M, hg, hs, hx, hc => by
    simp only [List.map_cons] at hx
    cases hx with
    | cons hx1 hx2 =>
    have hgv := hg g (by simp)
    have hG' : ∀ g' ∈ G, ValidAxis (exactAxis g') := fun g' hg' => hg g' (by simp [hg'])
    have hGe : ∀ g' ∈ G.map exactAxis, ValidAxis g' := by
      intro g' hg'
      obtain ⟨g'', h1, rfl⟩ := List.mem_map.1 hg'
      exact hG' g'' h1
    have hu := u_small hgv (hs g (by simp))
    set P := errFactor R G with hP
    have hP1 : 1 ≤ P := errFactor_one_le G hG'
    set hat : ℕ → ℝ := fun j =>
      (evalAt 1 G (List.replicate G.length 0) xs (fun r => c (j :: r))).val with hhat
    set ex : ℕ → ℝ := fun j =>
      plain 1 (G.map exactAxis) (xs.map Fl.val) (fun r => (c (j :: r)).val) with hex
    have ih : ∀ j < nNodes (exactAxis g), |hat j - ex j| ≤ (P - 1) * M := fun j hj =>
      plain_rounding G xs (fun r => c (j :: r)) M hG' (fun g' hg' => hs g' (by simp [hg'])) hx2
        (fun idx hidx => hc (j :: idx) ⟨hj, hidx⟩)
    have hexb : ∀ j < nNodes (exactAxis g), |ex j| ≤ M := fun j hj =>
      plain_abs_le _ _ _ M hGe hx2 fun idx hidx => hc (j :: idx) ⟨hj, hidx⟩
    have hM : 0 ≤ M := (abs_nonneg _).trans (hexb 0 (by have := ValidAxis.two_le hgv; omega))
    have hhb : ∀ j < nNodes (exactAxis g), |hat j| ≤ P * M := fun j hj => by
      have := abs_sub_abs_le_abs_sub (hat j) (ex j)
      have := ih j hj
      have := hexb j hj
      linarith
    obtain ⟨y, hcell, hlam, hm0, hm1, hlip⟩ := axis_near g x hgv (hs g (by simp)) hx1.1 hx1.2
    have hci := (inCell_cell hgv y).1
    have e1 : (evalAt 1 (g :: G) (List.replicate (g :: G).length 0) (x :: xs) c).val
        = R.rnd (R.rnd (R.rnd (1 - (lam g x).val) * hat (cell g x).toNat)
          + R.rnd ((lam g x).val * hat ((cell g x).toNat + 1))) := by
      simp only [List.length_cons, List.replicate_succ, evalAt, weights, if_true, sumL,
        List.mapIdx_cons, List.mapIdx_nil, List.foldl_cons, List.foldl_nil, hhat]
      rfl
    have e2 : plain 1 ((g :: G).map exactAxis) ((x :: xs).map Fl.val) (fun r => (c r).val)
        = lin1 (exactAxis g) x.val ex := by
      rw [List.map_cons, List.map_cons, plain_cons]
    rw [e1, e2]
    have s1 := combine_near R hu (lam (exactAxis g) y) (lam g x).val (hat (cell g x).toNat)
      (hat ((cell g x).toNat + 1)) (P * M) hlam hm0 hm1 (hhb _ (by rw [hcell]; omega))
      (hhb _ (by rw [hcell]; omega))
    have s2 := hlip hat (P * M) hhb
    have s3 := lin1_near hgv hx1.1 hx1.2 ih
    have e3 : lin1 (exactAxis g) y hat = (1 - lam (exactAxis g) y) * hat (cell g x).toNat
        + lam (exactAxis g) y * hat ((cell g x).toNat + 1) := by rw [lin1, hcell]
    rw [← e3] at s1
    have e4 : errFactor R (g :: G) = (1 + axisErr R (exactAxis g)) * P := by
      simp [errFactor, hP]
    rw [e4]
    set v := R.rnd (R.rnd (R.rnd (1 - (lam g x).val) * hat (cell g x).toNat)
          + R.rnd ((lam g x).val * hat ((cell g x).toNat + 1)))
    have t1 := abs_sub_le v (lin1 (exactAxis g) y hat) (lin1 (exactAxis g) x.val ex)
    have t2 := abs_sub_le (lin1 (exactAxis g) y hat) (lin1 (exactAxis g) x.val hat)
      (lin1 (exactAxis g) x.val ex)
    nlinarith

/-! ### Modes and requests -/

theorem lo_val (g : GridDim (Fl R)) : (lo g).val = lo (exactAxis g) := by
  cases g with
  | uniform a b n => rfl
  | array gc => exact getD_val gc 0

theorem hi_val (g : GridDim (Fl R)) : (hi g).val = hi (exactAxis g) := by
  cases g with
  | uniform a b n => rfl
  | array gc =>
    show (gc.getD (gc.length - 1) 0).val = (gc.map Fl.val).getD ((gc.map Fl.val).length - 1) 0
    rw [getD_val, List.length_map]

theorem pyMax_val (x y : Fl R) : (pyMax x y).val = pyMax x.val y.val := by
  unfold pyMax
  by_cases h : x.val < y.val
  · have h' : x < y := h
    simp only [h, h', if_true]
  · have h' : ¬ x < y := h
    simp only [h, h', if_false]

theorem pyMin_val (x y : Fl R) : (pyMin x y).val = pyMin x.val y.val := by
  unfold pyMin
  by_cases h : y.val < x.val
  · have h' : y < x := h
    simp only [h, h', if_true]
  · have h' : ¬ y < x := h
    simp only [h, h', if_false]

theorem clamp_val : ∀ (G : List (GridDim (Fl R))) (x : List (Fl R)),
    (List.zipWith clampAxis G x).map Fl.val
      = List.zipWith clampAxis (G.map exactAxis) (x.map Fl.val)
  | [], x => by simp
  | g :: G, [] => by simp
  | g :: G, x :: xs => by
    simp only [List.zipWith_cons_cons, List.map_cons, clamp_val G xs]
    congr 1
    simp only [clampAxis, pyMax_val, pyMin_val, lo_val, hi_val]

theorem outside_val : ∀ (G : List (GridDim (Fl R))) (x : List (Fl R)),
    List.zipWith isOutside G x = List.zipWith isOutside (G.map exactAxis) (x.map Fl.val)
  | [], x => by simp
  | g :: G, [] => by simp
  | g :: G, x :: xs => by
    simp only [List.zipWith_cons_cons, List.map_cons, outside_val G xs]
    congr 1
    simp only [isOutside, Fl.lt_iff, lo_val, hi_val]

theorem rnd_ne_zero (hu : R.u < 1) {x : ℝ} (hx : x ≠ 0) : R.rnd x ≠ 0 := by
  intro h0
  have h := R.err x
  rw [h0, zero_sub, abs_neg] at h
  have := abs_pos.2 hx
  nlinarith

theorem wf_val (hu : R.u < 1) (g : GridDim (Fl R)) (h : ValidAxis (exactAxis g)) : WF g := by
  cases g with
  | uniform a b n =>
    refine ⟨h.2, ?_⟩
    rw [Fl.beq_false_iff]
    exact rnd_ne_zero hu (sub_pos.2 h.1).ne'
  | array gc =>
    refine ⟨by simpa using h.1, fun i hi => ?_⟩
    rw [Fl.beq_false_iff]
    refine rnd_ne_zero hu ?_
    rw [getD_val, getD_val]
    have := node_lt h (Nat.lt_succ_self i) (by simpa [nNodes, exactAxis] using hi)
    exact (sub_pos.2 this).ne'

theorem size_val (g : GridDim (Fl R)) : size g = nNodes (exactAxis g) := by
  cases g with
  | uniform a b n => rfl
  | array gc => simp [size, nNodes, exactAxis]

theorem fits_val (k : ℕ) (hk : 1 ≤ k) : ∀ G : List (GridDim (Fl R)),
    Fits k G ((G.map exactAxis).map fun g => nNodes g + (k - 1))
  | [] => trivial
  | g :: G => ⟨by rw [size_val]; show nNodes (exactAxis g) + k ≤ nNodes (exactAxis g) + (k - 1) + 1; omega,
      fits_val k hk G⟩

theorem gtype_val (g : GridDim (Fl R)) : (exactAxis g).gtype = g.gtype := by
  cases g <;> rfl

/-- A request that is legitimate in exact arithmetic is legitimate with rounding. -/
theorem good_val (hu : R.u < 1) {k : ℕ} {G : List (GridDim (Fl R))} {C : NdArray (Fl R)} {vec : Bool}
    {m : ℕ} (h : Request k (G.map exactAxis) (exactArray C) vec m none) :
    GoodCall k G C vec m none where
  ne := by simpa using h.grid.1
  wf g hg := wf_val hu g (h.grid.2 _ (List.mem_map_of_mem hg))
  shape := ⟨_, h.shape, fits_val k (by rcases h.degree with h | h <;> omega) G⟩
  hk := by rcases h.degree with h | h <;> tauto
  uni hk3 g hg := by
    rcases h.degree with h | h
    · omega
    · rw [← gtype_val]; exact h.2 _ (List.mem_map_of_mem hg)
  ords := by simp
  names := by simp
  deriv := by simp

end Interp.Codegen
