import Verif.Proofs.Rounding
import Verif.Props.Mlinterp

/-! Rounding errors of `mlinterp` and `interp`. -/

namespace Interp.Mlinterp
open Interp.Codegen Interp.Spec Interp.Ref Interp.Props

variable {R : Rounding}

/-- Combining two numbers with a computed weight. -/
theorem combine_abs (R : Rounding) (hu : R.u ≤ 1 / 52) (l c0 c1 M : ℝ) (h0 : -(1 / 4) ≤ l) (h1 : l ≤ 5 / 4)
    (hc0 : |c0| ≤ M) (hc1 : |c1| ≤ M) :
    |R.rnd (R.rnd (R.rnd (1 - l) * c0) + R.rnd (l * c1)) - ((1 - l) * c0 + l * c1)| ≤ 6 * R.u * M := by
  have hu0 := Rounding.u_nonneg R
  have hM : 0 ≤ M := (abs_nonneg _).trans hc0
  have huM : 0 ≤ R.u * M := mul_nonneg hu0 hM
  have a0 : |l| ≤ 5 / 4 := by rw [abs_le]; constructor <;> linarith
  have a1 : |1 - l| ≤ 5 / 4 := by rw [abs_le]; constructor <;> linarith
  have a2 : |1 - l| + |l| ≤ 3 / 2 := by
    rcases abs_cases (1 - l) with ⟨e, _⟩ | ⟨e, _⟩ <;> rcases abs_cases l with ⟨e', _⟩ | ⟨e', _⟩ <;>
      rw [e, e'] <;> linarith
  set w := R.rnd (1 - l) with hw
  have b1 : |w - (1 - l)| ≤ 5 / 4 * R.u := by
    refine (R.err (1 - l)).trans ?_
    have := mul_le_mul_of_nonneg_left a1 hu0
    linarith
  have b2 : |w| ≤ 1.3 := by
    have := abs_sub_abs_le_abs_sub w (1 - l)
    linarith
  set A := R.rnd (w * c0) with hA
  set B := R.rnd (l * c1) with hB
  have c1' : |A - (1 - l) * c0| ≤ 2.55 * (R.u * M) := by
    have e1 := R.err (w * c0)
    have e2 := abs_sub_le A (w * c0) ((1 - l) * c0)
    have e3 : |w * c0 - (1 - l) * c0| ≤ 5 / 4 * R.u * M := by
      rw [← sub_mul, abs_mul]
      exact mul_le_mul b1 hc0 (abs_nonneg _) (by linarith)
    have e4 : R.u * |w * c0| ≤ R.u * (1.3 * M) := by
      rw [abs_mul]
      exact mul_le_mul_of_nonneg_left (mul_le_mul b2 hc0 (abs_nonneg _) (by norm_num)) hu0
    linarith
  have c2' : |B - l * c1| ≤ 1.25 * (R.u * M) := by
    refine (R.err (l * c1)).trans ?_
    have : R.u * |l * c1| ≤ R.u * (5 / 4 * M) := by
      rw [abs_mul]
      exact mul_le_mul_of_nonneg_left (mul_le_mul a0 hc1 (abs_nonneg _) (by norm_num)) hu0
    linarith
  set X := (1 - l) * c0 + l * c1 with hX
  have d2 : |A + B - X| ≤ 3.8 * (R.u * M) := by
    rw [show A + B - X = (A - (1 - l) * c0) + (B - l * c1) by rw [hX]; ring]
    have := abs_add_le (A - (1 - l) * c0) (B - l * c1)
    linarith
  have d3 : |X| ≤ 3 / 2 * M := by
    have e := abs_add_le ((1 - l) * c0) (l * c1)
    rw [abs_mul, abs_mul] at e
    have e1 := mul_le_mul_of_nonneg_left hc0 (abs_nonneg (1 - l))
    have e2 := mul_le_mul_of_nonneg_left hc1 (abs_nonneg l)
    have e3 := mul_le_mul_of_nonneg_right a2 hM
    linarith
  have d4 : |A + B| ≤ |A + B - X| + |X| := by
    have := abs_add_le (A + B - X) X
    simpa using this
  have d5 := abs_sub_le (R.rnd (A + B)) (A + B) X
  have d6 := R.err (A + B)
  have d7 : R.u * |A + B| ≤ R.u * (3.8 * (R.u * M) + 3 / 2 * M) :=
    mul_le_mul_of_nonneg_left (by linarith) hu0
  have d8 : R.u * (R.u * M) ≤ 1 / 52 * (R.u * M) := mul_le_mul_of_nonneg_right hu huM
  linarith

theorem cellI_array {K : Type} [Add K] [Sub K] [Mul K] [Div K] [Neg K] [Zero K] [One K] [NatCast K]
    [IntCast K] [LT K] [DecidableLT K] [BEq K] [IntFloor K] (l : List K) (hl : 2 ≤ l.length) (x : K) :
    cellI (.array l) x = cell (.array l) x := by
  have h5 : cellI (.array l) x = min ((l.length : ℤ) - 2) (max 0 ((searchsorted l x : ℤ) - 1)) := by
    rw [← pyMaxZ_eq, ← pyMinZ_eq]; rfl
  have h6 : cell (.array l) x = min (max ((searchsorted l x : ℤ) - 1) 0) ((l.length : ℤ) - 2) := by
    rw [← pyMaxZ_eq, ← pyMinZ_eq]; rfl
  rw [h5, h6]; omega

theorem lamI_array {K : Type} [Add K] [Sub K] [Mul K] [Div K] [Neg K] [Zero K] [One K] [NatCast K]
    [IntCast K] [LT K] [DecidableLT K] [BEq K] [IntFloor K] (l : List K) (hl : 2 ≤ l.length) (x : K) :
    lamI (.array l) x = lam (.array l) x := by
  simp only [lamI, lam, delta, cellI_array l hl]

/-- A uniform axis: the cell is that of a point `y` close to `x`, the weight close to that of `y`. -/
theorem uniform_index (a b : Fl R) (n : ℤ) (x : Fl R)
    (hg : ValidAxis (exactAxis (.uniform a b n))) (hs : 13 * (n : ℝ) * R.u ≤ 1 / 4)
    (h1 : first (exactAxis (.uniform a b n)) ≤ x.val)
    (h2 : x.val ≤ last (exactAxis (.uniform a b n))) :
    ∃ y : ℝ, cellI (.uniform a b n) x = cell (.uniform a.val b.val n) y ∧
      |(lamI (.uniform a b n) x).val - lam (.uniform a.val b.val n) y| ≤ ((n : ℝ) + 1) * R.u ∧
      0 ≤ lam (.uniform a.val b.val n) y ∧ lam (.uniform a.val b.val n) y ≤ 9 / 8 ∧
      |y - x.val| ≤ (b.val - a.val) / ((n : ℝ) - 1) * (4 * R.u * ((n : ℝ) - 1)) := by
  have hu0 := Rounding.u_nonneg R
  obtain ⟨hn, hb⟩ := uniform_pos (show ValidAxis (.uniform a.val b.val n) from hg)
  have hn2 : (2 : ℝ) ≤ n := by exact_mod_cast hg.2
  have hu1 : R.u ≤ 1 / 104 := by nlinarith
  have hnu : (n : ℝ) * R.u ≤ 1 / 52 := by linarith
  have n1 : ∀ z : ℝ, Near R.u z (R.rnd z) := fun z => R.err z
  set h : ℝ := (b.val - a.val) / ((n : ℝ) - 1) with hh
  have hh0 : 0 < h := div_pos hb hn
  set w : ℝ := (x.val - a.val) / h with hw
  set dh : ℝ := R.rnd (x.val - a.val) with hdh
  set δ : ℝ := R.rnd (R.rnd (b.val - a.val) / ((n : ℝ) - 1)) with hδ
  have hcast : ((n - 1 : ℤ) : ℝ) = (n : ℝ) - 1 := by push_cast; ring
  have nδ : Near (2.02 * R.u) h δ := by
    have := ((n1 (b.val - a.val)).div (Near.refl ((n : ℝ) - 1)) hu0 le_rfl (by norm_num)).rnd (R := R)
    refine this.mono ?_
    rw [add_zero, sub_zero, div_one]
    nlinarith
  have hδ0 : 0 < δ := by
    have := (abs_le.1 (show |δ - h| ≤ 2.02 * R.u * |h| from nδ)).1
    rw [abs_of_pos hh0] at this
    nlinarith
  set q : ℝ := dh / δ with hq
  have nq : Near (4 * R.u) w q := by
    refine ((n1 (x.val - a.val)).div nδ hu0 (by linarith) (by linarith)).mono ?_
    rw [div_le_iff₀ (by linarith)]
    nlinarith
  have hxa : 0 ≤ x.val - a.val := by
    have : first (exactAxis (.uniform a b n)) = a.val := by simp [exactAxis, first, node]
    rw [this] at h1; linarith
  have hbx : x.val - a.val ≤ b.val - a.val := by
    rw [← hi_eq hg] at h2
    have : hi (exactAxis (.uniform a b n)) = b.val := rfl
    linarith
  have hw0 : 0 ≤ w := div_nonneg hxa hh0.le
  have hw1 : w ≤ (n : ℝ) - 1 := by
    rw [hw, div_le_iff₀ hh0, hh]
    calc _ ≤ b.val - a.val := hbx
      _ = _ := by field_simp
  have hd : |q - w| ≤ 4 * R.u * w := by
    have : |q - w| ≤ 4 * R.u * |w| := nq
    rwa [abs_of_nonneg hw0] at this
  have hq0 : 0 ≤ q := by
    have := (abs_le.1 hd).1
    nlinarith
  have hq1 : q ≤ (n : ℝ) - 1 + 1 / 8 := by
    have := (abs_le.1 hd).2
    nlinarith
  set y : ℝ := a.val + q * h with hy
  have hyu : (y - a.val) * (((n : ℝ) - 1) / (b.val - a.val)) = q := by
    rw [hy, hh]; field_simp; ring
  have hci : cell (.uniform a.val b.val n) y = max (min ⌊q⌋ (n - 2)) 0 := by
    rw [← pyMinZ_eq, ← pyMaxZ_eq]
    simp only [cell, hyu]
    rfl
  have hcellI : cellI (.uniform a b n) x = min (n - 2) (max 0 ⌊q⌋) := by
    rw [← pyMinZ_eq, ← pyMaxZ_eq, hq, hdh, hδ, ← hcast]
    rfl
  have hn2' : 2 ≤ n := hg.2
  have hcell : cellI (.uniform a b n) x = cell (.uniform a.val b.val n) y := by
    rw [hci, hcellI]; omega
  have hlam : lam (.uniform a.val b.val n) y = q - ((cell (.uniform a.val b.val n) y : ℤ) : ℝ) := by
    simp only [lam, hyu]
  have hf0 : 0 ≤ ⌊q⌋ := Int.floor_nonneg.2 hq0
  have hmu : 0 ≤ lam (.uniform a.val b.val n) y ∧ lam (.uniform a.val b.val n) y ≤ 9 / 8 := by
    rw [hlam, hci]
    rcases le_total ⌊q⌋ (n - 2) with hle | hle
    · rw [min_eq_left hle, max_eq_left hf0]
      have := Int.floor_le q
      have := Int.lt_floor_add_one q
      constructor <;> linarith
    · rw [min_eq_right hle, max_eq_left (by omega)]
      have h3 : ((n - 2 : ℤ) : ℝ) ≤ ((⌊q⌋ : ℤ) : ℝ) := by exact_mod_cast hle
      have := Int.floor_le q
      push_cast at h3 ⊢
      constructor <;> linarith
  refine ⟨y, hcell, ?_, hmu.1, hmu.2, ?_⟩
  · set i : ℝ := ((cell (.uniform a.val b.val n) y : ℤ) : ℝ) with hi
    have hi0 : 0 ≤ i := by
      rw [hi, hci]; exact_mod_cast le_max_right _ _
    have hi1 : i ≤ (n : ℝ) - 2 := by
      have : cell (.uniform a.val b.val n) y ≤ n - 2 := by rw [hci]; omega
      have := (Int.cast_le (R := ℝ)).2 this
      push_cast at this
      exact this
    rw [hlam]
    rw [hlam] at hmu
    have e : (lamI (.uniform a b n) x).val = R.rnd (R.rnd (dh - R.rnd (i * δ)) / δ) := by
      simp only [lamI, Fl.div_val, Fl.sub_val, Fl.mul_val, Fl.intCast_val, hcell, hcast, hdh, hδ, hi]
    rw [e]
    set p := R.rnd (i * δ) with hp
    have p1 : |p - i * δ| ≤ R.u * (i * δ) := by
      have := R.err (i * δ)
      rwa [abs_of_nonneg (mul_nonneg hi0 hδ0.le)] at this
    -- the remainder, in units of the spacing
    set s := (dh - p) / δ with hsd
    have s1 : |s - (q - i)| ≤ R.u * i := by
      have : s - (q - i) = -((p - i * δ) / δ) := by rw [hsd, hq]; field_simp; ring
      rw [this, abs_neg, abs_div, abs_of_pos hδ0, div_le_iff₀ hδ0]
      linarith
    have hui : R.u * i ≤ 1 / 52 := by nlinarith
    have s2 : |s| ≤ 1.15 := by
      have := abs_le.1 s1
      rw [abs_le]; constructor <;> linarith
    set r := R.rnd (dh - p) with hr
    have r1 : |r / δ - s| ≤ 1.15 * R.u := by
      have : r / δ - s = (r - (dh - p)) / δ := by rw [hsd]; ring
      rw [this, abs_div, abs_of_pos hδ0, div_le_iff₀ hδ0]
      refine (R.err (dh - p)).trans ?_
      have e2 : |dh - p| = |s| * δ := by rw [hsd, abs_div, abs_of_pos hδ0]; field_simp
      rw [e2]
      have := mul_le_mul_of_nonneg_left s2 (mul_nonneg hu0 hδ0.le)
      linarith
    have r2 : |r / δ| ≤ 1.17 := by
      have := abs_sub_abs_le_abs_sub (r / δ) s
      linarith
    have f1 := R.err (r / δ)
    have f2 := mul_le_mul_of_nonneg_left r2 hu0
    have f3 := abs_sub_le (R.rnd (r / δ)) (r / δ) (q - i)
    have f4 := abs_sub_le (r / δ) s (q - i)
    have f5 := mul_le_mul_of_nonneg_left hi1 hu0
    nlinarith
  · have hyx : |y - x.val| = h * |q - w| := by
      have : y - x.val = h * (q - w) := by
        rw [hy, hw]; field_simp; ring
      rw [this, abs_mul, abs_of_pos hh0]
    rw [hyx]
    refine mul_le_mul_of_nonneg_left (hd.trans ?_) hh0.le
    exact mul_le_mul_of_nonneg_left hw1 (by linarith)

/-- One axis: combining numbers `c` with the computed index and weight. -/
theorem axis_combine (g : GridDim (Fl R)) (x : Fl R) (hg : ValidAxis (exactAxis g))
    (hs : axisErr R (exactAxis g) ≤ 1 / 4) (h1 : first (exactAxis g) ≤ x.val)
    (h2 : x.val ≤ last (exactAxis g)) (c : ℕ → ℝ) (M : ℝ) (hc : ∀ j < nNodes (exactAxis g), |c j| ≤ M) :
    (cellI g x).toNat + 1 < nNodes (exactAxis g) ∧
    |R.rnd (R.rnd (R.rnd (1 - (lamI g x).val) * c (cellI g x).toNat)
        + R.rnd ((lamI g x).val * c ((cellI g x).toNat + 1))) - lin1 (exactAxis g) x.val c|
      ≤ axisErr R (exactAxis g) * M := by
  have hu0 := Rounding.u_nonneg R
  have hu := u_small hg hs
  have hM : 0 ≤ M := (abs_nonneg _).trans (hc 0 (by have := ValidAxis.two_le hg; omega))
  have huM := mul_nonneg hu0 hM
  cases g with
  | array gc =>
    have hl2 : 2 ≤ gc.length := by simpa [exactAxis] using hg.1
    obtain ⟨y, hcell, hlam, hm0, hm1, hlip⟩ := axis_near (.array gc) x hg hs h1 h2
    rw [cellI_array gc hl2, lamI_array gc hl2]
    have hci := (inCell_cell hg y).1
    rw [← hcell] at hci
    have s1 := combine_near R hu (lam (exactAxis (.array gc)) y) (lam (.array gc) x).val
      (c (cell (.array gc) x).toNat) (c ((cell (.array gc) x).toNat + 1)) M hlam hm0 hm1
      (hc _ (by omega)) (hc _ hci)
    have s2 := hlip c M hc
    have e3 : lin1 (exactAxis (.array gc)) y c
        = (1 - lam (exactAxis (.array gc)) y) * c (cell (.array gc) x).toNat
          + lam (exactAxis (.array gc)) y * c ((cell (.array gc) x).toNat + 1) := by rw [lin1, hcell]
    rw [← e3] at s1
    refine ⟨hci, (abs_sub_le _ (lin1 (exactAxis (.array gc)) y c) _).trans ?_⟩
    linarith
  | uniform a b n =>
    have hs' : 13 * (n : ℝ) * R.u ≤ 1 / 4 := hs
    obtain ⟨hn, hb⟩ := uniform_pos (show ValidAxis (.uniform a.val b.val n) from hg)
    have hn2 : (2 : ℝ) ≤ n := by exact_mod_cast hg.2
    obtain ⟨y, hcell, hlam, hm0, hm1, hyx⟩ := uniform_index a b n x hg hs' h1 h2
    have hci := (inCell_cell (show ValidAxis (.uniform a.val b.val n) from hg) y).1
    rw [hcell]
    set j := (cell (.uniform a.val b.val n) y).toNat
    have hj0 := hc j (by show j < nNodes (.uniform a.val b.val n); omega)
    have hj1 := hc (j + 1) hci
    set h : ℝ := (b.val - a.val) / ((n : ℝ) - 1) with hh
    have hh0 : 0 < h := div_pos hb hn
    set l := (lamI (.uniform a b n) x).val
    set μ := lam (.uniform a.val b.val n) y with hμ
    have hlm := abs_le.1 hlam
    have hsm : ((n : ℝ) + 1) * R.u ≤ 1 / 8 := by nlinarith
    have s1 := combine_abs R hu l (c j) (c (j + 1)) M (by linarith) (by linarith) hj0 hj1
    have s2 : |(1 - l) * c j + l * c (j + 1) - ((1 - μ) * c j + μ * c (j + 1))|
        ≤ ((n : ℝ) + 1) * R.u * (2 * M) := by
      rw [show (1 - l) * c j + l * c (j + 1) - ((1 - μ) * c j + μ * c (j + 1))
        = (l - μ) * (c (j + 1) - c j) by ring, abs_mul]
      refine mul_le_mul hlam ?_ (abs_nonneg _) (by positivity)
      have := abs_sub (c (j + 1)) (c j)
      linarith
    have s3 : |lin1 (.uniform a.val b.val n) y c - lin1 (.uniform a.val b.val n) x.val c|
        ≤ 8 * R.u * ((n : ℝ) - 1) * M := by
      have hl := lin1_lipschitz (show ValidAxis (.uniform a.val b.val n) from hg) c (2 * M / h) (by
        intro k hk
        have e0 : node (GridDim.uniform a.val b.val n) (k + 1) - node (.uniform a.val b.val n) k = h := by
          simp only [node]
          push_cast
          rw [← hh]; ring
        rw [e0]
        have e1 := abs_sub (c (k + 1)) (c k)
        have e2 := hc (k + 1) hk
        have e3 := hc k (by show k < nNodes (.uniform a.val b.val n); omega)
        have : 2 * M / h * h = 2 * M := by field_simp
        linarith) x.val y
      refine hl.trans ?_
      calc 2 * M / h * |y - x.val| ≤ 2 * M / h * (h * (4 * R.u * ((n : ℝ) - 1))) :=
            mul_le_mul_of_nonneg_left hyx (div_nonneg (by linarith) hh0.le)
        _ = _ := by field_simp; ring
    refine ⟨hci, ?_⟩
    show |_ - lin1 (.uniform a.val b.val n) x.val c| ≤ 13 * (n : ℝ) * R.u * M
    have e3 : lin1 (.uniform a.val b.val n) y c = (1 - μ) * c j + μ * c (j + 1) := rfl
    rw [← e3] at s2
    have t1 := abs_sub_le (R.rnd (R.rnd (R.rnd (1 - l) * c j) + R.rnd (l * c (j + 1))))
      ((1 - l) * c j + l * c (j + 1)) (lin1 (.uniform a.val b.val n) x.val c)
    have t2 := abs_sub_le ((1 - l) * c j + l * c (j + 1)) (lin1 (.uniform a.val b.val n) y c)
      (lin1 (.uniform a.val b.val n) x.val c)
    have t3 : 0 ≤ (n : ℝ) * (R.u * M) := mul_nonneg (by linarith) huM
    linarith

/-- Several axes. -/
theorem mlVal_rounding : ∀ (G : List (GridDim (Fl R))) (x : List (Fl R)) (c : List ℕ → Fl R) (M : ℝ),
    (∀ g ∈ G, ValidAxis (exactAxis g)) → (∀ g ∈ G, axisErr R (exactAxis g) ≤ 1 / 4) →
    InBox (G.map exactAxis) (x.map Fl.val) →
    (∀ idx, InShape (gridShape (G.map exactAxis)) idx → |(c idx).val| ≤ M) →
    |(mlVal G c x).val - plain 1 (G.map exactAxis) (x.map Fl.val) (fun r => (c r).val)|
      ≤ (errFactor R G - 1) * M
  | [], x, c, M, _, _, _, _ => by
    rw [List.map_nil, plain_nil]
    simp [mlVal, errFactor]
  | g :: G, [], c, M, _, _, hx, _ => by cases hx
  | g :: G, x :: xs, c, M, hg, hs, hx, hc => by
    simp only [List.map_cons] at hx
    cases hx with
    | cons hx1 hx2 =>
    have hgv := hg g (by simp)
    have hG' : ∀ g' ∈ G, ValidAxis (exactAxis g') := fun g' hg' => hg g' (by simp [hg'])
    have hGe : ∀ g' ∈ G.map exactAxis, ValidAxis g' := by
      intro g' hg'
      obtain ⟨g'', h1, rfl⟩ := List.mem_map.1 hg'
      exact hG' g'' h1
    set P := errFactor R G with hP
    have hP1 : 1 ≤ P := errFactor_one_le G hG'
    set hat : ℕ → ℝ := fun j => (mlVal G (fun r => c (j :: r)) xs).val with hhat
    set ex : ℕ → ℝ := fun j =>
      plain 1 (G.map exactAxis) (xs.map Fl.val) (fun r => (c (j :: r)).val) with hex
    have ih : ∀ j < nNodes (exactAxis g), |hat j - ex j| ≤ (P - 1) * M := fun j hj =>
      mlVal_rounding G xs (fun r => c (j :: r)) M hG' (fun g' hg' => hs g' (by simp [hg'])) hx2
        (fun idx hidx => hc (j :: idx) ⟨hj, hidx⟩)
    have hexb : ∀ j < nNodes (exactAxis g), |ex j| ≤ M := fun j hj =>
      plain_abs_le _ _ _ M hGe hx2 fun idx hidx => hc (j :: idx) ⟨hj, hidx⟩
    have hhb : ∀ j < nNodes (exactAxis g), |hat j| ≤ P * M := fun j hj => by
      have := abs_sub_abs_le_abs_sub (hat j) (ex j)
      have := ih j hj
      have := hexb j hj
      linarith
    have s1 := (axis_combine g x hgv (hs g (by simp)) hx1.1 hx1.2 hat (P * M) hhb).2
    have s3 := lin1_near hgv hx1.1 hx1.2 ih
    have e2 : plain 1 ((g :: G).map exactAxis) ((x :: xs).map Fl.val) (fun r => (c r).val)
        = lin1 (exactAxis g) x.val ex := by
      rw [List.map_cons, List.map_cons, plain_cons]
    rw [e2]
    have e4 : errFactor R (g :: G) = (1 + axisErr R (exactAxis g)) * P := by
      simp [errFactor, hP]
    rw [e4]
    refine (abs_sub_le _ (lin1 (exactAxis g) x.val hat) _).trans ?_
    refine (add_le_add s1 s3).trans (le_of_eq ?_)
    ring

theorem noZeroDiv_val (hu : R.u < 1) (g : GridDim (Fl R)) (h : ValidAxis (exactAxis g)) :
    NoZeroDiv g := by
  cases g with
  | uniform a b n =>
    obtain ⟨h1, h2⟩ := uniform_pos (show ValidAxis (.uniform a.val b.val n) from h)
    have e : ((n - 1 : ℤ) : ℝ) = (n : ℝ) - 1 := by push_cast; ring
    refine ⟨h.2, ?_, ?_⟩
    · rw [Fl.beq_false_iff, Fl.intCast_val, Fl.zero_val, e]; exact h1.ne'
    · rw [Fl.beq_false_iff, Fl.div_val, Fl.sub_val, Fl.intCast_val, Fl.zero_val, e]
      exact rnd_ne_zero hu (div_ne_zero (rnd_ne_zero hu h2.ne') h1.ne')
  | array l =>
    refine ⟨by simpa [exactAxis] using h.1, fun i hi => ?_⟩
    rw [Fl.beq_false_iff, Fl.sub_val, Fl.zero_val, getD_val, getD_val]
    refine rnd_ne_zero hu (sub_pos.2 ?_).ne'
    exact node_lt (g := .array (l.map Fl.val)) h (Nat.lt_succ_self i) (by simpa [nNodes] using hi)

theorem axisLen_val (g : GridDim (Fl R)) : axisLen g = nNodes (exactAxis g) := by
  cases g <;> simp [axisLen, nNodes, exactAxis]

theorem projI_val (g : GridDim (Fl R)) (x : Fl R) : (projI g x).val = projI (exactAxis g) x.val := by
  cases g with
  | uniform a b n => simp only [projI, exactAxis, pyMin_val, pyMax_val]
  | array gc => simp only [projI, exactAxis, pyMin_val, pyMax_val, getD_val, List.length_map]

theorem zipWith_projI_val : ∀ (G : List (GridDim (Fl R))) (x : List (Fl R)),
    (List.zipWith projI G x).map Fl.val = List.zipWith projI (G.map exactAxis) (x.map Fl.val)
  | [], _ => by simp
  | _ :: _, [] => by simp
  | g :: G, x :: xs => by
    have := zipWith_projI_val G xs
    simp only [List.zipWith_cons_cons, List.map_cons, this, projI_val]

/-- On axes given as arrays, `mlinterp` computes the same numbers as the linear splines, in any
arithmetic. -/
theorem mlVal_arrays {K : Type} [Add K] [Sub K] [Mul K] [Div K] [Neg K] [Zero K] [One K] [NatCast K]
    [IntCast K] [LT K] [DecidableLT K] [BEq K] [IntFloor K] :
    ∀ (axes : List (List K)) (c : List ℕ → K) (x : List K), (∀ l ∈ axes, 2 ≤ l.length) →
      x.length = axes.length →
      mlVal (axes.map .array) c x
        = evalAt 1 (axes.map .array) (List.replicate (axes.map GridDim.array).length 0) x c
  | [], c, [], _, _ => rfl
  | [], _, _ :: _, _, h => by simp at h
  | _ :: _, _, [], _, h => by simp at h
  | l :: axes, c, t :: x, hl, hx => by
    have h2 := hl l (by simp)
    simp only [List.map_cons, List.length_cons, List.replicate_succ, evalAt, weights, if_true, sumL,
      List.mapIdx_cons, List.mapIdx_nil, List.foldl_cons, List.foldl_nil, mlVal]
    rw [cellI_array l h2, lamI_array l h2,
      mlVal_arrays axes _ x (fun l' h' => hl l' (by simp [h'])) (by simpa using hx),
      mlVal_arrays axes _ x (fun l' h' => hl l' (by simp [h'])) (by simpa using hx)]
    rfl

end Interp.Mlinterp
