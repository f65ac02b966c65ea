import Verif.Proofs.LinearMulti
import Mathlib.Algebra.BigOperators.Intervals
import Mathlib.Tactic.FieldSimp
import Mathlib.Tactic.LinearCombination

/-! Interpolation error of linear splines, exact arithmetic. -/

set_option linter.unusedSectionVars false

namespace Interp.Codegen
open Interp.Ref Interp.Spec

variable {F : Type} [Field F] [LinearOrder F] [IsStrictOrderedRing F] [FloorRing F]

theorem closedCell {g : GridDim F} (h : ValidAxis g) {x : F} (h1 : first g ≤ x) (h2 : x ≤ last g) :
    (cell g x).toNat + 1 < nNodes g ∧ node g (cell g x).toNat ≤ x ∧
      x ≤ node g ((cell g x).toNat + 1) := by
  have hj := inCell_cell h x
  refine ⟨hj.1, ?_, ?_⟩
  · rcases hj.2.1 with h' | h'
    · rw [h']; exact h1
    · exact h'
  · rcases hj.2.2 with h' | h'
    · have : (cell g x).toNat + 1 = nNodes g - 1 := by omega
      rw [this]; exact h2
    · exact h'

theorem lin1_sub_le {g : GridDim F} (h : ValidAxis g) {x : F} (h1 : first g ≤ x) (h2 : x ≤ last g)
    (c c' : ℕ → F) (e : F) (hc : ∀ j < nNodes g, |c j - c' j| ≤ e) :
    |lin1 g x c - lin1 g x c'| ≤ e := by
  obtain ⟨l0, l1⟩ := lam_mem h h1 h2
  have hj := (inCell_cell h x).1
  have e1 : lin1 g x c - lin1 g x c' = (1 - lam g x) * (c (cell g x).toNat - c' (cell g x).toNat)
      + lam g x * (c ((cell g x).toNat + 1) - c' ((cell g x).toNat + 1)) := by
    rw [lin1, lin1]; ring
  rw [e1]
  have a1 := hc _ (Nat.lt_of_succ_lt hj)
  have a2 := hc _ hj
  calc _ ≤ |(1 - lam g x) * (c (cell g x).toNat - c' (cell g x).toNat)|
      + |lam g x * (c ((cell g x).toNat + 1) - c' ((cell g x).toNat + 1))| := abs_add_le _ _
    _ = (1 - lam g x) * |c (cell g x).toNat - c' (cell g x).toNat|
      + lam g x * |c ((cell g x).toNat + 1) - c' ((cell g x).toNat + 1)| := by
        rw [abs_mul, abs_mul, abs_of_nonneg (sub_nonneg.2 l1), abs_of_nonneg l0]
    _ ≤ (1 - lam g x) * e + lam g x * e :=
        add_le_add (mul_le_mul_of_nonneg_left a1 (sub_nonneg.2 l1)) (mul_le_mul_of_nonneg_left a2 l0)
    _ = e := by ring

theorem inBox_set : ∀ (G : List (GridDim F)) (y : List F) (i : ℕ) (t : F),
    InBox G y → (∀ g, G[i]? = some g → first g ≤ t ∧ t ≤ last g) → InBox G (y.set i t)
  | [], [], _, _, h, _ => by simpa using h
  | [], _ :: _, _, _, h, _ => by cases h
  | _ :: _, [], _, _, h, _ => by cases h
  | g :: G, y :: ys, 0, t, h, ht => by
    cases h with
    | cons h1 h2 => exact .cons (ht g rfl) h2
  | g :: G, y :: ys, i + 1, t, h, ht => by
    cases h with
    | cons h1 h2 => exact .cons h1 (inBox_set G ys i t h2 fun g' hg' => ht g' (by simpa using hg'))

/-- If along every axis, on every line of the box, linear interpolation has error at most `e i`,
then in several dimensions the error is at most the sum. -/
theorem plain_error : ∀ (G : List (GridDim F)) (x : List F) (f : List F → F) (e : ℕ → F),
    (∀ g ∈ G, ValidAxis g) → InBox G x →
    (∀ i g, G[i]? = some g → ∀ y t, InBox G y → first g ≤ t → t ≤ last g →
      |lin1 g t (fun j => f (y.set i (node g j))) - f (y.set i t)| ≤ e i) →
    |plain 1 G x (fun idx => f (nodeAt G idx)) - f x| ≤ ∑ i ∈ Finset.range G.length, e i
  | [], [], f, e, _, _, _ => by simp [plain_nil, nodeAt]
  | [], _ :: _, _, _, _, h, _ => by cases h
  | _ :: _, [], _, _, _, h, _ => by cases h
  | g :: G, x :: xs, f, e, hg, hx, he => by
    cases hx with
    | cons h1 h2 =>
      have hv := hg g (by simp)
      rw [plain_cons]
      have ih : ∀ j < nNodes g, |plain 1 G xs (fun r => f (nodeAt (g :: G) (j :: r))) - f (node g j :: xs)|
          ≤ ∑ i ∈ Finset.range G.length, e (i + 1) := by
        intro j hj
        apply plain_error G xs (fun ys => f (node g j :: ys)) (fun i => e (i + 1))
          (fun g' hg' => hg g' (by simp [hg'])) h2
        intro i g' hg' y t hy ht1 ht2
        have := he (i + 1) g' (by simpa using hg') (node g j :: y) t
          (.cons ⟨node_le hv (Nat.zero_le _) hj, node_le hv (by omega) (by omega)⟩ hy) ht1 ht2
        simpa using this
      have a1 := lin1_sub_le hv h1.1 h1.2 _ _ _ ih
      have a2 := he 0 g rfl (x :: xs) x (.cons h1 h2) h1.1 h1.2
      simp only [List.set_cons_zero] at a2
      rw [List.length_cons, Finset.sum_range_succ']
      calc _ ≤ |lin1 g x (fun j => plain 1 G xs (fun r => f (nodeAt (g :: G) (j :: r))))
              - lin1 g x (fun j => f (node g j :: xs))|
            + |lin1 g x (fun j => f (node g j :: xs)) - f (x :: xs)| := abs_sub_le _ _ _
        _ ≤ _ := add_le_add a1 a2

/-- The error on one interval, for a function of Lipschitz constant `L`. -/
theorem lin1_error_lipschitz {g : GridDim F} (h : ValidAxis g) {x : F} (h1 : first g ≤ x)
    (h2 : x ≤ last g) (φ : F → F) (L H : F)
    (hH : ∀ i, i + 1 < nNodes g → node g (i + 1) - node g i ≤ H)
    (hL : ∀ s t, first g ≤ s → s ≤ last g → first g ≤ t → t ≤ last g → |φ s - φ t| ≤ L * |s - t|) :
    |lin1 g x (fun j => φ (node g j)) - φ x| ≤ L * H / 2 := by
  obtain ⟨hj, ha, hb⟩ := closedCell h h1 h2
  obtain ⟨l0, l1⟩ := lam_mem h h1 h2
  have hw := width_pos h hj
  have hle := lam_eq h x
  have hHj := hH _ hj
  rw [lin1]
  set j := (cell g x).toNat
  set t := lam g x
  set p := node g j
  set q := node g (j + 1)
  have e0 : x - p = t * (q - p) := by rw [hle]; field_simp
  have fp : first g ≤ p := node_le h (Nat.zero_le _) (by omega)
  have lq : q ≤ last g := node_le h (by omega) (by omega)
  have a1 := hL p x fp (ha.trans h2) h1 h2
  have a2 := hL q x (h1.trans hb) lq h1 h2
  have hL0 : 0 ≤ L := by
    have := hL p q fp (ha.trans h2) (h1.trans hb) lq
    by_contra hneg
    have : L * |p - q| < 0 := mul_neg_of_neg_of_pos (not_le.1 hneg) (abs_pos.2 (sub_ne_zero.2 (sub_pos.1 hw).ne))
    linarith [abs_nonneg (φ p - φ q)]
  rw [show |p - x| = t * (q - p) by rw [abs_sub_comm, e0, abs_of_nonneg (mul_nonneg l0 hw.le)]] at a1
  rw [show |q - x| = (1 - t) * (q - p) by
    rw [show q - x = (1 - t) * (q - p) by linear_combination -e0,
      abs_of_nonneg (mul_nonneg (sub_nonneg.2 l1) hw.le)]] at a2
  have e1 : (1 - t) * φ p + t * φ q - φ x = (1 - t) * (φ p - φ x) + t * (φ q - φ x) := by ring
  rw [e1]
  calc _ ≤ |(1 - t) * (φ p - φ x)| + |t * (φ q - φ x)| := abs_add_le _ _
    _ = (1 - t) * |φ p - φ x| + t * |φ q - φ x| := by
        rw [abs_mul, abs_mul, abs_of_nonneg (sub_nonneg.2 l1), abs_of_nonneg l0]
    _ ≤ (1 - t) * (L * (t * (q - p))) + t * (L * ((1 - t) * (q - p))) :=
        add_le_add (mul_le_mul_of_nonneg_left a1 (sub_nonneg.2 l1)) (mul_le_mul_of_nonneg_left a2 l0)
    _ = 2 * (t * (1 - t)) * (L * (q - p)) := by ring
    _ ≤ 1 / 2 * (L * (q - p)) := by
        apply mul_le_mul_of_nonneg_right _ (mul_nonneg hL0 hw.le)
        nlinarith [sq_nonneg (1 - 2 * t)]
    _ ≤ 1 / 2 * (L * H) := by
        apply mul_le_mul_of_nonneg_left (mul_le_mul_of_nonneg_left hHj hL0)
        norm_num
    _ = L * H / 2 := by ring

/-- The error on one interval, for a function `φ` such that `M t²/2 ± φ` are convex. -/
theorem lin1_error_convex {g : GridDim F} (h : ValidAxis g) {x : F} (h1 : first g ≤ x)
    (h2 : x ≤ last g) (φ : F → F) (M H : F) (hM : 0 ≤ M)
    (hH : ∀ i, i + 1 < nNodes g → node g (i + 1) - node g i ≤ H)
    (hp : ∀ s t r, first g ≤ s → s ≤ last g → first g ≤ t → t ≤ last g → 0 ≤ r → r ≤ 1 →
      |(1 - r) * φ s + r * φ t - φ ((1 - r) * s + r * t)|
        ≤ M / 2 * ((1 - r) * s ^ 2 + r * t ^ 2 - ((1 - r) * s + r * t) ^ 2)) :
    |lin1 g x (fun j => φ (node g j)) - φ x| ≤ M * H ^ 2 / 8 := by
  obtain ⟨hj, ha, hb⟩ := closedCell h h1 h2
  obtain ⟨l0, l1⟩ := lam_mem h h1 h2
  have hw := width_pos h hj
  have hle := lam_eq h x
  have hHj := hH _ hj
  rw [lin1]
  set j := (cell g x).toNat
  set t := lam g x
  set p := node g j
  set q := node g (j + 1)
  have e0 : x - p = t * (q - p) := by rw [hle]; field_simp
  have ex : (1 - t) * p + t * q = x := by linear_combination -e0
  have fp : first g ≤ p := node_le h (Nat.zero_le _) (by omega)
  have lq : q ≤ last g := node_le h (by omega) (by omega)
  have := hp p q t fp (ha.trans h2) (h1.trans hb) lq l0 l1
  rw [ex] at this
  refine this.trans ?_
  have e2 : (1 - t) * p ^ 2 + t * q ^ 2 - x ^ 2 = t * (1 - t) * (q - p) ^ 2 := by
    rw [← ex]; ring
  rw [e2]
  have b1 : t * (1 - t) ≤ 1 / 4 := by nlinarith [sq_nonneg (1 - 2 * t)]
  have b2 : (q - p) ^ 2 ≤ H ^ 2 := pow_le_pow_left₀ hw.le hHj 2
  calc M / 2 * (t * (1 - t) * (q - p) ^ 2) ≤ M / 2 * (1 / 4 * H ^ 2) := by
        apply mul_le_mul_of_nonneg_left _ (by linarith)
        exact mul_le_mul b1 b2 (sq_nonneg _) (by norm_num)
    _ = M * H ^ 2 / 8 := by ring

end Interp.Codegen
