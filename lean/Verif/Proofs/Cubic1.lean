import Verif.Proofs.LinearMulti
import Mathlib.Tactic.Linarith
import Mathlib.Tactic.FieldSimp
import Mathlib.Tactic.Ring
import Mathlib.Tactic.IntervalCases

/-! Cubic splines along one uniform axis, exact arithmetic. -/

set_option linter.unusedSectionVars false
set_option linter.unusedSimpArgs false

namespace Interp.Codegen
open Interp.Ref Interp.Spec

variable {F : Type} [Field F] [LinearOrder F] [IsStrictOrderedRing F] [FloorRing F]

/-- Combination of the coefficients along one axis. -/
def axisOp (k l : ℕ) (g : GridDim F) (x : F) (c : ℕ → F) : F :=
  ((weights k l g x).mapIdx fun j w => w * c ((cell g x).toNat + j)).sum

theorem evalAt_cons (k l : ℕ) (g : GridDim F) (G : List (GridDim F)) (oo : List ℕ) (x : F)
    (xs : List F) (c : List ℕ → F) :
    evalAt k (g :: G) (l :: oo) (x :: xs) c
      = axisOp k l g x (fun j => evalAt k G oo xs (fun r => c (j :: r))) := by
  simp [evalAt, axisOp, sumL_eq_sum]

theorem axisOp_one (g : GridDim F) (x : F) (c : ℕ → F) : axisOp 1 0 g x c = lin1 g x c := by
  simp [axisOp, weights, lin1]

/-- Position of `x` in units of the spacing. -/
def upos (a b : F) (n : ℤ) (x : F) : F := (x - a) * (((n : F) - 1) / (b - a))

/-- The cubic polynomial on cell `j`, at position `u`. -/
def cubP (j : ℕ) (c : ℕ → F) (u : F) : F :=
  let t := u - j;
  (1 - t) ^ 3 / 6 * c j + (3 * t ^ 3 - 6 * t ^ 2 + 4) / 6 * c (j + 1)
    + (-3 * t ^ 3 + 3 * t ^ 2 + 3 * t + 1) / 6 * c (j + 2) + t ^ 3 / 6 * c (j + 3)

/-- Its derivative with respect to `u`. -/
def cubP' (j : ℕ) (c : ℕ → F) (u : F) : F :=
  let t := u - j;
  -(1 - t) ^ 2 / 2 * c j + (3 * t ^ 2 - 4 * t) / 2 * c (j + 1)
    + (-3 * t ^ 2 + 2 * t + 1) / 2 * c (j + 2) + t ^ 2 / 2 * c (j + 3)

/-- Its second derivative. -/
def cubP'' (j : ℕ) (c : ℕ → F) (u : F) : F :=
  let t := u - j;
  (1 - t) * c j + (3 * t - 2) * c (j + 1) + (-3 * t + 1) * c (j + 2) + t * c (j + 3)

/-- The value and slope at node number `j`. -/
def cubV (j : ℕ) (c : ℕ → F) : F := (c j + 4 * c (j + 1) + c (j + 2)) / 6
def cubS (j : ℕ) (c : ℕ → F) : F := (c (j + 2) - c j) / 2

theorem cubP_left (j : ℕ) (c : ℕ → F) : cubP j c j = cubV j c := by
  simp only [cubP, cubV]; ring

theorem cubP_right (j : ℕ) (c : ℕ → F) : cubP j c ((j : F) + 1) = cubV (j + 1) c := by
  simp only [cubP, cubV, show j + 1 + 1 = j + 2 from rfl, show j + 1 + 2 = j + 3 from rfl]; ring

theorem cubP'_left (j : ℕ) (c : ℕ → F) : cubP' j c j = cubS j c := by
  simp only [cubP', cubS]; ring

theorem cubP'_right (j : ℕ) (c : ℕ → F) : cubP' j c ((j : F) + 1) = cubS (j + 1) c := by
  simp only [cubP', cubS, show j + 1 + 2 = j + 3 from rfl]; ring

theorem cubP''_left (j : ℕ) (c : ℕ → F) : cubP'' j c j = c j - 2 * c (j + 1) + c (j + 2) := by
  simp only [cubP'']; ring

theorem cubP''_right (j : ℕ) (c : ℕ → F) :
    cubP'' j c ((j : F) + 1) = c (j + 1) - 2 * c (j + 2) + c (j + 3) := by
  simp only [cubP'']; ring

/-- The code in terms of the cell and the barycentric coordinate. -/
theorem axisOp_three (l : ℕ) (a b : F) (n : ℤ) (x : F) (c : ℕ → F) (j : ℕ)
    (hj : cell (.uniform a b n) x = j) :
    axisOp 3 l (.uniform a b n) x c
      = blend3Vals l (upos a b n x - j) (((n : F) - 1) / (b - a)) 0 * c j
      + blend3Vals l (upos a b n x - j) (((n : F) - 1) / (b - a)) 1 * c (j + 1)
      + blend3Vals l (upos a b n x - j) (((n : F) - 1) / (b - a)) 2 * c (j + 2)
      + blend3Vals l (upos a b n x - j) (((n : F) - 1) / (b - a)) 3 * c (j + 3) := by
  have hlam : lam (.uniform a b n) x = upos a b n x - j := by
    simp only [lam, hj, upos]; push_cast; rfl
  simp only [axisOp, weights, hlam, hj, delta]
  simp [List.range_succ, List.mapIdx_append]
  ring

theorem three_ops (lam' d : F) (c0 c1 c2 c3 : F) :
    (blend3Vals 0 lam' d 0 * c0 + blend3Vals 0 lam' d 1 * c1 + blend3Vals 0 lam' d 2 * c2
      + blend3Vals 0 lam' d 3 * c3 =
      if lam' < 0 then (c0 + 4 * c1 + c2) / 6 + lam' * ((c2 - c0) / 2)
      else if 1 < lam' then (c1 + 4 * c2 + c3) / 6 + (lam' - 1) * ((c3 - c1) / 2)
      else (1 - lam') ^ 3 / 6 * c0 + (3 * lam' ^ 3 - 6 * lam' ^ 2 + 4) / 6 * c1
        + (-3 * lam' ^ 3 + 3 * lam' ^ 2 + 3 * lam' + 1) / 6 * c2 + lam' ^ 3 / 6 * c3) ∧
    (blend3Vals 1 lam' d 0 * c0 + blend3Vals 1 lam' d 1 * c1 + blend3Vals 1 lam' d 2 * c2
      + blend3Vals 1 lam' d 3 * c3 =
      (if lam' < 0 then (c2 - c0) / 2
      else if 1 < lam' then (c3 - c1) / 2
      else -(1 - lam') ^ 2 / 2 * c0 + (3 * lam' ^ 2 - 4 * lam') / 2 * c1
        + (-3 * lam' ^ 2 + 2 * lam' + 1) / 2 * c2 + lam' ^ 2 / 2 * c3) * d) := by
  by_cases h1 : lam' < 0
  · simp only [if_pos h1, blend3Vals, Ad, dAd]
    norm_num
    constructor <;> ring
  · by_cases h2 : 1 < lam'
    · simp only [if_neg h1, if_pos h2, blend3Vals, Ad, dAd]
      norm_num
      constructor <;> ring
    · simp only [if_neg h1, if_neg h2, blend3Vals, Ad, dAd]
      norm_num
      constructor <;> ring

section
variable {a b : F} {n : ℤ}

theorem cell_left (h : ValidAxis (.uniform a b n)) {x : F} (hx : upos a b n x ≤ 0) :
    cell (.uniform a b n) x = (0 : ℕ) := by
  have h2 : 2 ≤ n := h.2
  have hc : cell (.uniform a b n) x = max (min ⌊upos a b n x⌋ (n - 2)) 0 := by
    rw [← pyMinZ_eq, ← pyMaxZ_eq]; rfl
  have : ⌊upos a b n x⌋ ≤ 0 := by
    have := Int.floor_le (upos a b n x)
    have h3 : ((⌊upos a b n x⌋ : ℤ) : F) ≤ ((0 : ℤ) : F) := by push_cast; linarith
    exact_mod_cast h3
  rw [hc]
  push_cast
  omega

theorem cell_mid (h : ValidAxis (.uniform a b n)) {x : F} {j : ℕ} (hj : (j : ℤ) + 2 ≤ n)
    (h1 : (j : F) ≤ upos a b n x) (h2 : upos a b n x < j + 1) :
    cell (.uniform a b n) x = (j : ℕ) := by
  have hc : cell (.uniform a b n) x = max (min ⌊upos a b n x⌋ (n - 2)) 0 := by
    rw [← pyMinZ_eq, ← pyMaxZ_eq]; rfl
  have : ⌊upos a b n x⌋ = j := by
    rw [Int.floor_eq_iff]; push_cast; exact ⟨h1, h2⟩
  rw [hc, this]
  omega

theorem cell_right (h : ValidAxis (.uniform a b n)) {x : F} {j : ℕ} (hj : (j : ℤ) + 2 = n)
    (h1 : (j : F) ≤ upos a b n x) : cell (.uniform a b n) x = (j : ℕ) := by
  have hc : cell (.uniform a b n) x = max (min ⌊upos a b n x⌋ (n - 2)) 0 := by
    rw [← pyMinZ_eq, ← pyMaxZ_eq]; rfl
  have : (j : ℤ) ≤ ⌊upos a b n x⌋ := by
    rw [Int.le_floor]; push_cast; exact h1
  rw [hc]
  omega

/-- Left of the grid (first node included): the tangent line. -/
theorem cubic_left (h : ValidAxis (.uniform a b n)) {x : F} (hx : upos a b n x ≤ 0) (c : ℕ → F) :
    axisOp 3 0 (.uniform a b n) x c = cubV 0 c + upos a b n x * cubS 0 c ∧
    axisOp 3 1 (.uniform a b n) x c = cubS 0 c * (((n : F) - 1) / (b - a)) := by
  have hc := cell_left h hx
  rw [axisOp_three 0 a b n x c 0 hc, axisOp_three 1 a b n x c 0 hc, (three_ops _ _ _ _ _ _).1,
    (three_ops _ _ _ _ _ _).2]
  rcases lt_or_eq_of_le hx with h' | h'
  · rw [if_pos (by simpa using h'), if_pos (by simpa using h')]
    simp [cubV, cubS]
  · rw [h']
    have e : ¬ ((1 : F) < 0) := by norm_num
    simp [cubV, cubS, e]
    constructor
    · ring
    · left; ring

/-- On cell `j` (both ends included): the cubic polynomial of the cell. -/
theorem cubic_mid (h : ValidAxis (.uniform a b n)) {x : F} {j : ℕ} (hj : (j : ℤ) + 2 ≤ n)
    (h1 : (j : F) ≤ upos a b n x) (h2 : upos a b n x ≤ j + 1) (c : ℕ → F) :
    axisOp 3 0 (.uniform a b n) x c = cubP j c (upos a b n x) ∧
    axisOp 3 1 (.uniform a b n) x c = cubP' j c (upos a b n x) * (((n : F) - 1) / (b - a)) := by
  have inside : ∀ i : ℕ, cell (.uniform a b n) x = i → (i : F) ≤ upos a b n x →
      upos a b n x ≤ i + 1 → axisOp 3 0 (.uniform a b n) x c = cubP i c (upos a b n x) ∧
      axisOp 3 1 (.uniform a b n) x c
        = cubP' i c (upos a b n x) * (((n : F) - 1) / (b - a)) := by
    intro i hc h1 h2
    rw [axisOp_three 0 a b n x c i hc, axisOp_three 1 a b n x c i hc, (three_ops _ _ _ _ _ _).1,
      (three_ops _ _ _ _ _ _).2]
    have e1 : ¬ (upos a b n x - i < 0) := by linarith
    have e2 : ¬ (1 < upos a b n x - i) := by linarith
    rw [if_neg e1, if_neg e2, if_neg e1, if_neg e2]
    exact ⟨rfl, rfl⟩
  rcases lt_or_eq_of_le h2 with h' | h'
  · exact inside j (cell_mid h hj h1 h') h1 h2
  · by_cases hl : (j : ℤ) + 2 = n
    · exact inside j (cell_right h hl h1) h1 h2
    · have hh : (((j + 1 : ℕ) : ℕ) : F) = upos a b n x := by push_cast; exact h'.symm
      obtain ⟨r1, r2⟩ := inside (j + 1) (cell_mid h (by push_cast; omega) hh.le (by rw [hh]; linarith))
        hh.le (by rw [hh]; linarith)
      rw [r1, r2]
      rw [← hh, cubP_left, cubP'_left]
      have hh' : ((j + 1 : ℕ) : F) = (j : F) + 1 := by push_cast; rfl
      rw [hh', cubP_right, cubP'_right]
      exact ⟨rfl, rfl⟩

/-- Right of the grid (last node included): the tangent line. -/
theorem cubic_right (h : ValidAxis (.uniform a b n)) {x : F} {j : ℕ} (hj : (j : ℤ) + 2 = n)
    (h1 : (j : F) + 1 ≤ upos a b n x) (c : ℕ → F) :
    axisOp 3 0 (.uniform a b n) x c
      = cubV (j + 1) c + (upos a b n x - (j + 1)) * cubS (j + 1) c ∧
    axisOp 3 1 (.uniform a b n) x c = cubS (j + 1) c * (((n : F) - 1) / (b - a)) := by
  rcases lt_or_eq_of_le h1 with h' | h'
  · have hc := cell_right h hj (by linarith : (j : F) ≤ upos a b n x)
    rw [axisOp_three 0 a b n x c j hc, axisOp_three 1 a b n x c j hc, (three_ops _ _ _ _ _ _).1,
      (three_ops _ _ _ _ _ _).2]
    have e1 : ¬ (upos a b n x - j < 0) := by linarith
    have e2 : 1 < upos a b n x - j := by linarith
    rw [if_neg e1, if_pos e2, if_neg e1, if_pos e2]
    simp only [cubV, cubS, show j + 1 + 1 = j + 2 from rfl, show j + 1 + 2 = j + 3 from rfl]
    exact ⟨by ring, trivial⟩
  · obtain ⟨r1, r2⟩ := cubic_mid h hj.le (by linarith : (j : F) ≤ upos a b n x) h'.ge c
    rw [r1, r2, ← h', cubP_right, cubP'_right]
    exact ⟨by ring, rfl⟩

end

end Interp.Codegen
