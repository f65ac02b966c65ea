import Verif.Model.BSplines
import Verif.Proofs.ExceptLemmas
import Verif.Proofs.Cubic1
import Mathlib.Algebra.BigOperators.Intervals
import Mathlib.Tactic.FieldSimp
import Mathlib.Tactic.Linarith
import Mathlib.Tactic.Ring

/-! The Cox–de Boor recursion. -/

set_option linter.unusedSectionVars false
set_option linter.unusedSimpArgs false

namespace Interp.BSplines
open Interp.Codegen

variable {F : Type} [Field F] [LinearOrder F] [IsStrictOrderedRing F] [FloorRing F]

/-- The recursion on an infinite sequence of knots. -/
def b (v : ℕ → F) : ℕ → ℕ → F → F
  | 0, i, x => if v i ≤ x ∧ x < v (i + 1) then 1 else 0
  | p + 1, i, x => (x - v i) / (v (i + (p + 1)) - v i) * b v p i x
      + (v (i + (p + 1) + 1) - x) / (v (i + (p + 1) + 1) - v (i + 1)) * b v p (i + 1) x

/-- The knots, prolonged by an arbitrary increasing sequence. -/
def ext (u : List F) (j : ℕ) : F :=
  if j < u.length then u.getD j 0 else u.getD (u.length - 1) 0 + ((j : F) - u.length + 1)

theorem ext_strictMono {u : List F} (h : u.Pairwise (· < ·)) : StrictMono (ext u) := by
  apply strictMono_nat_of_lt_succ
  intro j
  unfold ext
  by_cases h1 : j + 1 < u.length
  · rw [if_pos (by omega), if_pos h1, getD_of_lt u j (by omega), getD_of_lt u (j + 1) h1]
    exact List.pairwise_iff_getElem.mp h j (j + 1) _ _ (by omega)
  · rw [if_neg h1]
    by_cases h2 : j < u.length
    · rw [if_pos h2]
      have e : u.length = j + 1 := by omega
      rw [e]
      push_cast
      simp
    · rw [if_neg h2]
      push_cast
      linarith

theorem ext_of_lt {u : List F} {j : ℕ} (h : j < u.length) : ext u j = u[j] := by
  rw [ext, if_pos h, getD_of_lt u j h]

theorem pyIndex_ok {u : List F} {j : ℕ} {i : ℤ} (hi : i = j) (h : j < u.length) :
    pyIndex u i = .ok (ext u j) := by
  subst hi
  simp only [pyIndex, wrapIndex_of_lt (show (0 : ℤ) ≤ j by omega) (by exact_mod_cast h)]
  simp [ext_of_lt h, h]

theorem B_ok {u : List F} (hu : u.Pairwise (· < ·)) (x : F) : ∀ (p i : ℕ), i + p + 1 < u.length →
    B p u (i : ℤ) x = .ok (b (ext u) p i x)
  | 0, i, h => by
    simp only [B, B0, pyIndex_ok rfl (show i < u.length by omega),
      pyIndex_ok (show (i : ℤ) + 1 = ((i + 1 : ℕ) : ℤ) by push_cast; ring)
        (show i + 1 < u.length by omega), ok_bind, b]
    by_cases h1 : ext u i ≤ x
    · by_cases h2 : x < ext u (i + 1) <;> simp [h1, h2]
    · simp [h1]
  | p + 1, i, h => by
    have hm := ext_strictMono hu
    have d1 : (ext u (i + (p + 1)) - ext u i == 0) = false := by
      have := hm (show i < i + (p + 1) by omega)
      simp [sub_eq_zero, this.ne']
    have d2 : (ext u (i + (p + 1) + 1) - ext u (i + 1) == 0) = false := by
      have := hm (show i + 1 < i + (p + 1) + 1 by omega)
      simp [sub_eq_zero, this.ne']
    have i1 := B_ok hu x p i (by omega)
    have i2 := B_ok hu x p (i + 1) (by omega)
    rw [show ((i + 1 : ℕ) : ℤ) = (i : ℤ) + 1 by push_cast; ring] at i2
    simp only [B, pyIndex_ok rfl (show i < u.length by omega),
      pyIndex_ok (show (i : ℤ) + ((p + 1 : ℕ) : ℤ) = ((i + (p + 1) : ℕ) : ℤ) by push_cast; ring)
        (show i + (p + 1) < u.length by omega),
      pyIndex_ok (show (i : ℤ) + ((p + 1 : ℕ) : ℤ) + 1 = ((i + (p + 1) + 1 : ℕ) : ℤ) by
        push_cast; ring) (show i + (p + 1) + 1 < u.length by omega),
      pyIndex_ok (show (i : ℤ) + 1 = ((i + 1 : ℕ) : ℤ) by push_cast; ring)
        (show i + 1 < u.length by omega), ok_bind, pyDiv, d1, d2, i1, i2, Bool.false_eq_true,
      if_false, pure_eq_ok, b]

variable {v : ℕ → F}

theorem b_support (hv : StrictMono v) (x : F) : ∀ (p i : ℕ),
    ¬ (v i ≤ x ∧ x < v (i + p + 1)) → b v p i x = 0
  | 0, i, h => by rw [b, if_neg h]
  | p + 1, i, h => by
    have h1 : ¬ (v i ≤ x ∧ x < v (i + p + 1)) := fun ⟨a, c⟩ =>
      h ⟨a, c.trans (hv (by omega))⟩
    have h2 : ¬ (v (i + 1) ≤ x ∧ x < v (i + 1 + p + 1)) := fun ⟨a, c⟩ =>
      h ⟨(hv (show i < i + 1 by omega)).le.trans a, by
        rw [show i + (p + 1) + 1 = i + 1 + p + 1 by omega]; exact c⟩
    rw [b, b_support hv x p i h1, b_support hv x p (i + 1) h2]
    ring

theorem b_nonneg (hv : StrictMono v) (x : F) : ∀ (p i : ℕ), 0 ≤ b v p i x
  | 0, i => by rw [b]; split <;> norm_num
  | p + 1, i => by
    rw [b]
    refine add_nonneg ?_ ?_
    · by_cases h : v i ≤ x ∧ x < v (i + p + 1)
      · refine mul_nonneg (div_nonneg (by linarith [h.1]) ?_) (b_nonneg hv x p i)
        exact sub_nonneg.mpr (hv (by omega)).le
      · rw [b_support hv x p i h, mul_zero]
    · by_cases h : v (i + 1) ≤ x ∧ x < v (i + 1 + p + 1)
      · refine mul_nonneg (div_nonneg ?_ ?_) (b_nonneg hv x p (i + 1))
        · rw [show i + (p + 1) + 1 = i + 1 + p + 1 by omega]; linarith [h.2]
        · exact sub_nonneg.mpr (hv (by omega)).le
      · rw [b_support hv x p (i + 1) h, mul_zero]

open Finset in
theorem b_sum (hv : StrictMono v) (x : F) : ∀ (p m : ℕ), v p ≤ x → x < v m →
    ∑ i ∈ range m, b v p i x = 1
  | 0, m, h1, h2 => by
    -- the cell containing x
    obtain ⟨j, hj, h3, h4⟩ : ∃ j, j < m ∧ v j ≤ x ∧ x < v (j + 1) := by
      by_contra hc
      push Not at hc
      have : ∀ j, j ≤ m → v j ≤ x := by
        intro j
        induction j with
        | zero => intro _; exact h1
        | succ j ih => intro hj; exact hc j (by omega) (ih (by omega))
      exact absurd h2 (not_lt.mpr (this m le_rfl))
    rw [sum_eq_single j]
    · rw [b, if_pos ⟨h3, h4⟩]
    · intro i _ hij
      rw [b, if_neg]
      rintro ⟨h5, h6⟩
      rcases lt_or_gt_of_ne hij with h | h
      · have := hv.monotone (show i + 1 ≤ j by omega); linarith
      · have := hv.monotone (show j + 1 ≤ i by omega); linarith
    · intro hj'; exact absurd (mem_range.mpr hj) hj'
  | p + 1, m, h1, h2 => by
    have hpm : p + 1 < m := hv.lt_iff_lt.mp (lt_of_le_of_lt h1 h2)
    have ih := b_sum hv x p m ((hv (show p < p + 1 by omega)).le.trans h1) h2
    -- weights
    set w : ℕ → F := fun i => (x - v i) / (v (i + (p + 1)) - v i) with hw
    have hb : ∀ i, b v (p + 1) i x
        = w i * b v p i x + (1 - w (i + 1)) * b v p (i + 1) x := by
      intro i
      have h3 : v (i + (p + 1) + 1) - v (i + 1) ≠ 0 :=
        sub_ne_zero.mpr (hv (show i + 1 < i + (p + 1) + 1 by omega)).ne'
      have : (v (i + (p + 1) + 1) - x) / (v (i + (p + 1) + 1) - v (i + 1)) = 1 - w (i + 1) := by
        simp only [hw]
        rw [show i + 1 + (p + 1) = i + (p + 1) + 1 by omega]
        field_simp
        ring
      rw [b, this]
    have h0 : b v p 0 x = 0 := b_support hv x p 0 (by
      rintro ⟨_, h⟩
      rw [Nat.zero_add] at h
      exact absurd h1 (not_le.mpr h))
    have hm0 : b v p m x = 0 := b_support hv x p m (by rintro ⟨h, _⟩; linarith)
    have shift : ∀ f : ℕ → F, f 0 = 0 → f m = 0 →
        ∑ i ∈ range m, f (i + 1) = ∑ i ∈ range m, f i := by
      intro f f0 fm
      have e1 := sum_range_succ f m
      have e2 := sum_range_succ' f m
      rw [f0] at e2; rw [fm] at e1
      linarith
    simp only [hb, sum_add_distrib]
    rw [shift (fun i => (1 - w i) * b v p i x) (by rw [h0, mul_zero]) (by rw [hm0, mul_zero]),
      ← sum_add_distrib]
    refine (sum_congr rfl fun i _ => ?_).trans ih
    ring

/-- Cubic B-splines on equally spaced knots (`v i` for `i ≤ r + 4`): on the cell
`v (j + 3) ≤ x < v (j + 4)` they are the weights of the cell. -/
theorem b_cubic (hv : StrictMono v) {a h x : F} (hh : 0 < h) (r j : ℕ)
    (hr : ∀ i ≤ r + 4, v i = a + ((i : F) - 3) * h) (h1 : (j : F) ≤ (x - a) / h)
    (h2 : (x - a) / h < j + 1) :
    b v 3 r x = cubP j (fun i => if i = r then 1 else 0) ((x - a) / h) := by
  set u := (x - a) / h with hu
  have hx : x = a + u * h := by rw [hu]; field_simp; ring
  have hle : ∀ i ≤ r + 4, (v i ≤ x ↔ (i : F) - 3 ≤ u) := by
    intro i hi
    rw [hr i hi, hx, add_le_add_iff_left, mul_le_mul_iff_left₀ hh]
  have b0 : ∀ i ≤ r + 3, b v 0 i x = if i = j + 3 then 1 else 0 := by
    intro i hi
    rw [b]
    refine if_congr ?_ rfl rfl
    rw [← not_le, hle i (by omega), hle (i + 1) (by omega)]
    push_cast
    constructor
    · rintro ⟨h3, h4⟩
      have h5 : (i : F) < (j : F) + 4 := by linarith
      have h6 : (j : F) + 2 < (i : F) := by push Not at h4; linarith
      have h5' : i < j + 4 := by exact_mod_cast h5
      have h6' : j + 2 < i := by exact_mod_cast h6
      omega
    · rintro rfl
      push_cast
      constructor
      · linarith
      · push Not; linarith
  have hxj : ¬ (v (r + 4) ≤ x) ∨ (r : F) + 1 ≤ u := by
    rw [hle (r + 4) le_rfl]; push_cast
    by_cases h' : (r : F) + 1 ≤ u
    · exact Or.inr h'
    · left; intro h''; apply h'; linarith
  by_cases hin : j ≤ r ∧ r ≤ j + 3
  · have hne : h ≠ 0 := hh.ne'
    obtain ⟨e, he, hre⟩ : ∃ e, e ≤ 3 ∧ r = j + e := ⟨r - j, by omega, by omega⟩
    have step : ∀ q i : ℕ, i + q + 2 ≤ r + 4 → b v (q + 1) i x
        = ((u - ((i : F) - 3)) * b v q i x + ((i : F) + q - 1 - u) * b v q (i + 1) x)
          / ((q : F) + 1) := by
      intro q i hi
      have hq : ((q : F) + 1) ≠ 0 := by positivity
      rw [b, hr i (by omega), hr (i + (q + 1)) (by omega), hr (i + (q + 1) + 1) (by omega),
        hr (i + 1) (by omega)]
      have e1 : (x - (a + ((i : F) - 3) * h)) / (a + (((i + (q + 1) : ℕ) : F) - 3) * h
          - (a + ((i : F) - 3) * h)) = (u - ((i : F) - 3)) / ((q : F) + 1) := by
        rw [hx]; push_cast
        rw [show a + ((i : F) + (q + 1) - 3) * h - (a + ((i : F) - 3) * h) = ((q : F) + 1) * h by ring,
          show a + u * h - (a + ((i : F) - 3) * h) = (u - ((i : F) - 3)) * h by ring,
          mul_div_mul_right _ _ hne]
      have e2 : (a + (((i + (q + 1) + 1 : ℕ) : F) - 3) * h - x) / (a + (((i + (q + 1) + 1 : ℕ) : F) - 3) * h
          - (a + (((i + 1 : ℕ) : F) - 3) * h)) = ((i : F) + q - 1 - u) / ((q : F) + 1) := by
        rw [hx]; push_cast
        rw [show a + ((i : F) + (q + 1) + 1 - 3) * h - (a + ((i : F) + 1 - 3) * h)
            = ((q : F) + 1) * h by ring,
          show a + ((i : F) + (q + 1) + 1 - 3) * h - (a + u * h) = ((i : F) + q - 1 - u) * h by ring,
          mul_div_mul_right _ _ hne]
      rw [e1, e2]; ring
    rw [show b v 3 r x = _ from step 2 r (by omega), show b v 2 r x = _ from step 1 r (by omega),
      show b v 2 (r + 1) x = _ from step 1 (r + 1) (by omega),
      show b v 1 r x = _ from step 0 r (by omega),
      show b v 1 (r + 1) x = _ from step 0 (r + 1) (by omega),
      show b v 1 (r + 1 + 1) x = _ from step 0 (r + 1 + 1) (by omega),
      b0 r (by omega), b0 (r + 1) (by omega), b0 (r + 1 + 1) (by omega),
      b0 (r + 1 + 1 + 1) (by omega)]
    simp only [cubP]
    subst hre
    have : e = 0 ∨ e = 1 ∨ e = 2 ∨ e = 3 := by omega
    rcases this with rfl | rfl | rfl | rfl <;> simp <;> ring
  · rw [b_support hv x 3 r]
    · simp only [cubP]
      rw [if_neg (by omega), if_neg (by omega), if_neg (by omega), if_neg (by omega)]
      ring
    · rintro ⟨h3, h4⟩
      rw [hle r (by omega)] at h3
      rw [← not_le, hle (r + 3 + 1) (by omega)] at h4
      push_cast at h4
      push Not at h4
      have h5 : (r : F) < (j : F) + 4 := by linarith
      have h6 : (j : F) < (r : F) + 1 := by linarith
      have h5' : r < j + 4 := by exact_mod_cast h5
      have h6' : j < r + 1 := by exact_mod_cast h6
      omega

end Interp.BSplines
