import Verif.Spec.Hermite
import Verif.Proofs.Axis
import Mathlib.Tactic.FieldSimp
import Mathlib.Tactic.Linarith
import Mathlib.Tactic.Ring

/-! Closed form of the Hermite interpolant on each cell. -/

set_option linter.unusedSectionVars false
set_option linter.unusedSimpArgs false

namespace Interp.Hermite
open Interp.Codegen Interp.Spec

variable {F : Type} [Field F] [LinearOrder F] [IsStrictOrderedRing F] [FloorRing F]

/-- The cubic on one cell. -/
def herm (xk xkn pk pkn mk mkn x0 : F) : F :=
  let t := (x0 - xk) / (xkn - xk)
  pk * (2 * t ^ 3 - 3 * t ^ 2 + 1) + mk * (xkn - xk) * (t ^ 3 - 2 * t ^ 2 + t)
    + pkn * (-2 * t ^ 3 + 3 * t ^ 2) + mkn * (xkn - xk) * (t ^ 3 - t ^ 2)

theorem hermiteInterp_ok {xk xkn pk pkn mk mkn x0 : F} (h : xk < xkn) :
    hermiteInterp x0 xk xkn pk pkn mk mkn = .ok (herm xk xkn pk pkn mk mkn x0) := by
  have h0 : xkn - xk ≠ 0 := sub_ne_zero.mpr (ne_of_gt h)
  have hb : (xkn - xk == 0) = false := by simpa using h0
  simp only [hermiteInterp, pyDiv, hb, Bool.false_eq_true, if_false, pure_eq_ok, ok_bind,
    hermiteSplines, herm]
  push_cast
  congr 1; ring

theorem herm_left {xk xkn pk pkn mk mkn : F} : herm xk xkn pk pkn mk mkn xk = pk := by
  simp [herm]

theorem herm_right {xk xkn pk pkn mk mkn : F} (h : xk < xkn) :
    herm xk xkn pk pkn mk mkn xkn = pkn := by
  have h0 : xkn - xk ≠ 0 := sub_ne_zero.mpr (ne_of_gt h)
  simp only [herm, div_self h0]; ring

/-- A cubic polynomial. -/
def cubic (c0 c1 c2 c3 t : F) : F := c0 + c1 * t + c2 * t ^ 2 + c3 * t ^ 3
/-- Its derivative. -/
def cubic' (c1 c2 c3 t : F) : F := c1 + 2 * c2 * t + 3 * c3 * t ^ 2

theorem herm_cubic {xk xkn : F} (h : xk < xkn) (c0 c1 c2 c3 t : F) :
    herm xk xkn (cubic c0 c1 c2 c3 xk) (cubic c0 c1 c2 c3 xkn) (cubic' c1 c2 c3 xk)
      (cubic' c1 c2 c3 xkn) t = cubic c0 c1 c2 c3 t := by
  have h0 : xkn - xk ≠ 0 := sub_ne_zero.mpr (ne_of_gt h)
  obtain ⟨s, rfl⟩ : ∃ s, t = xk + s * (xkn - xk) := ⟨(t - xk) / (xkn - xk), by field_simp; ring⟩
  have : (xk + s * (xkn - xk) - xk) / (xkn - xk) = s := by field_simp; ring
  simp only [herm, cubic, cubic', this]
  ring

theorem foldl_pyMin (v : F) (l : List F) (h : ∀ w ∈ l, v ≤ w) : l.foldl pyMin v = v := by
  induction l with
  | nil => rfl
  | cons w l ih =>
    rw [List.foldl_cons, pyMin, if_neg (not_lt.mpr (h w (by simp)))]
    exact ih fun w hw => h w (by simp [hw])

theorem foldl_pyMax (v : F) (l : List F) (h : (v :: l).Pairwise (· < ·)) :
    l.foldl pyMax v = (v :: l).getLast (by simp) := by
  induction l generalizing v with
  | nil => rfl
  | cons w l ih =>
    have h1 : v < w := (List.pairwise_cons.mp h).1 w (by simp)
    rw [List.foldl_cons, pyMax, if_pos h1, ih w (List.pairwise_cons.mp h).2]
    simp

variable {x y yp : List F}

theorem npMin_ok (h : HermiteData x y yp) : npMin x = .ok (x.getD 0 0) := by
  obtain ⟨h2, hs, -, -⟩ := h
  cases x with
  | nil => simp at h2
  | cons v l =>
    simp only [npMin, pure_eq_ok]
    rw [foldl_pyMin v l fun w hw => ((List.pairwise_cons.mp hs).1 w hw).le]
    simp

theorem npMax_ok (h : HermiteData x y yp) : npMax x = .ok (x.getD (x.length - 1) 0) := by
  obtain ⟨h2, hs, -, -⟩ := h
  cases x with
  | nil => simp at h2
  | cons v l =>
    simp only [npMax, pure_eq_ok]
    rw [foldl_pyMax v l hs, List.getLast_eq_getElem]
    simp [List.getD_eq_getElem?_getD]

theorem x_lt (h : HermiteData x y yp) {i j : ℕ} (hij : i < j) (hj : j < x.length) :
    x.getD i 0 < x.getD j 0 := by
  rw [getD_of_lt x i (by omega), getD_of_lt x j hj]
  exact List.pairwise_iff_getElem.mp h.sorted i j _ _ hij

theorem x_le (h : HermiteData x y yp) {i j : ℕ} (hij : i ≤ j) (hj : j < x.length) :
    x.getD i 0 ≤ x.getD j 0 := by
  rcases hij.eq_or_lt with rfl | h'
  · exact le_rfl
  · exact (x_lt h h' hj).le

/-- The cubic on cell `j`. -/
def cellVal (x y yp : List F) (j : ℕ) (t : F) : F :=
  herm (x.getD j 0) (x.getD (j + 1) 0) (y.getD j 0) (y.getD (j + 1) 0) (yp.getD j 0)
    (yp.getD (j + 1) 0) t

theorem hermite_outside_left (h : HermiteData x y yp) {t : F} (ht : t ≤ x.getD 0 0) :
    hermiteInterpolation t x y yp = .ok (y.getD 0 0) := by
  have h2 := h.two
  have hy := h.values
  simp only [hermiteInterpolation, npMin_ok h, ok_bind, if_pos ht]
  rw [listRead_getD y 0 0 le_rfl (by omega)]; rfl

theorem listRead_last (l : List F) (h : 0 < l.length) :
    listRead l (-1) = .ok (l.getD (l.length - 1) 0) := by
  have e : wrapIndex l.length (-1) = some (l.length - 1) := by
    rw [wrapIndex, if_neg (by omega), if_pos (by omega)]
    congr 1; omega
  have hl : l.length - 1 < l.length := by omega
  simp [listRead, e, hl, List.getD_eq_getElem?_getD]

theorem hermite_outside_right (h : HermiteData x y yp) {t : F}
    (ht : x.getD (x.length - 1) 0 ≤ t) :
    hermiteInterpolation t x y yp = .ok (y.getD (x.length - 1) 0) := by
  have h2 := h.two
  have hy := h.values
  have h1 := x_lt h (i := 0) (j := x.length - 1) (by omega) (by omega)
  simp only [hermiteInterpolation, npMin_ok h, npMax_ok h, ok_bind]
  rw [if_neg (not_le.mpr (by linarith)), if_pos ht, listRead_last y (by omega), hy]

theorem hermite_open (h : HermiteData x y yp) {t : F} {j : ℕ} (hj : j + 1 < x.length)
    (h1 : x.getD j 0 < t) (h2 : t ≤ x.getD (j + 1) 0)
    (h3 : t < x.getD (x.length - 1) 0) :
    hermiteInterpolation t x y yp = .ok (cellVal x y yp j t) := by
  have hx0 := x_le h (i := 0) (j := j) (by omega) (by omega)
  have hs : searchsorted x t = j + 1 := by
    obtain ⟨hle, hlt, hge⟩ := searchsorted_spec x h.sorted t
    have hle' : searchsorted x t ≤ j + 1 := by
      by_contra hc
      have := hlt (j + 1) hj (by omega)
      rw [← getD_of_lt x (j + 1) hj] at this
      exact absurd h2 (not_le.mpr this)
    have hge' : j + 1 ≤ searchsorted x t := by
      by_contra hc
      have := hge j (by omega) (by omega)
      rw [← getD_of_lt x j (by omega)] at this
      exact absurd h1 (not_lt.mpr this)
    omega
  have hy := h.values
  have hyp := h.tangents
  simp only [hermiteInterpolation, npMin_ok h, npMax_ok h, ok_bind]
  rw [if_neg (not_le.mpr (by linarith)), if_neg (not_le.mpr h3), hs]
  have e : ((j + 1 : ℕ) : ℤ) - 1 = (j : ℤ) := by push_cast; ring
  rw [e]
  simp only [listRead_getD x (j : ℤ) 0 (by omega) (by omega),
    listRead_getD x ((j + 1 : ℕ) : ℤ) 0 (by omega) (by omega),
    listRead_getD y (j : ℤ) 0 (by omega) (by omega),
    listRead_getD y ((j + 1 : ℕ) : ℤ) 0 (by omega) (by omega),
    listRead_getD yp (j : ℤ) 0 (by omega) (by omega),
    listRead_getD yp ((j + 1 : ℕ) : ℤ) 0 (by omega) (by omega), ok_bind, Int.toNat_natCast]
  exact hermiteInterp_ok (x_lt h (by omega) hj)

theorem hermite_node (h : HermiteData x y yp) {j : ℕ} (hj : j < x.length) :
    hermiteInterpolation (x.getD j 0) x y yp = .ok (y.getD j 0) := by
  have h2 := h.two
  rcases Nat.eq_zero_or_pos j with rfl | hp
  · exact hermite_outside_left h le_rfl
  · by_cases hl : j = x.length - 1
    · subst hl; exact hermite_outside_right h le_rfl
    · obtain ⟨i, rfl⟩ : ∃ i, j = i + 1 := ⟨j - 1, by omega⟩
      rw [hermite_open h hj (x_lt h (by omega) hj) le_rfl (x_lt h (by omega) (by omega))]
      exact congrArg _ (herm_right (x_lt h (by omega) hj))

/-- The interpolant is the cubic of the cell on the closed cell. -/
theorem hermite_closed (h : HermiteData x y yp) {t : F} {j : ℕ} (hj : j + 1 < x.length)
    (h1 : x.getD j 0 ≤ t) (h2 : t ≤ x.getD (j + 1) 0) :
    hermiteInterpolation t x y yp = .ok (cellVal x y yp j t) := by
  rcases h1.eq_or_lt with rfl | h1
  · rw [hermite_node h (by omega)]
    exact congrArg _ herm_left.symm
  · by_cases h3 : t < x.getD (x.length - 1) 0
    · exact hermite_open h hj h1 h2 h3
    · rw [hermite_outside_right h (not_lt.mp h3)]
      have h4 := x_le h (i := j + 1) (j := x.length - 1) (by omega) (by omega)
      have ht : t = x.getD (j + 1) 0 := le_antisymm h2 (h4.trans (not_lt.mp h3))
      have hj' : j + 1 = x.length - 1 := by
        by_contra hc
        have := x_lt h (i := j + 1) (j := x.length - 1) (by omega) (by omega)
        rw [← ht] at this
        exact h3 this
      rw [ht, cellVal, herm_right (x_lt h (by omega) hj), hj']

/-- Every point of the interval is in some closed cell. -/
theorem exists_cell (h : HermiteData x y yp) {t : F} (h1 : x.getD 0 0 ≤ t)
    (h2 : t ≤ x.getD (x.length - 1) 0) :
    ∃ j, j + 1 < x.length ∧ x.getD j 0 ≤ t ∧ t ≤ x.getD (j + 1) 0 := by
  have h3 := h.two
  by_contra hc
  push Not at hc
  have : ∀ j, j < x.length → x.getD j 0 ≤ t := by
    intro j
    induction j with
    | zero => intro _; exact h1
    | succ j ih => intro hj; exact (hc j hj (ih (by omega))).le
  have h4 := hc (x.length - 2) (by omega) (this _ (by omega))
  rw [show x.length - 2 + 1 = x.length - 1 by omega] at h4
  exact absurd h2 (not_le.mpr h4)

end Interp.Hermite
