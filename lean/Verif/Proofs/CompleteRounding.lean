import Verif.Props.CompletePoly
import Verif.Proofs.Rounding

/-! Propagation of rounding errors through the products of the complete polynomials. -/

set_option linter.unusedSectionVars false

namespace Interp.CompletePoly
open Interp.Codegen Interp.Spec

variable {R : Rounding}

/-- Relative error made by `k` roundings. -/
noncomputable def grow (R : Rounding) (k : ℕ) : ℝ := (1 + R.u) ^ k - 1

theorem grow_zero : grow R 0 = 0 := by simp [grow]

theorem grow_mono {j k : ℕ} (h : j ≤ k) : grow R j ≤ grow R k := by
  have hu := Rounding.u_nonneg R
  have : (1 + R.u) ^ j ≤ (1 + R.u) ^ k := pow_le_pow_right₀ (by linarith) h
  unfold grow; linarith

theorem grow_nonneg (k : ℕ) : 0 ≤ grow R k := by
  rw [← grow_zero (R := R)]; exact grow_mono (Nat.zero_le k)

theorem near_mul {j k : ℕ} {x x' : ℝ} {y y' : Fl R} (h : Near (grow R j) x y.val)
    (h' : Near (grow R k) x' y'.val) : Near (grow R (j + k + 1)) (x * x') (y * y').val := by
  refine (h.mul h').rnd.mono (le_of_eq ?_)
  simp only [grow, pow_add, pow_one]
  ring

theorem near_exact (y : Fl R) : Near (grow R 0) y.val y.val := by
  rw [grow_zero]; exact Near.refl _

theorem near_foldl (l : List (Fl R)) : ∀ (k : ℕ) (x : ℝ) (y : Fl R), Near (grow R k) x y.val →
    Near (grow R (k + l.length)) ((l.map Fl.val).foldl (· * ·) x) (l.foldl (· * ·) y).val := by
  induction l with
  | nil => intro k x y h; exact h
  | cons a l ih =>
    intro k x y h
    have := ih (k + 1) (x * a.val) (y * a) (near_mul h (near_exact a))
    rw [List.length_cons, show k + (l.length + 1) = k + 1 + l.length by omega]
    exact this

theorem near_mono (z : ℕ → Fl R) (l : List ℕ) :
    Near (grow R (l.length - 1)) (mono (fun i => (z i).val) l) (mono z l).val := by
  cases l with
  | nil => exact near_exact 1
  | cons i l =>
    have := near_foldl (l.map z) 0 (z i).val (z i) (near_exact _)
    rw [List.map_map, List.foldl_map, List.foldl_map, List.length_map, Nat.zero_add] at this
    exact this

variable [Pow (Fl R) ℕ]

theorem near_dval (hp : ∀ (x : Fl R) (n : ℕ), Near (grow R n) (x.val ^ n) (x ^ n).val) (z : ℕ → Fl R) (der c : ℕ) (ts : List (Fl R)) :
    Near (grow R (ts.length + c)) (dval (fun i => (z i).val) der c (ts.map Fl.val)) (dval z der c ts).val := by
  unfold dval
  by_cases h : 0 < c
  · rw [if_pos h, if_pos h]
    have h1 := near_foldl ts 0 ((c : ℕ) : ℝ) ((c : ℕ) : Fl R) (near_exact _)
    have h2 : Near (grow R (c - 1)) ((z der).val ^ (c - 1)) (z der ^ (c - 1)).val := hp _ _
    have := near_mul h1 h2
    rw [show 0 + ts.length + (c - 1) + 1 = ts.length + c by omega] at this
    exact this
  · rw [if_neg h, if_neg h]
    exact (near_exact (0 : Fl R)).mono (grow_mono (Nat.zero_le _))

theorem near_dentry (hp : ∀ (x : Fl R) (n : ℕ), Near (grow R n) (x.val ^ n) (x ^ n).val) (z : ℕ → Fl R) (der : ℕ) : ∀ (l : List ℕ) (c : ℕ) (ts : List (Fl R)),
    Near (grow R (ts.length + c + 2 * l.length)) (dentry (fun i => (z i).val) der c (ts.map Fl.val) l) (dentry z der c ts l).val
  | [], c, ts => by simpa [dentry] using near_dval hp z der c ts
  | i :: l, c, ts => by
    have e1 : (stepP (fun i => (z i).val) der i c).1 = (stepP z der i c).1 := by
      unfold stepP; split <;> rfl
    have e2 : ts.map Fl.val ++ [(stepP (fun i => (z i).val) der i c).2]
        = (ts ++ [(stepP z der i c).2]).map Fl.val := by
      unfold stepP; split <;> simp [Fl.one_val]
    have h := near_dentry hp z der l (stepP z der i c).1 (ts ++ [(stepP z der i c).2])
    rw [dentry, dentry, e1, e2]
    refine h.mono (grow_mono ?_)
    have h3 : (stepP z der i c).1 ≤ c + 1 := by unfold stepP; split <;> simp
    simp only [List.length_append, List.length_cons, List.length_nil]
    omega

theorem near_dmono (hp : ∀ (x : Fl R) (n : ℕ), Near (grow R n) (x.val ^ n) (x ^ n).val) (z : ℕ → Fl R) (der : ℕ) (l : List ℕ) :
    Near (grow R (2 * l.length)) (dmono (fun i => (z i).val) der l) (dmono z der l).val := by
  rcases l with _ | ⟨i, _ | ⟨j, l⟩⟩
  · exact near_exact 0
  · by_cases hi : i = der
    · simp only [dmono, if_pos hi]
      exact (near_exact (1 : Fl R)).mono (grow_mono (Nat.zero_le _))
    · simp only [dmono, if_neg hi]
      exact (near_exact (0 : Fl R)).mono (grow_mono (Nat.zero_le _))
  · rw [dmono, dmono]
    simpa using near_dentry hp z der (i :: j :: l) 0 []

/-- The values stored for rows of at most one factor are exact. -/
theorem dmono_exact (z : ℕ → Fl R) (der : ℕ) (l : List ℕ) (h : l.length ≤ 1) :
    (dmono z der l).val = dmono (fun i => (z i).val) der l := by
  rcases l with _ | ⟨i, _ | ⟨j, l⟩⟩
  · rfl
  · by_cases hi : i = der
    · simp only [dmono, if_pos hi, Fl.one_val]
    · simp only [dmono, if_neg hi, Fl.zero_val]
  · simp at h

end Interp.CompletePoly
