import Verif.Proofs.SmolGrid
import Verif.Proofs.Rounding

/-!
# The Chebyshev recursion in rounded arithmetic

The errors satisfy the same recursion as the polynomials, so the error made in one step reaches the later ones
multiplied by a polynomial of the second kind.
-/

set_option linter.unusedSectionVars false

namespace Interp.Smolyak
open Interp.Spec

/-! ### The recursion -/

/-- Polynomials of the second kind, shifted by one. -/
def shiftU (x : ℝ) : ℕ → ℝ
  | 0 => 0
  | 1 => 1
  | n + 2 => 2 * x * shiftU x (n + 1) - shiftU x n

theorem shiftU_step (t : ℝ) : ∀ n : ℕ,
    shiftU (Real.cos t) (n + 1) - Real.cos t * shiftU (Real.cos t) n = Real.cos (n * t)
  | 0 => by simp [shiftU]
  | 1 => by simp [shiftU]; ring
  | n + 2 => by
    have h1 := shiftU_step t n
    have h2 := shiftU_step t (n + 1)
    have e : Real.cos (((n + 2 : ℕ) : ℝ) * t) = 2 * Real.cos t * Real.cos (((n + 1 : ℕ) : ℝ) * t) - Real.cos (n * t) := by
      have a1 : ((n + 2 : ℕ) : ℝ) * t = ((n + 1 : ℕ) : ℝ) * t + t := by push_cast; ring
      have a2 : (n : ℝ) * t = ((n + 1 : ℕ) : ℝ) * t - t := by push_cast; ring
      rw [a1, a2, Real.cos_add, Real.cos_sub]; ring
    rw [e, ← h1, ← h2]
    simp only [shiftU]
    ring

theorem shiftU_le {x : ℝ} (hx : |x| ≤ 1) : ∀ n : ℕ, |shiftU x n| ≤ n
  | 0 => by simp [shiftU]
  | n + 1 => by
    have ih := shiftU_le hx n
    obtain ⟨h1, h2⟩ := abs_le.1 hx
    have e := shiftU_step (Real.arccos x) n
    rw [Real.cos_arccos h1 h2] at e
    have e' : shiftU x (n + 1) = x * shiftU x n + Real.cos (n * Real.arccos x) := by linarith
    rw [e']
    refine (abs_add_le _ _).trans ?_
    rw [abs_mul]
    have a := Real.abs_cos_le_one (n * Real.arccos x)
    have b : |x| * |shiftU x n| ≤ 1 * n := mul_le_mul hx ih (abs_nonneg _) zero_le_one
    push_cast
    linarith

/-- Solution of the recursion with a right-hand side. -/
theorem recursion_sum {x : ℝ} {e δ : ℕ → ℝ} (h0 : e 0 = 0) (h1 : e 1 = δ 0)
    (hr : ∀ n, e (n + 2) = 2 * x * e (n + 1) - e n + δ (n + 1)) :
    ∀ n, e n = ∑ k ∈ Finset.range n, δ k * shiftU x (n - k)
  | 0 => by simp [h0]
  | 1 => by simp [h1, shiftU]
  | n + 2 => by
    rw [hr, recursion_sum h0 h1 hr (n + 1), recursion_sum h0 h1 hr n, Finset.sum_range_succ _ (n + 1)]
    have a1 : ∑ k ∈ Finset.range n, δ k * shiftU x (n - k) = ∑ k ∈ Finset.range (n + 1), δ k * shiftU x (n - k) := by
      rw [Finset.sum_range_succ, Nat.sub_self, shiftU, mul_zero, add_zero]
    have a2 : n + 2 - (n + 1) = 1 := by omega
    rw [a1, a2, shiftU, mul_one, Finset.mul_sum, ← Finset.sum_sub_distrib]
    congr 1
    refine Finset.sum_congr rfl fun k hk => ?_
    have hk' := Finset.mem_range.1 hk
    rw [show n + 2 - k = (n - k) + 2 by omega, show n + 1 - k = (n - k) + 1 by omega, shiftU]
    ring

theorem sum_down (n : ℕ) : ∑ k ∈ Finset.range n, ((n - k : ℕ) : ℝ) = n * (n + 1) / 2 := by
  rw [← Finset.sum_range_reflect]
  have : ∀ j ∈ Finset.range n, ((n - (n - 1 - j) : ℕ) : ℝ) = (j : ℝ) + 1 := by
    intro j hj
    have := Finset.mem_range.1 hj
    rw [show n - (n - 1 - j) = j + 1 by omega]; push_cast; ring
  rw [Finset.sum_congr rfl this]
  clear this
  induction n with
  | zero => simp
  | succ n ih => rw [Finset.sum_range_succ, ih]; push_cast; ring

/-- Size of the solution. -/
theorem recursion_le {x : ℝ} (hx : |x| ≤ 1) {e δ : ℕ → ℝ} {D : ℝ} {n : ℕ} (h0 : e 0 = 0) (h1 : e 1 = δ 0)
    (hr : ∀ n, e (n + 2) = 2 * x * e (n + 1) - e n + δ (n + 1)) (hD : ∀ k < n, |δ k| ≤ D) :
    |e n| ≤ D * (n * (n + 1) / 2) := by
  rw [recursion_sum h0 h1 hr n, ← sum_down, Finset.mul_sum]
  refine (Finset.abs_sum_le_sum_abs _ _).trans (Finset.sum_le_sum fun k hk => ?_)
  rw [abs_mul]
  have hd := hD k (Finset.mem_range.1 hk)
  exact mul_le_mul hd (shiftU_le hx _) (abs_nonneg _) ((abs_nonneg _).trans hd)

/-! ### One step -/

variable {R : Rounding}

theorem step_close (hu : R.u ≤ 1 / 100) {x t1 t0 M : ℝ} (hx : |x| ≤ 101 / 100) (h1 : |t1| ≤ 11 / 10 * M)
    (h0 : |t0| ≤ 11 / 10 * M) :
    |R.rnd (R.rnd (R.rnd (2 * x) * t1) - t0) - (2 * x * t1 - t0)| ≤ 8 * R.u * M := by
  have u0 := Codegen.Rounding.u_nonneg R
  have M0 : 0 ≤ M := by linarith [abs_nonneg t1]
  have a1 : |R.rnd (2 * x) - 2 * x| ≤ 2.02 * R.u := by
    refine (R.err _).trans ?_
    rw [abs_mul, abs_two]; nlinarith
  have a2 : |R.rnd (2 * x)| ≤ 2.02 * (1 + R.u) := by
    have := abs_add_le (R.rnd (2 * x) - 2 * x) (2 * x)
    rw [sub_add_cancel, abs_mul, abs_two] at this
    linarith
  set a := R.rnd (2 * x) with ha
  have a3 : |a * t1| ≤ 2.02 * (1 + R.u) * (11 / 10 * M) := by
    rw [abs_mul]; exact mul_le_mul a2 h1 (abs_nonneg _) (by linarith)
  have a4 : |R.rnd (a * t1) - a * t1| ≤ R.u * (2.02 * (1 + R.u) * (11 / 10 * M)) :=
    (R.err _).trans (mul_le_mul_of_nonneg_left a3 u0)
  have a5 : |a * t1 - 2 * x * t1| ≤ 2.02 * R.u * (11 / 10 * M) := by
    rw [← sub_mul, abs_mul]; exact mul_le_mul a1 h1 (abs_nonneg _) (by linarith)
  set p := R.rnd (a * t1) with hp
  have a6 : |p - t0| ≤ R.u * (2.02 * (1 + R.u) * (11 / 10 * M)) + 2.02 * (1 + R.u) * (11 / 10 * M) + 11 / 10 * M := by
    have b1 := abs_add_le (p - a * t1) (a * t1)
    have b2 := abs_sub p t0
    rw [sub_add_cancel] at b1
    linarith
  have a7 := (R.err (p - t0)).trans (mul_le_mul_of_nonneg_left a6 u0)
  have a8 : |R.rnd (p - t0) - (2 * x * t1 - t0)|
      ≤ |R.rnd (p - t0) - (p - t0)| + |p - a * t1| + |a * t1 - 2 * x * t1| := by
    have := abs_add_three (R.rnd (p - t0) - (p - t0)) (p - a * t1) (a * t1 - 2 * x * t1)
    rwa [show R.rnd (p - t0) - (p - t0) + (p - a * t1) + (a * t1 - 2 * x * t1)
      = R.rnd (p - t0) - (2 * x * t1 - t0) by ring] at this
  have m1 : R.u * R.u * M ≤ R.u * M / 100 := by
    have := mul_le_mul_of_nonneg_right hu (mul_nonneg u0 M0); linarith
  have m2 : R.u * R.u * R.u * M ≤ R.u * M / 10000 := by
    have := mul_le_mul_of_nonneg_left m1 u0
    have h : R.u * (R.u * M / 100) ≤ R.u * M / 10000 := by linarith
    linarith
  have m3 : 0 ≤ R.u * M := mul_nonneg u0 M0
  refine a8.trans ((add_le_add_three a7 a4 a5).trans ?_)
  linarith only [m1, m2, m3]

/-- Errors of the recursion, `M` a bound of the polynomials. -/
theorem chebRec_close (hu : R.u ≤ 1 / 100) (kind x : Fl R) (hk : |kind.val| ≤ 2) (hx : |x.val| ≤ 1) {M : ℝ} (hM : 1 ≤ M) :
    ∀ n : ℕ, 40 * n * (n + 1) * R.u ≤ 1 → (∀ k ≤ n, |chebRec kind.val x.val k| ≤ M) →
      |(chebRec kind x n).val - chebRec kind.val x.val n| ≤ 4 * n * (n + 1) * R.u * M := by
  intro n
  have u0 := Codegen.Rounding.u_nonneg R
  induction n using Nat.strong_induction_on with
  | _ n ih =>
    intro hn hb
    set e : ℕ → ℝ := fun k => (chebRec kind x k).val - chebRec kind.val x.val k with he
    set δ : ℕ → ℝ := fun k => match k with
      | 0 => e 1
      | k + 1 => (chebRec kind x (k + 2)).val - (2 * x.val * (chebRec kind x (k + 1)).val - (chebRec kind x k).val) with hδ
    have h0 : e 0 = 0 := by simp [he, chebRec, Fl.one_val]
    have hr : ∀ k, e (k + 2) = 2 * x.val * e (k + 1) - e k + δ (k + 1) := by
      intro k
      simp only [he, hδ, chebRec.eq_3 kind.val]
      push_cast
      ring
    have small : ∀ k < n, |(chebRec kind x k).val| ≤ 11 / 10 * M := by
      intro k hk'
      have hkn : (k : ℝ) ≤ n := by exact_mod_cast hk'.le
      have k0 : (0 : ℝ) ≤ k := Nat.cast_nonneg k
      have q : (k : ℝ) * (k + 1) * R.u ≤ n * (n + 1) * R.u := by gcongr
      have c1 := ih k hk' (by linarith) (fun j hj => hb j (by omega))
      have c2 := hb k hk'.le
      have c3 := abs_add_le ((chebRec kind x k).val - chebRec kind.val x.val k) (chebRec kind.val x.val k)
      rw [sub_add_cancel] at c3
      have c4 : 4 * (k : ℝ) * (k + 1) * R.u * M ≤ 1 / 10 * M := by
        refine mul_le_mul_of_nonneg_right ?_ (by linarith); linarith
      linarith
    have hD : ∀ k < n, |δ k| ≤ 8 * R.u * M := by
      intro k hk'
      match k, hk' with
      | 0, _ =>
        show |(chebRec kind x 1).val - chebRec kind.val x.val 1| ≤ _
        rw [chebRec, chebRec, Fl.mul_val]
        refine (R.err _).trans ?_
        rw [abs_mul]
        have : |x.val| * |kind.val| ≤ 1 * 2 := mul_le_mul hx hk (abs_nonneg _) zero_le_one
        have a := mul_le_mul_of_nonneg_left this u0
        have b := mul_le_mul_of_nonneg_left hM u0
        linarith
      | k + 1, hk' =>
        have := step_close hu (hx.trans (by norm_num)) (small (k + 1) hk') (small k (by omega))
        show |(chebRec kind x (k + 2)).val - _| ≤ _
        rw [chebRec.eq_3 kind x]
        exact this
    have := recursion_le hx h0 rfl hr hD
    refine this.trans (le_of_eq ?_)
    ring

theorem chebRec_T_le {x : ℝ} (hx : |x| ≤ 1) (k : ℕ) : |chebRec (1 : ℝ) x k| ≤ 1 := by
  obtain ⟨h1, h2⟩ := abs_le.1 hx
  rw [chebRec_T, chebT, ← Real.cos_arccos h1 h2, Polynomial.Chebyshev.T_real_cos]
  exact Real.abs_cos_le_one _

theorem chebRec_U_shift (x : ℝ) : ∀ k, chebRec ((2 : ℕ) : ℝ) x k = shiftU x (k + 1)
  | 0 => by simp [chebRec, shiftU]
  | 1 => by simp [chebRec, shiftU]; ring
  | k + 2 => by rw [chebRec, chebRec_U_shift x (k + 1), chebRec_U_shift x k, shiftU.eq_3 x (k + 1)]; push_cast; ring

theorem chebRec_U_le {x : ℝ} (hx : |x| ≤ 1) (k : ℕ) : |chebRec ((2 : ℕ) : ℝ) x k| ≤ k + 1 := by
  rw [chebRec_U_shift]; exact_mod_cast shiftU_le hx (k + 1)

/-! ### Products -/

theorem mul_step {G ε p a p' a' : ℝ} (hp : |p| ≤ 1) (ha : |a| ≤ 1) (h1 : |p' - p| ≤ G - 1) (h2 : |a' - a| ≤ ε) :
    |R.rnd (p' * a') - p * a| ≤ G * ((1 + ε) * (1 + R.u)) - 1 := by
  have u0 := Codegen.Rounding.u_nonneg R
  have e0 : 0 ≤ ε := (abs_nonneg _).trans h2
  have G1 : 0 ≤ G - 1 := (abs_nonneg _).trans h1
  have a1 : |a'| ≤ 1 + ε := by
    have := abs_add_le (a' - a) a; rw [sub_add_cancel] at this; linarith
  have p1 : |p'| ≤ G := by
    have := abs_add_le (p' - p) p; rw [sub_add_cancel] at this; linarith
  have b1 : |p' * a'| ≤ G * (1 + ε) := by
    rw [abs_mul]; exact mul_le_mul p1 a1 (abs_nonneg _) (by linarith)
  have b2 : |p' * a' - p * a| ≤ (G - 1) * (1 + ε) + 1 * ε := by
    rw [show p' * a' - p * a = (p' - p) * a' + p * (a' - a) by ring]
    refine (abs_add_le _ _).trans (add_le_add ?_ ?_)
    · rw [abs_mul]; exact mul_le_mul h1 a1 (abs_nonneg _) G1
    · rw [abs_mul]; exact mul_le_mul hp h2 (abs_nonneg _) zero_le_one
  have b3 := (R.err (p' * a')).trans (mul_le_mul_of_nonneg_left b1 u0)
  have b4 := abs_add_le (R.rnd (p' * a') - p' * a') (p' * a' - p * a)
  rw [sub_add_sub_cancel] at b4
  linarith

theorem foldl_close {α : Type} (f : α → Fl R) (g : α → ℝ) {ε : ℝ} :
    ∀ (l : List α) (p' : Fl R) (p G : ℝ), (∀ a ∈ l, |g a| ≤ 1) → (∀ a ∈ l, |(f a).val - g a| ≤ ε) →
      |p| ≤ 1 → |p'.val - p| ≤ G - 1 →
      |((l.map f).foldl (· * ·) p').val - (l.map g).foldl (· * ·) p| ≤ G * ((1 + ε) * (1 + R.u)) ^ l.length - 1
  | [], p', p, G, _, _, _, h => by simpa using h
  | a :: l, p', p, G, hg, hf, hp, h => by
    have h1 : |p * g a| ≤ 1 := by
      rw [abs_mul]
      have := mul_le_mul hp (hg a (by simp)) (abs_nonneg _) zero_le_one
      linarith
    have := foldl_close f g l (p' * f a) (p * g a) (G * ((1 + ε) * (1 + R.u))) (fun b hb => hg b (by simp [hb]))
      (fun b hb => hf b (by simp [hb])) h1 (mul_step hp (hg a (by simp)) h (hf a (by simp)))
    simp only [List.map_cons, List.foldl_cons, List.length_cons]
    refine this.trans (le_of_eq ?_)
    rw [pow_succ]; ring

theorem reduceMul_close {α : Type} (f : α → Fl R) (g : α → ℝ) {ε : ℝ} (hε : 0 ≤ ε) (l : List α)
    (hg : ∀ a ∈ l, |g a| ≤ 1) (hf : ∀ a ∈ l, |(f a).val - g a| ≤ ε) :
    |(reduceMul (l.map f)).val - reduceMul (l.map g)| ≤ ((1 + ε) * (1 + R.u)) ^ l.length - 1 := by
  have u0 := Codegen.Rounding.u_nonneg R
  have h1 : 1 ≤ (1 + ε) * (1 + R.u) := by nlinarith
  cases l with
  | nil => simp [reduceMul, Fl.one_val]
  | cons a l =>
    have := foldl_close f g l (f a) (g a) ((1 + ε) * (1 + R.u)) (fun b hb => hg b (by simp [hb]))
      (fun b hb => hf b (by simp [hb])) (hg a (by simp))
      ((hf a (by simp)).trans (by nlinarith))
    simp only [List.map_cons, reduceMul, List.length_cons]
    refine this.trans (le_of_eq ?_)
    rw [pow_succ]; ring

end Interp.Smolyak
