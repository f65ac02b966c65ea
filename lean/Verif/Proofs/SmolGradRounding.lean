import Verif.Proofs.SmolRounding

/-!
# The gradient of the Smolyak interpolant in rounded arithmetic
-/

set_option linter.unusedSectionVars false

namespace Interp.Smolyak
open Interp.Spec Interp.Codegen
open Interp.CompletePoly (transpose dot rangeN)

variable {R : Rounding}

theorem chebRecU_pert (hu : R.u ≤ 1 / 100) (y : Fl R) {x ξ M : ℝ} (hx : |x| ≤ 1) (hy : |y.val - x| ≤ ξ) (hξ : ξ ≤ 1 / 100) :
    ∀ n : ℕ, 10 * (4 * R.u + 1.15 * ξ) * (n * (n + 1)) ≤ 1 → (n : ℝ) + 1 ≤ M →
      |(chebRec ((2 : ℕ) : Fl R) y n).val - chebRec ((2 : ℕ) : ℝ) x n| ≤ (4 * R.u + 1.15 * ξ) * (n * (n + 1)) * M := by
  intro n
  have u0 := Rounding.u_nonneg R
  have ξ0 : 0 ≤ ξ := (abs_nonneg _).trans hy
  have hy1 : |y.val| ≤ 101 / 100 := by
    have := abs_add_le (y.val - x) x
    rw [sub_add_cancel] at this; linarith
  induction n using Nat.strong_induction_on with
  | _ n ih =>
    intro hn hM
    have M1 : 1 ≤ M := by linarith [Nat.cast_nonneg (α := ℝ) n]
    set e : ℕ → ℝ := fun k => (chebRec ((2 : ℕ) : Fl R) y k).val - chebRec ((2 : ℕ) : ℝ) x k with he
    set δ : ℕ → ℝ := fun k => match k with
      | 0 => e 1
      | k + 1 => (chebRec ((2 : ℕ) : Fl R) y (k + 2)).val
          - (2 * x * (chebRec ((2 : ℕ) : Fl R) y (k + 1)).val - (chebRec ((2 : ℕ) : Fl R) y k).val) with hδ
    have h0 : e 0 = 0 := by simp [he, chebRec, Fl.one_val]
    have hr : ∀ k, e (k + 2) = 2 * x * e (k + 1) - e k + δ (k + 1) := by
      intro k
      simp only [he, hδ, chebRec.eq_3 ((2 : ℕ) : ℝ)]
      push_cast
      ring
    have small : ∀ k < n, |(chebRec ((2 : ℕ) : Fl R) y k).val| ≤ 11 / 10 * M := by
      intro k hk'
      have hkn : (k : ℝ) ≤ n := by exact_mod_cast hk'.le
      have k0 : (0 : ℝ) ≤ k := Nat.cast_nonneg k
      have q : (4 * R.u + 1.15 * ξ) * ((k : ℝ) * (k + 1)) ≤ (4 * R.u + 1.15 * ξ) * (n * (n + 1)) := by gcongr
      have c1 := ih k hk' (by linarith) (by linarith)
      have c2 := chebRec_U_le hx k
      have c3 := abs_add_le ((chebRec ((2 : ℕ) : Fl R) y k).val - chebRec ((2 : ℕ) : ℝ) x k) (chebRec ((2 : ℕ) : ℝ) x k)
      rw [sub_add_cancel] at c3
      have c4 : (4 * R.u + 1.15 * ξ) * ((k : ℝ) * (k + 1)) * M ≤ 1 / 10 * M :=
        mul_le_mul_of_nonneg_right (by linarith) (by linarith)
      exact (c3.trans (add_le_add (c1.trans c4) (c2.trans (by linarith : (k : ℝ) + 1 ≤ M)))).trans (by linarith)
    have hD : ∀ k < n, |δ k| ≤ (8 * R.u + 2.3 * ξ) * M := by
      intro k hk'
      match k, hk' with
      | 0, _ =>
        show |(chebRec ((2 : ℕ) : Fl R) y 1).val - chebRec ((2 : ℕ) : ℝ) x 1| ≤ _
        rw [chebRec, chebRec, Fl.mul_val, Fl.natCast_val]
        push_cast
        have h2 : |y.val * 2| ≤ 2.02 := by rw [abs_mul, abs_two]; linarith
        have a := (R.err (y.val * 2)).trans (mul_le_mul_of_nonneg_left h2 u0)
        have b := abs_add_le (R.rnd (y.val * 2) - y.val * 2) (y.val * 2 - x * 2)
        rw [sub_add_sub_cancel, ← sub_mul, abs_mul, abs_two] at b
        have c : 8 * R.u + 2.3 * ξ ≤ (8 * R.u + 2.3 * ξ) * M := le_mul_of_one_le_right (by linarith) M1
        linarith
      | k + 1, hk' =>
        have s1 := small (k + 1) hk'
        have := step_close hu hy1 s1 (small k (by omega))
        show |(chebRec ((2 : ℕ) : Fl R) y (k + 2)).val - _| ≤ _
        rw [chebRec.eq_3 ((2 : ℕ) : Fl R) y]
        set t1 := (chebRec ((2 : ℕ) : Fl R) y (k + 1)).val
        set t0 := (chebRec ((2 : ℕ) : Fl R) y k).val
        have a : |2 * y.val * t1 - t0 - (2 * x * t1 - t0)| ≤ 2.3 * (ξ * M) := by
          rw [show 2 * y.val * t1 - t0 - (2 * x * t1 - t0) = 2 * ((y.val - x) * t1) by ring, abs_mul, abs_two, abs_mul]
          have h1 := mul_le_mul hy s1 (abs_nonneg _) ξ0
          have h2 : 0 ≤ ξ * M := mul_nonneg ξ0 (by linarith)
          linarith
        have b := abs_add_le (R.rnd (R.rnd (R.rnd (2 * y.val) * t1) - t0) - (2 * y.val * t1 - t0))
          (2 * y.val * t1 - t0 - (2 * x * t1 - t0))
        rw [sub_add_sub_cancel] at b
        show |R.rnd (R.rnd (R.rnd (2 * y.val) * t1) - t0) - (2 * x * t1 - t0)| ≤ _
        linarith
    have := recursion_le hx h0 rfl hr hD
    refine this.trans (le_of_eq ?_)
    ring

theorem dChebRec_le {x : ℝ} (hx : |x| ≤ 1) (c : ℕ) : |dChebRec x c| ≤ (c : ℝ) * c := by
  rw [dChebRec]
  cases c with
  | zero => simp
  | succ c =>
    simp only [Nat.succ_ne_zero, if_false, Nat.add_sub_cancel]
    rw [abs_mul, abs_of_nonneg (Nat.cast_nonneg (c + 1) : (0 : ℝ) ≤ _)]
    exact mul_le_mul_of_nonneg_right (by simpa using chebRec_U_le hx c) (Nat.cast_nonneg _)

theorem dChebRec_pert (hu : R.u ≤ 1 / 100) (y : Fl R) {x ξ : ℝ} (hx : |x| ≤ 1) (hy : |y.val - x| ≤ ξ) (hξ : ξ ≤ 1 / 100)
    (K c : ℕ) (hK : 10 * (4 * R.u + 1.15 * ξ) * (K * (K + 1)) ≤ 1) (hc : c ≤ K) :
    |(dChebRec y c).val - dChebRec x c| ≤ ((1 + (4 * R.u + 1.15 * ξ) * (K * (K + 1))) * (1 + R.u) - 1) * ((K : ℝ) * K) := by
  have u0 := Rounding.u_nonneg R
  have ξ0 : 0 ≤ ξ := (abs_nonneg _).trans hy
  set η : ℝ := 4 * R.u + 1.15 * ξ with hη
  have η0 : 0 ≤ η := by positivity
  have E0 : 0 ≤ (1 + η * ((K : ℝ) * (K + 1))) * (1 + R.u) - 1 := by
    have : 0 ≤ η * ((K : ℝ) * (K + 1)) := by positivity
    nlinarith
  cases c with
  | zero =>
    have e1 : (dChebRec y 0).val = R.rnd (0 * 0) := by
      simp [dChebRec, Fl.mul_val, Fl.zero_val, Fl.natCast_val]
    have e2 : dChebRec x 0 = 0 := by simp [dChebRec]
    rw [e1, e2]
    have := R.err (0 * 0)
    simp only [mul_zero, abs_zero, sub_zero] at this ⊢
    exact this.trans (by positivity)
  | succ c =>
    have hcK : ((c + 1 : ℕ) : ℝ) ≤ K := by exact_mod_cast hc
    have c0 : (0 : ℝ) ≤ c := Nat.cast_nonneg c
    push_cast at hcK
    have hcK' : c ≤ K := by omega
    have q : η * ((c : ℝ) * (c + 1)) ≤ η * (K * (K + 1)) := by gcongr
    have p := chebRecU_pert hu y hx hy hξ c (by rw [← hη]; linarith) le_rfl
    rw [← hη] at p
    have b := chebRec_U_le hx c
    have e1 : (dChebRec y (c + 1)).val = R.rnd ((chebRec ((2 : ℕ) : Fl R) y c).val * (c + 1)) := by
      simp [dChebRec, Fl.mul_val, Fl.natCast_val]
    have e2 : dChebRec x (c + 1) = chebRec ((2 : ℕ) : ℝ) x c * (c + 1) := by simp [dChebRec]
    rw [e1, e2]
    set U' := (chebRec ((2 : ℕ) : Fl R) y c).val
    set U := chebRec ((2 : ℕ) : ℝ) x c
    set w : ℝ := (c : ℝ) + 1 with hw
    have w0 : 0 ≤ w := by positivity
    set ε : ℝ := η * (K * (K + 1)) with hε
    have ε0 : 0 ≤ ε := by positivity
    have p' : |U' - U| ≤ ε * w := p.trans (mul_le_mul_of_nonneg_right q w0)
    have b' : |U'| ≤ (1 + ε) * w := by
      have := abs_add_le (U' - U) U
      rw [sub_add_cancel] at this; linarith
    have a1 : |U' * w - U * w| ≤ ε * (w * w) := by
      rw [← sub_mul, abs_mul, abs_of_nonneg w0]
      have := mul_le_mul_of_nonneg_right p' w0; linarith
    have a2 : |U' * w| ≤ (1 + ε) * (w * w) := by
      rw [abs_mul, abs_of_nonneg w0]
      have := mul_le_mul_of_nonneg_right b' w0; linarith
    have a3 := (R.err (U' * w)).trans (mul_le_mul_of_nonneg_left a2 u0)
    have a4 := abs_add_le (R.rnd (U' * w) - U' * w) (U' * w - U * w)
    rw [sub_add_sub_cancel] at a4
    have a5 : w * w ≤ (K : ℝ) * K := mul_le_mul hcK hcK w0 (by linarith)
    have a6 := mul_le_mul_of_nonneg_left a5 E0
    linarith

/-! ### Products with weights -/

theorem mul_step_w {G H W w p a p' a' : ℝ} (hp : |p| ≤ W) (ha : |a| ≤ w) (hG : 1 ≤ G) (hH : 1 ≤ H) (h1 : |p' - p| ≤ (G - 1) * W)
    (h2 : |a' - a| ≤ (H - 1) * w) :
    |R.rnd (p' * a') - p * a| ≤ (G * (H * (1 + R.u)) - 1) * (W * w) := by
  have u0 := Rounding.u_nonneg R
  have W0 : 0 ≤ W := (abs_nonneg _).trans hp
  have w0 : 0 ≤ w := (abs_nonneg _).trans ha
  have a1 : |a'| ≤ H * w := by
    have := abs_add_le (a' - a) a; rw [sub_add_cancel] at this; linarith
  have p1 : |p'| ≤ G * W := by
    have := abs_add_le (p' - p) p; rw [sub_add_cancel] at this; linarith
  have b1 : |p' * a'| ≤ G * W * (H * w) := by
    rw [abs_mul]; exact mul_le_mul p1 a1 (abs_nonneg _) (by positivity)
  have b2 : |p' * a' - p * a| ≤ (G - 1) * W * (H * w) + W * ((H - 1) * w) := by
    rw [show p' * a' - p * a = (p' - p) * a' + p * (a' - a) by ring]
    refine (abs_add_le _ _).trans (add_le_add ?_ ?_)
    · rw [abs_mul]; exact mul_le_mul h1 a1 (abs_nonneg _) (mul_nonneg (by linarith) W0)
    · rw [abs_mul]; exact mul_le_mul hp h2 (abs_nonneg _) W0
  have b3 := (R.err (p' * a')).trans (mul_le_mul_of_nonneg_left b1 u0)
  have b4 := abs_add_le (R.rnd (p' * a') - p' * a') (p' * a' - p * a)
  rw [sub_add_sub_cancel] at b4
  linarith

theorem foldl_close_w {α : Type} (f : α → Fl R) (g w : α → ℝ) {H : ℝ} (hH : 1 ≤ H) :
    ∀ (l : List α) (p' : Fl R) (p W G : ℝ), (∀ a ∈ l, |g a| ≤ w a) → (∀ a ∈ l, |(f a).val - g a| ≤ (H - 1) * w a) →
      |p| ≤ W → 1 ≤ G → |p'.val - p| ≤ (G - 1) * W →
      |(l.map g).foldl (· * ·) p| ≤ W * (l.map w).prod ∧
      |((l.map f).foldl (· * ·) p').val - (l.map g).foldl (· * ·) p| ≤
        (G * (H * (1 + R.u)) ^ l.length - 1) * (W * (l.map w).prod)
  | [], p', p, W, G, _, _, hp, _, h => by simpa using ⟨hp, h⟩
  | a :: l, p', p, W, G, hg, hf, hp, hG, h => by
    have u0 := Rounding.u_nonneg R
    have ha := hg a (by simp)
    have h1 : |p * g a| ≤ W * w a := by
      rw [abs_mul]
      exact mul_le_mul hp ha (abs_nonneg _) ((abs_nonneg _).trans hp)
    have hHu : 1 ≤ H * (1 + R.u) := by nlinarith
    have := foldl_close_w f g w hH l (p' * f a) (p * g a) (W * w a) (G * (H * (1 + R.u))) (fun b hb => hg b (by simp [hb]))
      (fun b hb => hf b (by simp [hb])) h1 (by nlinarith) (mul_step_w hp ha hG hH h (hf a (by simp)))
    simp only [List.map_cons, List.foldl_cons, List.length_cons, List.prod_cons]
    refine ⟨this.1.trans (le_of_eq (by ring)), this.2.trans (le_of_eq ?_)⟩
    rw [pow_succ]; ring

theorem reduceMul_close_w {α : Type} (f : α → Fl R) (g w : α → ℝ) {H : ℝ} (hH : 1 ≤ H) (l : List α)
    (hg : ∀ a ∈ l, |g a| ≤ w a) (hf : ∀ a ∈ l, |(f a).val - g a| ≤ (H - 1) * w a) :
    |reduceMul (l.map g)| ≤ (l.map w).prod ∧
    |(reduceMul (l.map f)).val - reduceMul (l.map g)| ≤ ((H * (1 + R.u)) ^ l.length - 1) * (l.map w).prod := by
  have u0 := Rounding.u_nonneg R
  cases l with
  | nil => simp [reduceMul, Fl.one_val]
  | cons a l =>
    have ha := hg a (by simp)
    have w0 : 0 ≤ w a := (abs_nonneg _).trans ha
    have hHu : H ≤ H * (1 + R.u) := by nlinarith
    have := foldl_close_w f g w hH l (f a) (g a) (w a) (H * (1 + R.u)) (fun b hb => hg b (by simp [hb]))
      (fun b hb => hf b (by simp [hb])) ha (by linarith)
      ((hf a (by simp)).trans (mul_le_mul_of_nonneg_right (by linarith) w0))
    simp only [List.map_cons, reduceMul, List.length_cons, List.prod_cons]
    refine ⟨this.1, this.2.trans (le_of_eq ?_)⟩
    rw [pow_succ]; ring

section
variable {K : Type} [Add K] [Sub K] [Mul K] [Div K] [Neg K] [Zero K] [One K] [NatCast K] [IntCast K]
  [LT K] [DecidableLT K]

theorem basisDer_range (comb : List ℤ) (d : ℕ) (hl : comb.length = d) (x : ℕ → K) (i : ℕ) :
    basisDer comb ((List.range d).map x) i = reduceMul ((List.range d).map fun k =>
      if i ≠ k then chebRec 1 (x k) (comb.getD k 0 - 1).toNat else dChebRec (x k) (comb.getD k 0 - 1).toNat) := by
  rw [basisDer]
  congr 1
  refine List.ext_getElem (by simp [hl]) fun k h1 h2 => ?_
  have hk : k < d := by simpa using h2
  simp [hl, hk, List.getD]

end

theorem basisDer_close (hu : R.u ≤ 1 / 100) {ξ : ℝ} (hξ0 : 0 ≤ ξ) (hξ : ξ ≤ 1 / 100) (K : ℕ)
    (hK : 10 * (4 * R.u + 1.15 * ξ) * (K * (K + 1)) ≤ 1) (comb : List ℤ) (hc : ∀ c ∈ comb, (c - 1).toNat ≤ K)
    (d : ℕ) (hl : comb.length = d) (y : ℕ → Fl R) (x : ℕ → ℝ) (hx : ∀ i < d, |x i| ≤ 1 ∧ |(y i).val - x i| ≤ ξ) (i : ℕ) (hi : i < d) :
    |basisDer comb ((List.range d).map x) i| ≤ (K : ℝ) * K ∧
    |(basisDer comb ((List.range d).map y) i).val - basisDer comb ((List.range d).map x) i|
      ≤ (((1 + (4 * R.u + 1.15 * ξ) * (K * (K + 1))) * (1 + R.u) * (1 + R.u)) ^ d - 1) * ((K : ℝ) * K) := by
  have u0 := Rounding.u_nonneg R
  set ε : ℝ := (4 * R.u + 1.15 * ξ) * (K * (K + 1)) with hε
  have ε0 : 0 ≤ ε := by positivity
  have hcK : ∀ k < d, (comb.getD k 0 - 1).toNat ≤ K := fun k hk => by
    rw [List.getD_eq_getElem _ _ (by omega)]; exact hc _ (List.getElem_mem _)
  rw [basisDer_range comb d hl, basisDer_range comb d hl]
  have hprod : ((List.range d).map fun k => if i ≠ k then (1 : ℝ) else (K : ℝ) * K).prod = (K : ℝ) * K := by
    rw [show ((List.range d).map fun k => if i ≠ k then (1 : ℝ) else (K : ℝ) * K).prod
      = ∏ k ∈ Finset.range d, if i ≠ k then (1 : ℝ) else (K : ℝ) * K by
        rw [Finset.prod_eq_multiset_prod]; simp [Finset.range, Multiset.range]]
    simp only [ne_eq, ite_not]
    rw [Finset.prod_ite_eq]; simp [hi]
  have := reduceMul_close_w (R := R)
    (fun k => if i ≠ k then chebRec 1 (y k) (comb.getD k 0 - 1).toNat else dChebRec (y k) (comb.getD k 0 - 1).toNat)
    (fun k => if i ≠ k then chebRec 1 (x k) (comb.getD k 0 - 1).toNat else dChebRec (x k) (comb.getD k 0 - 1).toNat)
    (fun k => if i ≠ k then (1 : ℝ) else (K : ℝ) * K) (H := (1 + ε) * (1 + R.u)) (by nlinarith) (List.range d)
    (fun k hk => by
      have hk := List.mem_range.1 hk
      by_cases h : i ≠ k
      · simp only [if_pos h]; exact chebRec_T_le (hx k hk).1 _
      · simp only [if_neg h]
        have h5 : ((comb.getD k 0 - 1).toNat : ℝ) ≤ K := by exact_mod_cast hcK k hk
        exact (dChebRec_le (hx k hk).1 _).trans (mul_le_mul h5 h5 (Nat.cast_nonneg _) (Nat.cast_nonneg _)))
    (fun k hk => by
      have hk := List.mem_range.1 hk
      obtain ⟨h3, h4⟩ := hx k hk
      by_cases h : i ≠ k
      · simp only [if_pos h]
        have h5 : ((comb.getD k 0 - 1).toNat : ℝ) ≤ K := by exact_mod_cast hcK k hk
        have q0 : (0 : ℝ) ≤ ((comb.getD k 0 - 1).toNat : ℝ) := Nat.cast_nonneg _
        have hq' : (4 * R.u + 1.15 * ξ) * (((comb.getD k 0 - 1).toNat : ℝ) * ((comb.getD k 0 - 1).toNat + 1)) ≤ ε := by
          rw [hε]; gcongr
        have := (chebRec_pert hu (y k) h3 h4 hξ (comb.getD k 0 - 1).toNat (by linarith)).trans hq'
        nlinarith
      · simp only [if_neg h]
        exact dChebRec_pert hu (y k) h3 h4 hξ K _ hK (hcK k hk))
  rw [hprod, List.length_range] at this
  exact this

end Interp.Smolyak
