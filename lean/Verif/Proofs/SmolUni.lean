import Verif.Proofs.SmolChain
import Mathlib.Algebra.Polynomial.Roots

/-!
# Unisolvence

In one dimension, then for tensor products over downward closed sets of levels.
-/

set_option linter.unusedSectionVars false

namespace Interp.Smolyak
open Polynomial

/-! ### Levels are disjoint -/

theorem two_pow_odd {a b k l : ℕ} (h : 2 ^ a * (2 * k + 1) = 2 ^ b * (2 * l + 1)) : a = b := by
  have key : ∀ {a b k l : ℕ}, a < b → 2 ^ a * (2 * k + 1) ≠ 2 ^ b * (2 * l + 1) := by
    intro a b k l hab h
    obtain ⟨t, rfl⟩ : ∃ t, b = a + t + 1 := ⟨b - a - 1, by omega⟩
    rw [show 2 ^ (a + t + 1) * (2 * l + 1) = 2 ^ a * (2 * (2 ^ t * (2 * l + 1))) by
      rw [pow_succ, pow_add]; ring] at h
    have := Nat.eq_of_mul_eq_mul_left (by positivity) h
    omega
  rcases Nat.lt_trichotomy a b with h1 | h1 | h1
  · exact absurd h (key h1)
  · exact h1
  · exact absurd h.symm (key h1)

theorem aLevel_disjoint (i i' : ℕ) (hi : 1 ≤ i) (hi' : 1 ≤ i') (h : i ≤ 49) (h' : i' ≤ 49) (x : ℝ)
    (hx : x ∈ aLevel i) (hx' : x ∈ aLevel i') : i = i' := by
  rw [aLevel_sNode 49 i hi h (by omega) le_rfl] at hx
  rw [aLevel_sNode 49 i' hi' h' (by omega) le_rfl] at hx'
  obtain ⟨j, hj, rfl, c⟩ := hx
  obtain ⟨j', hj', e, c'⟩ := hx'
  have := sNode_inj 49 j j' (by omega) le_rfl hj hj' e
  subst this
  have key : ∀ i, i ≤ 49 → ((i = 1 ∧ 2 * j = 2 ^ (49 - 1)) ∨ (i = 2 ∧ (j = 0 ∨ j = 2 ^ (49 - 1))) ∨
        (3 ≤ i ∧ ∃ k < 2 ^ (i - 2), j = 2 ^ (49 - i) * (2 * k + 1))) →
      (j = 0 ∧ i = 2) ∨ ∃ e k, j = 2 ^ e * (2 * k + 1) ∧ ((i = 1 ∧ e = 47) ∨ (i = 2 ∧ e = 48) ∨
        (3 ≤ i ∧ e = 49 - i)) := by
    rintro i hi (⟨rfl, h⟩ | ⟨rfl, h | h⟩ | ⟨h, k, hk, rfl⟩)
    · exact Or.inr ⟨47, 0, by omega, Or.inl ⟨rfl, rfl⟩⟩
    · exact Or.inl ⟨h, rfl⟩
    · exact Or.inr ⟨48, 0, by omega, Or.inr (Or.inl ⟨rfl, rfl⟩)⟩
    · exact Or.inr ⟨49 - i, k, rfl, Or.inr (Or.inr ⟨h, rfl⟩)⟩
  rcases key i h c with ⟨h0, rfl⟩ | ⟨e, k, h0, h1⟩
  · rcases key i' h' c' with ⟨_, rfl⟩ | ⟨e, k, h0', h1⟩
    · rfl
    · exfalso
      have : 0 < 2 ^ e * (2 * k + 1) := by positivity
      omega
  · rcases key i' h' c' with ⟨h0', rfl⟩ | ⟨e', k', h0', h1'⟩
    · exfalso
      have : 0 < 2 ^ e * (2 * k + 1) := by positivity
      omega
    · have := two_pow_odd (h0.symm.trans h0')
      omega

theorem aLevel_nodup (i : ℕ) (h : i ≤ 49) : (aLevel i).Nodup := by
  rcases Nat.lt_or_ge i 3 with h3 | h3
  · unfold aLevel
    split
    · simp
    · split
      · rw [List.nodup_cons]; refine ⟨?_, by simp⟩
        norm_num
      · have : i = 0 := by omega
        subst this
        simp
  · rw [aLevel, if_neg (by omega), if_neg (by omega)]
    have hp : 2 ^ (i - 1) = 2 * 2 ^ (i - 2) := by
      rw [show i - 1 = (i - 2) + 1 by omega, pow_succ, mul_comm]
    refine List.Nodup.map_on ?_ List.nodup_range
    intro k hk l hl e
    rw [List.mem_range] at hk hl
    have := sNode_inj i _ _ (by omega) h (by omega) (by omega) e
    omega

theorem sNode_level (n j : ℕ) (hn : 2 ≤ n) (h49 : n ≤ 49) (hj : j ≤ 2 ^ (n - 1)) :
    ∃ i, 1 ≤ i ∧ i ≤ n ∧ sNode n j ∈ aLevel i := by
  have hp : 2 ^ (n - 1) = 2 * 2 ^ (n - 2) := by
    rw [show n - 1 = (n - 2) + 1 by omega, pow_succ, mul_comm]
  rcases eq_or_ne j 0 with rfl | h0
  · exact ⟨2, by omega, hn, (aLevel_sNode n 2 (by omega) hn hn h49 _).mpr
      ⟨0, hj, rfl, Or.inr (Or.inl ⟨rfl, Or.inl rfl⟩)⟩⟩
  obtain ⟨a, m, hm, rfl⟩ := Nat.exists_eq_two_pow_mul_odd h0
  obtain ⟨k, rfl⟩ := hm
  have ha : a ≤ n - 1 := by
    have : 2 ^ a ≤ 2 ^ (n - 1) := le_trans (Nat.le_mul_of_pos_right _ (by omega)) hj
    exact (Nat.pow_le_pow_iff_right (by omega)).mp this
  have hs : 2 ^ (n - 1) = 2 ^ a * 2 ^ (n - 1 - a) := by rw [← pow_add]; congr 1; omega
  have hk : 2 * k + 1 ≤ 2 ^ (n - 1 - a) := by
    rw [hs] at hj
    exact Nat.le_of_mul_le_mul_left hj (by positivity)
  rcases Nat.lt_trichotomy a (n - 2) with h | h | h
  · refine ⟨n - a, by omega, by omega, (aLevel_sNode n (n - a) (by omega) (by omega) hn h49 _).mpr
      ⟨_, hj, rfl, Or.inr (Or.inr ⟨by omega, k, ?_, ?_⟩)⟩⟩
    · have : 2 ^ (n - 1 - a) = 2 * 2 ^ (n - a - 2) := by
        rw [show n - 1 - a = (n - a - 2) + 1 by omega, pow_succ, mul_comm]
      omega
    · rw [show n - (n - a) = a by omega]
  · refine ⟨1, le_rfl, by omega, (aLevel_sNode n 1 le_rfl (by omega) hn h49 _).mpr
      ⟨_, hj, rfl, Or.inl ⟨rfl, ?_⟩⟩⟩
    rw [show n - 1 - a = 1 by omega] at hk
    have : k = 0 := by omega
    subst this
    rw [hp, h]; ring
  · refine ⟨2, by omega, by omega, (aLevel_sNode n 2 (by omega) (by omega) hn h49 _).mpr
      ⟨_, hj, rfl, Or.inr (Or.inl ⟨rfl, Or.inr ?_⟩)⟩⟩
    have ha' : a = n - 1 := by omega
    subst ha'
    rw [Nat.sub_self] at hk
    have : k = 0 := by omega
    subst this
    ring

/-! ### One dimension -/

/-- The Chebyshev polynomial of the first kind, as a function. -/
noncomputable def chebT (k : ℕ) (x : ℝ) : ℝ := (Chebyshev.T ℝ k).eval x

theorem cheb_indep : ∀ (m : ℕ) (c : ℕ → ℝ),
    (∑ k ∈ Finset.range m, C (c k) * Chebyshev.T ℝ (k : ℤ)) = 0 → ∀ k < m, c k = 0
  | 0, _, _, k, hk => by omega
  | m + 1, c, h, k, hk => by
    have hdeg : ∀ k < m, (C (c k) * Chebyshev.T ℝ (k : ℤ)).coeff m = 0 := by
      intro k hk
      rw [coeff_C_mul, coeff_eq_zero_of_natDegree_lt, mul_zero]
      rw [Chebyshev.natDegree_T]
      simpa using hk
    have hm : c m = 0 := by
      have h1 := congrArg (fun p => p.coeff m) h
      simp only [finset_sum_coeff, coeff_zero] at h1
      rw [Finset.sum_range_succ, Finset.sum_eq_zero (fun k hk => hdeg k (Finset.mem_range.mp hk)),
        zero_add, coeff_C_mul] at h1
      rcases mul_eq_zero.mp h1 with h2 | h2
      · exact h2
      · exfalso
        have h3 : (Chebyshev.T ℝ (m : ℤ)).leadingCoeff = 0 := by
          rw [leadingCoeff, Chebyshev.natDegree_T]; simpa using h2
        rw [Chebyshev.leadingCoeff_T] at h3
        exact absurd h3 (by positivity)
    rcases Nat.lt_succ_iff_lt_or_eq.mp hk with h1 | rfl
    · refine cheb_indep m c ?_ k h1
      rw [Finset.sum_range_succ, hm] at h
      simpa using h
    · exact hm

/-- A combination of the first `m n` Chebyshev polynomials that vanishes at all nodes of level at
most `n` is zero. -/
theorem uni1 (n : ℕ) (hn : 1 ≤ n) (h49 : n ≤ 49) (c : ℕ → ℝ)
    (h : ∀ i, 1 ≤ i → i ≤ n → ∀ x ∈ aLevel i, ∑ k ∈ Finset.range (mSize n), chebT k x * c k = 0) :
    ∀ k < mSize n, c k = 0 := by
  rcases Nat.lt_or_ge n 2 with h2 | h2
  · have : n = 1 := by omega
    subst this
    intro k hk
    have hk0 : k = 0 := by simp [mSize] at hk; exact hk
    subst hk0
    have := h 1 le_rfl le_rfl 0 (by simp [aLevel])
    simpa [mSize, chebT] using this
  · apply cheb_indep
    have hms : mSize n = 2 ^ (n - 1) + 1 := by
      obtain ⟨t, rfl⟩ : ∃ t, n = t + 2 := ⟨n - 2, by omega⟩
      simp [mSize]
    set P := ∑ k ∈ Finset.range (mSize n), C (c k) * Chebyshev.T ℝ (k : ℤ) with hP
    set S := (Finset.range (mSize n)).image (sNode n) with hS
    have hcard : S.card = mSize n := by
      rw [hS, Finset.card_image_of_injOn, Finset.card_range]
      intro i hi j hj e
      rw [Finset.mem_coe, Finset.mem_range, hms] at hi hj
      exact sNode_inj n i j h2 h49 (by omega) (by omega) e
    apply eq_zero_of_natDegree_lt_card_of_eval_eq_zero' P S
    · intro x hx
      rw [hS, Finset.mem_image] at hx
      obtain ⟨j, hj, rfl⟩ := hx
      rw [Finset.mem_range, hms] at hj
      obtain ⟨i, hi1, hi2, hi3⟩ := sNode_level n j h2 h49 (by omega)
      rw [← h i hi1 hi2 _ hi3, hP, eval_finset_sum]
      refine Finset.sum_congr rfl fun k _ => ?_
      rw [eval_mul, eval_C, mul_comm]
      rfl
    · rw [hcard]
      have : P.natDegree ≤ mSize n - 1 := by
        refine natDegree_sum_le_of_forall_le _ _ fun k hk => ?_
        refine (natDegree_C_mul_le _ _).trans ?_
        rw [Chebyshev.natDegree_T]
        have := Finset.mem_range.mp hk
        simp; omega
      exact lt_of_le_of_lt this (Nat.sub_lt (by rw [hms]; exact Nat.succ_pos _) Nat.one_pos)

/-! ### Tensor products -/

/-- The combination, with coefficients `c`, of the products of the first `M` Chebyshev polynomials in
each variable. -/
noncomputable def evalP (M : ℕ) : (List ℕ → ℝ) → List ℝ → ℝ
  | c, [] => c []
  | c, x :: xs => ∑ k ∈ Finset.range M, chebT k x * evalP M (fun ks => c (k :: ks)) xs

theorem evalP_congr (M : ℕ) : ∀ (x : List ℝ) (c c' : List ℕ → ℝ),
    (∀ ks, ks.length = x.length → (∀ k ∈ ks, k < M) → c ks = c' ks) → evalP M c x = evalP M c' x
  | [], c, c', h => h [] rfl (by simp)
  | t :: x, c, c', h => by
    simp only [evalP]
    refine Finset.sum_congr rfl fun k hk => ?_
    rw [evalP_congr M x _ _ fun ks h1 h2 => h (k :: ks) (by simp [h1]) (by
      intro k' hk'
      rcases List.mem_cons.mp hk' with rfl | h'
      · exact Finset.mem_range.mp hk
      · exact h2 k' h')]

theorem evalP_zero (M : ℕ) : ∀ x : List ℝ, evalP M (fun _ => 0) x = 0
  | [] => rfl
  | t :: x => by simp [evalP, evalP_zero M x]

theorem evalP_add (M : ℕ) : ∀ (x : List ℝ) (c c' : List ℕ → ℝ),
    evalP M (fun ks => c ks + c' ks) x = evalP M c x + evalP M c' x
  | [], _, _ => rfl
  | t :: x, c, c' => by
    simp only [evalP, evalP_add M x, mul_add, Finset.sum_add_distrib]

/-- Product of Chebyshev polynomials. -/
noncomputable def chebProd : List ℕ → List ℝ → ℝ
  | k :: ks, x :: xs => chebT k x * chebProd ks xs
  | _, _ => 1

theorem evalP_single (M : ℕ) (a : ℝ) : ∀ (x : List ℝ) (ks : List ℕ), ks.length = x.length →
    (∀ k ∈ ks, k < M) → evalP M (fun ks' => if ks' = ks then a else 0) x = a * chebProd ks x
  | [], ks, h, _ => by
    have : ks = [] := List.length_eq_zero_iff.mp h
    subst this
    simp [evalP, chebProd]
  | t :: x, [], h, _ => by simp at h
  | t :: x, k :: ks, h, hM => by
    simp only [evalP]
    rw [Finset.sum_eq_single k]
    · have := evalP_single M a x ks (by simpa using h) fun k' h' => hM k' (by simp [h'])
      simp only [List.cons.injEq, true_and, this, chebProd]
      ring
    · intro k' _ hne
      have : (fun ks' => if k' :: ks' = k :: ks then a else 0) = fun _ => (0 : ℝ) := by
        funext ks'
        rw [if_neg]
        intro h; exact hne (List.cons.inj h).1
      rw [this, evalP_zero, mul_zero]
    · intro h'
      exact absurd (Finset.mem_range.mpr (hM k (by simp))) h'

/-- Unisolvence for a downward closed set `I` of level vectors. -/
theorem uniD (M N : ℕ) (hN : N ≤ 49) (hM : ∀ n ≤ N, mSize n ≤ M) : ∀ (d : ℕ) (I : List ℕ → Prop) (c : List ℕ → ℝ),
    (∀ l l', List.Forall₂ (fun a b => 1 ≤ a ∧ a ≤ b) l' l → I l → I l') →
    (∀ l, I l → ∀ e ∈ l, 1 ≤ e ∧ e ≤ N) →
    (∀ ks, ks.length = d → c ks ≠ 0 → I (ks.map lev)) →
    (∀ l x, l.length = d → I l → List.Forall₂ (fun t i => t ∈ aLevel i) x l → evalP M c x = 0) →
    ∀ ks, ks.length = d → (∀ k ∈ ks, k < M) → c ks = 0
  | 0, I, c, _, _, hs, hv, ks, hl, _ => by
    have : ks = [] := List.length_eq_zero_iff.mp hl
    subst this
    by_contra h
    exact h (hv [] [] rfl (hs [] rfl h) .nil)
  | d + 1, I, c, hdown, hbd, hs, hv, ks, hl, hks => by
    -- coefficients with a first index of level greater than `N - t` vanish
    have key : ∀ t : ℕ, ∀ k < M, N - t < lev k → ∀ ks, ks.length = d → (∀ k' ∈ ks, k' < M) →
        c (k :: ks) = 0 := by
      intro t
      induction t with
      | zero =>
        intro k hk hlt ks hl _
        by_contra h
        have := (hbd _ (hs (k :: ks) (by simp [hl]) h) (lev k) (by simp)).2
        omega
      | succ t ih =>
        intro k hk hlt ks hl hks
        rcases Nat.lt_or_ge (N - t) (lev k) with h | h
        · exact ih k hk h ks hl hks
        · have hn : lev k = N - t := by omega
          have hlev := lev_pos k
          refine uniD M N hN hM d (fun l => I (lev k :: l)) (fun ks => c (k :: ks)) ?_ ?_ ?_ ?_ ks hl hks
          · intro l l' h1 h2
            exact hdown _ _ (.cons ⟨hlev, le_rfl⟩ h1) h2
          · intro l h1 e he
            exact hbd _ h1 e (by simp [he])
          · intro ks h1 h2
            exact hs (k :: ks) (by simp [h1]) h2
          · intro l x hl' hI hx
            have hxl : x.length = d := by rw [hx.length_eq, hl']
            have hrefl : List.Forall₂ (fun a b => 1 ≤ a ∧ a ≤ b) l l := by
              rw [List.forall₂_same]
              intro e he
              exact ⟨(hbd _ hI e (by simp [he])).1, le_rfl⟩
            have := uni1 (N - t) (by omega) (by omega) (fun k' => evalP M (fun ks => c (k' :: ks)) x) (by
              intro i hi1 hi2 y hy
              have h0 : evalP M c (y :: x) = 0 :=
                hv (i :: l) (y :: x) (by simp [hl'])
                  (hdown _ _ (.cons ⟨hi1, by omega⟩ hrefl) hI) (.cons hy hx)
              rw [evalP] at h0
              rw [← h0]
              apply Finset.sum_subset
              · intro k' hk'
                rw [Finset.mem_range] at hk' ⊢
                exact lt_of_lt_of_le hk' (hM _ (by omega))
              · intro k' hk' hnot
                rw [Finset.mem_range] at hk' hnot
                have hlev' : N - t < lev k' := by
                  by_contra hcon
                  exact hnot ((lev_le_iff k' (N - t)).mp (by omega))
                rw [evalP_congr M x _ (fun _ => 0) (fun ks h1 h2 => ih k' hk' hlev' ks (by omega) h2),
                  evalP_zero, mul_zero])
            exact this k ((lev_le_iff k (N - t)).mp (by omega))
    cases ks with
    | nil => simp at hl
    | cons k ks =>
      have := lev_pos k
      exact key N k (hks k (by simp)) (by omega) ks (by simpa using hl) fun k' h' => hks k' (by simp [h'])

end Interp.Smolyak
