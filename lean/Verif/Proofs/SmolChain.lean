import Verif.Proofs.SmolInds
import Verif.Proofs.TrigReal
import Mathlib.Analysis.SpecialFunctions.Trigonometric.Bounds
import Mathlib.Analysis.Real.Pi.Bounds
import Mathlib.RingTheory.Polynomial.Chebyshev
import Mathlib.Analysis.SpecialFunctions.Trigonometric.Chebyshev.Basic
import Mathlib.Tactic.FieldSimp
import Mathlib.Tactic.Positivity

/-!
# One-dimensional Smolyak sets
-/

set_option linter.unusedSectionVars false

namespace Interp.Smolyak
open Real

/-! ### Sizes -/

/-- `m 0 = 0`, `m 1 = 1`, `m i = 2 ^ (i - 1) + 1`. -/
def mSize : ℕ → ℕ
  | 0 => 0
  | 1 => 1
  | i + 2 => 2 ^ (i + 1) + 1

theorem mI_ok (i : ℕ) : mI (i : ℤ) = .ok (mSize i : ℤ) := by
  unfold mI
  rw [if_neg (by omega)]
  rcases i with _ | _ | i
  · simp [mSize]
  · simp [mSize]
  · rw [if_neg (by omega), if_neg (by omega), pure_eq_ok]
    have : (((i + 1 + 1 : ℕ) : ℤ) - 1).toNat = i + 1 := by omega
    rw [this]
    simp [mSize]

theorem mSize_lt : ∀ i, mSize i < mSize (i + 1)
  | 0 => by simp [mSize]
  | 1 => by simp [mSize]
  | i + 2 => by
    show 2 ^ (i + 1) + 1 < 2 ^ (i + 2) + 1
    exact Nat.succ_lt_succ (Nat.pow_lt_pow_right (by omega) (by omega))

theorem mSize_mono : StrictMono mSize := strictMono_nat_of_lt_succ mSize_lt

theorem lt_mSize (k : ℕ) : k < mSize (k + 1) := lt_of_lt_of_le (Nat.lt_succ_self k) (mSize_mono.id_le (k + 1))

/-- Level of the basis function number `k` (counted from zero): the least `i` with `k < m i`. -/
def lev (k : ℕ) : ℕ := Nat.find (⟨k + 1, lt_mSize k⟩ : ∃ i, k < mSize i)

theorem lev_le_iff (k n : ℕ) : lev k ≤ n ↔ k < mSize n := by
  unfold lev
  rw [Nat.find_le_iff]
  constructor
  · rintro ⟨m, hm, h⟩; exact lt_of_lt_of_le h (mSize_mono.monotone hm)
  · intro h; exact ⟨n, le_rfl, h⟩

theorem lev_pos (k : ℕ) : 1 ≤ lev k := by
  by_contra h
  have : lev k ≤ 0 := by omega
  rw [lev_le_iff] at this
  simp [mSize] at this

theorem lev_eq_iff (k i : ℕ) (hi : 1 ≤ i) : lev k = i ↔ mSize (i - 1) ≤ k ∧ k < mSize i := by
  have h1 := lev_le_iff k i
  have h2 := lev_le_iff k (i - 1)
  omega

/-- Basis functions of level `i`, counted from one. -/
def phiLevel (i : ℕ) : List ℤ := rangeZ (mSize (i - 1) + 1) (mSize i + 1)

theorem mem_phiLevel (i : ℕ) (hi : 1 ≤ i) (c : ℤ) :
    c ∈ phiLevel i ↔ 1 ≤ c ∧ lev (c - 1).toNat = i := by
  rw [phiLevel, mem_rangeZ, lev_eq_iff _ _ hi]
  omega

theorem phiLevel_length (i : ℕ) : (phiLevel i).length = mSize i - mSize (i - 1) := by
  simp only [phiLevel, rangeZ, List.length_map, List.length_range]; omega

theorem phiLevel_nodup (i : ℕ) : (phiLevel i).Nodup := (rangeZ_sorted _ _).imp fun h => ne_of_lt h

theorem rangeZ_snoc (lo : ℤ) (n : ℕ) : rangeZ lo (lo + (n + 1 : ℕ)) = rangeZ lo (lo + n) ++ [lo + n] := by
  simp only [rangeZ]
  rw [show (lo + ((n + 1 : ℕ) : ℤ) - lo).toNat = n + 1 by omega,
    show (lo + (n : ℤ) - lo).toNat = n by omega, List.range_succ, List.map_append]
  rfl

/-- The dictionary made by `phi_chain`. -/
theorem phiChain_lookup (n : ℕ) (i : ℕ) (hi : 1 ≤ i) (hin : i ≤ n) (hn : 2 ≤ n) :
    dictGet (phiChain n) i = .ok (phiLevel i) := by
  have key : ∀ t : ℕ, ∀ D c, ((rangeZ 3 (3 + t)).foldl (fun (s : Dict ℤ × ℤ) i =>
      let end_val := 2 ^ (i - 1).toNat + 1
      let temp := rangeZ s.2 (end_val + 1)
      ((i, temp) :: s.1, end_val + 1)) ([(2, [2, 3]), (1, [1])], 4)) = (D, c) →
      c = mSize (t + 2) + 1 ∧ ∀ i : ℕ, 1 ≤ i → i ≤ t + 2 → D.lookup (i : ℤ) = some (phiLevel i) := by
    intro t
    induction t with
    | zero =>
      intro D c h
      simp only [rangeZ, Nat.cast_zero, add_zero, sub_self, Int.toNat_zero, List.range_zero,
        List.map_nil, List.foldl_nil, Prod.mk.injEq] at h
      obtain ⟨rfl, rfl⟩ := h
      refine ⟨by simp [mSize], fun i h1 h2 => ?_⟩
      have : i = 1 ∨ i = 2 := by omega
      rcases this with rfl | rfl <;> rfl
    | succ t ih =>
      intro D c h
      rw [rangeZ_snoc, List.foldl_append] at h
      generalize hs : (rangeZ 3 (3 + (t : ℤ))).foldl (fun (s : Dict ℤ × ℤ) i =>
        let end_val := 2 ^ (i - 1).toNat + 1
        let temp := rangeZ s.2 (end_val + 1)
        ((i, temp) :: s.1, end_val + 1)) ([(2, [2, 3]), (1, [1])], 4) = s at h
      obtain ⟨D', c'⟩ := s
      obtain ⟨h1, h2⟩ := ih D' c' hs
      simp only [List.foldl_cons, List.foldl_nil, Prod.mk.injEq] at h
      obtain ⟨rfl, rfl⟩ := h
      have e1 : (2 : ℤ) ^ (3 + (t : ℤ) - 1).toNat + 1 = mSize (t + 1 + 2) := by
        rw [show (3 + (t : ℤ) - 1).toNat = t + 1 + 1 by omega]
        simp [mSize]
      refine ⟨by rw [e1], fun i hi1 hi2 => ?_⟩
      rcases Nat.lt_or_ge i (t + 3) with h | h
      · rw [List.lookup_cons, show ((i : ℤ) == 3 + (t : ℤ)) = false by simp; omega]
        exact h2 i hi1 (by omega)
      · have : i = t + 3 := by omega
        subst this
        rw [List.lookup_cons, show (((t + 3 : ℕ) : ℤ) == 3 + (t : ℤ)) = true by simp; omega, e1, h1]
        rfl
  obtain ⟨t, rfl⟩ : ∃ t, n = t + 2 := ⟨n - 2, by omega⟩
  have e : (((t + 2 : ℕ) : ℤ) + 1) = 3 + (t : ℤ) := by push_cast; ring
  have := (key t _ _ rfl).2 i hi hin
  rw [dictGet, phiChain, e, this]
  rfl

/-! ### Nodes -/

theorem evens_range {α : Type} (f : ℕ → α) : ∀ n, evens ((List.range (2 * n + 1)).map f)
    = (List.range (n + 1)).map fun j => f (2 * j)
  | 0 => rfl
  | n + 1 => by
    have := evens_range (fun j => f (j + 2)) n
    rw [show 2 * (n + 1) + 1 = (2 * n + 1) + 1 + 1 by ring, List.range_succ_eq_map,
      List.range_succ_eq_map]
    simp only [List.map_cons, List.map_map, evens]
    rw [show (f ∘ Nat.succ ∘ Nat.succ) = fun j => f (j + 2) from rfl, this,
      List.range_succ_eq_map (n := n + 1), List.map_cons, List.map_map]
    rfl

theorem odds_range {α : Type} (f : ℕ → α) : ∀ n, odds ((List.range (2 * n + 1)).map f)
    = (List.range n).map fun j => f (2 * j + 1)
  | 0 => rfl
  | n + 1 => by
    have := odds_range (fun j => f (j + 2)) n
    rw [show 2 * (n + 1) + 1 = (2 * n + 1) + 1 + 1 by ring, List.range_succ_eq_map,
      List.range_succ_eq_map]
    simp only [List.map_cons, List.map_map, odds]
    rw [show (f ∘ Nat.succ ∘ Nat.succ) = fun j => f (j + 2) from rfl, this,
      List.range_succ_eq_map (n := n), List.map_cons, List.map_map]
    rfl

/-- Entry `j` of `s_n(n)`. -/
noncomputable def sNode (n j : ℕ) : ℝ := flush (-cos (π * j / 2 ^ (n - 1)))

theorem sN_eq (n : ℕ) (hn : 2 ≤ n) : (sN n : List ℝ) = (List.range (2 ^ (n - 1) + 1)).map (sNode n) := by
  unfold sN
  rw [if_neg (by omega)]
  simp only [List.map_map]
  refine List.map_congr_left fun j _ => ?_
  simp only [Function.comp, sNode]
  congr 1
  push_cast
  rw [add_sub_cancel_right, add_sub_cancel_right]
  simp only [neg_mul, one_mul]
  rfl

theorem sNode_even (n j : ℕ) (hn : 1 ≤ n) : sNode (n + 1) (2 * j) = sNode n j := by
  unfold sNode
  congr 3
  obtain ⟨n, rfl⟩ : ∃ t, n = t + 1 := ⟨n - 1, by omega⟩
  simp only [Nat.add_sub_cancel]
  push_cast
  rw [pow_succ]
  field_simp

/-- The nodes of level `i`. -/
noncomputable def aLevel (i : ℕ) : List ℝ :=
  if i = 1 then [0]
  else if i = 2 then [-1, 1]
  else (List.range (2 ^ (i - 2))).map fun k => sNode i (2 * k + 1)

theorem odds_sN (n : ℕ) (hn : 3 ≤ n) :
    odds ((List.range (2 ^ (n - 1) + 1)).map (sNode n)) = aLevel n := by
  obtain ⟨n, rfl⟩ : ∃ t, n = t + 3 := ⟨n - 3, by omega⟩
  rw [aLevel, if_neg (by omega), if_neg (by omega), show 2 ^ (n + 3 - 1) + 1 = 2 * 2 ^ (n + 1) + 1 by
    rw [show n + 3 - 1 = (n + 1) + 1 by omega, pow_succ]; ring, odds_range]
  rfl

theorem evens_sN (n : ℕ) (hn : 2 ≤ n) :
    evens ((List.range (2 ^ n + 1)).map (sNode (n + 1)))
      = (List.range (2 ^ (n - 1) + 1)).map (sNode n) := by
  obtain ⟨n, rfl⟩ : ∃ t, n = t + 1 := ⟨n - 1, by omega⟩
  rw [pow_succ, mul_comm, evens_range]
  refine List.map_congr_left fun j _ => ?_
  exact sNode_even (n + 1) j (by omega)

theorem rangeDownZ_cons (n : ℕ) (hn : 2 ≤ n) :
    rangeDownZ ((n + 1 : ℕ) : ℤ) 2 = ((n + 1 : ℕ) : ℤ) :: rangeDownZ (n : ℤ) 2 := by
  simp only [rangeDownZ]
  rw [show (((n + 1 : ℕ) : ℤ) - 2).toNat = ((n : ℤ) - 2).toNat + 1 by omega, List.range_succ_eq_map,
    List.map_cons, List.map_map]
  refine List.cons_eq_cons.mpr ⟨by simp, ?_⟩
  refine List.map_congr_left fun j _ => ?_
  simp only [Function.comp, Int.ofNat_eq_natCast]; push_cast; ring

/-- The dictionary made by `a_chain`. -/
theorem aChain_lookup (n i : ℕ) (hi : 1 ≤ i) (hin : i ≤ n) (hn : 2 ≤ n) :
    dictGet (aChain n : Dict ℝ) i = .ok (aLevel i) := by
  have key : ∀ t : ℕ, ∀ D : Dict ℝ, ∀ i : ℕ, 
      ((rangeDownZ ((t + 2 : ℕ) : ℤ) 2).foldl (fun (s : Dict ℝ × List ℝ) seq =>
        ((seq, odds s.2) :: s.1, evens s.2))
        (D, (List.range (2 ^ (t + 2 - 1) + 1)).map (sNode (t + 2)))).1.lookup (i : ℤ)
      = if 3 ≤ i ∧ i ≤ t + 2 then some (aLevel i) else D.lookup (i : ℤ) := by
    intro t
    induction t with
    | zero =>
      intro D i
      rw [if_neg (by omega)]
      rfl
    | succ t ih =>
      intro D i
      have e := rangeDownZ_cons (t + 2) (by omega)
      have e1 : t + 1 + 2 = t + 2 + 1 := by ring
      rw [e1, e, List.foldl_cons]
      simp only
      rw [odds_sN (t + 2 + 1) (by omega)]
      have e2 := evens_sN (t + 2) (by omega)
      rw [show t + 2 + 1 - 1 = t + 2 by omega, e2, ih]
      by_cases h : 3 ≤ i ∧ i ≤ t + 2
      · rw [if_pos h, if_pos (by omega)]
      · rw [if_neg h]
        by_cases h' : i = t + 3
        · subst h'
          rw [if_pos (by omega), List.lookup_cons, show (((t + 3 : ℕ) : ℤ) == ((t + 2 + 1 : ℕ) : ℤ)) = true by rw [beq_iff_eq]]
        · rw [if_neg (by omega), List.lookup_cons, show ((i : ℤ) == ((t + 2 + 1 : ℕ) : ℤ)) = false by
            rw [beq_eq_false_iff_ne]; omega]
  obtain ⟨t, rfl⟩ : ∃ t, n = t + 2 := ⟨n - 2, by omega⟩
  rw [dictGet, aChain, sN_eq _ hn, key t _ i]
  by_cases h : 3 ≤ i
  · rw [if_pos ⟨h, hin⟩]; rfl
  · rw [if_neg (by omega)]
    have : i = 1 ∨ i = 2 := by omega
    rcases this with rfl | rfl
    · simp [aLevel, List.lookup]
    · simp [aLevel, List.lookup]

theorem aLevel_length (i : ℕ) (hi : 1 ≤ i) : (aLevel i).length = mSize i - mSize (i - 1) := by
  rcases i with _ | _ | _ | i
  · omega
  · simp [aLevel, mSize]
  · simp [aLevel, mSize]
  · rw [aLevel, if_neg (by omega), if_neg (by omega), List.length_map, List.length_range]
    simp only [Nat.add_sub_cancel, mSize, show i + 3 - 2 = i + 1 by omega]
    rw [pow_succ 2 (i + 1)]
    omega

/-! ### Flushing to zero -/

theorem absK_eq (x : ℝ) : absK x = |x| := by
  unfold absK
  split
  · rename_i h; rw [abs_of_neg h]
  · rename_i h; rw [abs_of_nonneg (not_lt.mp h)]

theorem flush_eq (x : ℝ) : flush x = if |x| < 1 / 10 ^ 14 then 0 else x := by
  unfold flush
  rw [absK_eq]; rfl

theorem sin_small (n : ℕ) (hn : n ≤ 48) : (1 : ℝ) / 10 ^ 14 ≤ sin (π / 2 ^ n) ∨ n ≤ 1 := by
  rcases Nat.lt_or_ge 1 n with h | h
  · left
    have h1 : (0:ℝ) < 2 ^ n := by positivity
    have h3 : sin (π / 2 ^ 48) ≤ sin (π / 2 ^ n) := by
      apply Real.sin_le_sin_of_le_of_le_pi_div_two
      · have : (0:ℝ) ≤ π / 2 ^ 48 := by positivity
        linarith [pi_pos]
      · apply div_le_div_of_nonneg_left pi_pos.le (by norm_num)
        calc (2:ℝ) = 2 ^ 1 := by norm_num
          _ ≤ 2 ^ n := pow_le_pow_right₀ (by norm_num) (by omega)
      · apply div_le_div_of_nonneg_left pi_pos.le (by positivity)
        exact pow_le_pow_right₀ (by norm_num) hn
    refine le_trans ?_ h3
    set x := π / 2 ^ 48 with hx
    have hx0 : 0 < x := by positivity
    have hx1 : x ≤ 1 / 2 ^ 46 := by
      rw [hx, div_le_div_iff₀ (by positivity) (by positivity)]
      nlinarith [pi_lt_d2]
    have hx2 : 3.14 / 2 ^ 48 ≤ x := by
      rw [hx]; gcongr; exact pi_gt_d2.le
    have h4 := sin_gt_sub_cube hx0
    have h5 : x ^ 3 ≤ (1 / 2 ^ 46) ^ 3 := by gcongr
    norm_num at *
    linarith
  · right; exact h

/-- Up to level 49 no node is wrongly replaced by zero. -/
theorem sNode_exact (n j : ℕ) (hn : 2 ≤ n) (h49 : n ≤ 49) (hj : j ≤ 2 ^ (n - 1)) :
    sNode n j = -cos (π * j / 2 ^ (n - 1)) := by
  obtain ⟨m, rfl⟩ : ∃ m, n = m + 2 := ⟨n - 2, by omega⟩
  simp only [show m + 2 - 1 = m + 1 by omega] at *
  unfold sNode
  rw [flush_eq, show m + 2 - 1 = m + 1 by omega]
  split
  · rename_i h
    rw [abs_neg] at h
    -- distance to the middle
    have e : cos (π * j / 2 ^ (m + 1)) = sin (((2:ℝ) ^ m - j) * (π / 2 ^ (m + 1))) := by
      rw [← cos_pi_div_two_sub]
      congr 1
      rw [pow_succ]; field_simp; ring
    rw [e] at h ⊢
    rcases eq_or_ne ((2 ^ m : ℕ)) j with hj' | hj'
    · rw [← hj']; push_cast; simp
    · exfalso
      have hpos : 0 < π / 2 ^ (m + 1) := by positivity
      have hr1 : (1:ℝ) ≤ |(2:ℝ) ^ m - j| := by
        have : (1 : ℤ) ≤ |(2:ℤ) ^ m - j| := by
          apply Int.one_le_abs
          intro h0
          apply hj'
          have : ((2 ^ m : ℕ) : ℤ) = j := by push_cast; omega
          exact_mod_cast this
        exact_mod_cast this
      have hr2 : |(2:ℝ) ^ m - j| ≤ 2 ^ m := by
        rw [abs_le]
        have hj2 : (j:ℝ) ≤ 2 ^ (m + 1) := by exact_mod_cast hj
        rw [pow_succ] at hj2
        have hj0 : (0:ℝ) ≤ j := by positivity
        constructor <;> linarith
      have hle : |(2:ℝ) ^ m - j| * (π / 2 ^ (m + 1)) ≤ π / 2 := by
        calc |(2:ℝ) ^ m - j| * (π / 2 ^ (m + 1)) ≤ 2 ^ m * (π / 2 ^ (m + 1)) := by gcongr
          _ = π / 2 := by rw [pow_succ]; field_simp
      have habs : |sin (((2:ℝ) ^ m - j) * (π / 2 ^ (m + 1)))|
          = sin (|(2:ℝ) ^ m - j| * (π / 2 ^ (m + 1))) := by
        have h0 : 0 ≤ sin (|(2:ℝ) ^ m - j| * (π / 2 ^ (m + 1))) :=
          sin_nonneg_of_nonneg_of_le_pi (by positivity) (by linarith [pi_pos])
        rcases abs_choice ((2:ℝ) ^ m - j) with h1 | h1
        · rw [h1] at h0 ⊢; exact abs_of_nonneg h0
        · rw [h1, neg_mul, sin_neg] at h0 ⊢
          exact abs_of_nonpos (by linarith)
      rw [habs] at h
      have hmon : sin (π / 2 ^ (m + 1)) ≤ sin (|(2:ℝ) ^ m - j| * (π / 2 ^ (m + 1))) := by
        apply sin_le_sin_of_le_of_le_pi_div_two
        · linarith [pi_pos]
        · exact hle
        · nlinarith
      rcases sin_small (m + 1) (by omega) with h1 | h1
      · linarith
      · have hm : m = 0 := by omega
        subst hm
        norm_num at hmon h
        linarith
  · rfl

theorem sNode_inj (n i j : ℕ) (hn : 2 ≤ n) (h49 : n ≤ 49) (hi : i ≤ 2 ^ (n - 1)) (hj : j ≤ 2 ^ (n - 1))
    (h : sNode n i = sNode n j) : i = j := by
  rw [sNode_exact n i hn h49 hi, sNode_exact n j hn h49 hj, neg_inj] at h
  have hN : (0:ℝ) < 2 ^ (n - 1) := by positivity
  have mem : ∀ k : ℕ, k ≤ 2 ^ (n - 1) → π * k / 2 ^ (n - 1) ∈ Set.Icc 0 π := by
    intro k hk
    have hk' : (k:ℝ) ≤ 2 ^ (n - 1) := by exact_mod_cast hk
    constructor
    · positivity
    · rw [div_le_iff₀ hN]; exact mul_le_mul_of_nonneg_left hk' pi_pos.le
  have := injOn_cos (mem i hi) (mem j hj) h
  rw [div_left_inj' hN.ne', mul_right_inj' pi_ne_zero] at this
  exact_mod_cast this

/-- Every node of level `i <= n` is an entry of `s_n(n)`; the position is `2 ^ (n - i)` times an odd
number, except for levels one and two. -/
theorem aLevel_sNode (n i : ℕ) (hi : 1 ≤ i) (hin : i ≤ n) (hn : 2 ≤ n) (h49 : n ≤ 49) (x : ℝ) :
    x ∈ aLevel i ↔ ∃ j, j ≤ 2 ^ (n - 1) ∧ x = sNode n j ∧
      ((i = 1 ∧ 2 * j = 2 ^ (n - 1)) ∨ (i = 2 ∧ (j = 0 ∨ j = 2 ^ (n - 1))) ∨
        (3 ≤ i ∧ ∃ k < 2 ^ (i - 2), j = 2 ^ (n - i) * (2 * k + 1))) := by
  have hp : 2 ^ (n - 1) = 2 * 2 ^ (n - 2) := by
    rw [show n - 1 = (n - 2) + 1 by omega, pow_succ, mul_comm]
  have hmid : sNode n (2 ^ (n - 2)) = 0 := by
    rw [sNode_exact n _ hn h49 (by omega)]
    push_cast
    rw [show n - 1 = (n - 2) + 1 by omega, pow_succ, neg_eq_zero,
      show π * 2 ^ (n - 2) / (2 ^ (n - 2) * 2) = π / 2 by field_simp]
    exact cos_pi_div_two
  have h0 : sNode n 0 = -1 := by
    rw [sNode_exact n _ hn h49 (by omega)]; simp
  have h1 : sNode n (2 ^ (n - 1)) = 1 := by
    rw [sNode_exact n _ hn h49 le_rfl]
    push_cast
    rw [mul_div_assoc, div_self (by positivity), mul_one, cos_pi, neg_neg]
  have hev : ∀ t k, 1 ≤ i → sNode (i + t) (2 ^ t * k) = sNode i k := by
    intro t
    induction t with
    | zero => intro k _; simp
    | succ t ih =>
      intro k hi
      rw [show i + (t + 1) = (i + t) + 1 by ring, pow_succ, show 2 ^ t * 2 * k = 2 * (2 ^ t * k) by ring,
        sNode_even _ _ (by omega), ih k hi]
  rcases Nat.lt_trichotomy i 2 with h | h | h
  · have : i = 1 := by omega
    subst this
    rw [aLevel, if_pos rfl, List.mem_singleton]
    constructor
    · rintro rfl
      exact ⟨2 ^ (n - 2), by omega, hmid.symm, Or.inl ⟨rfl, by omega⟩⟩
    · rintro ⟨j, hj, rfl, h | h | h⟩
      · have : j = 2 ^ (n - 2) := by omega
        rw [this]; exact hmid
      · omega
      · omega
  · subst h
    rw [aLevel, if_neg (by omega), if_pos rfl]
    constructor
    · intro h
      have : x = -1 ∨ x = 1 := by simpa using h
      rcases this with rfl | rfl
      · exact ⟨0, by omega, h0.symm, Or.inr (Or.inl ⟨rfl, Or.inl rfl⟩)⟩
      · exact ⟨2 ^ (n - 1), le_rfl, h1.symm, Or.inr (Or.inl ⟨rfl, Or.inr rfl⟩)⟩
    · rintro ⟨j, hj, rfl, h | h | h⟩
      · omega
      · rcases h.2 with rfl | rfl
        · rw [h0]; simp
        · rw [h1]; simp
      · omega
  · rw [aLevel, if_neg (by omega), if_neg (by omega), List.mem_map]
    have hpi : 2 ^ (n - i) * (2 * 2 ^ (i - 2)) = 2 ^ (n - 1) := by
      rw [show 2 * 2 ^ (i - 2) = 2 ^ (i - 1) by rw [show i - 1 = (i - 2) + 1 by omega, pow_succ, mul_comm],
        ← pow_add]
      congr 1; omega
    constructor
    · rintro ⟨k, hk, rfl⟩
      rw [List.mem_range] at hk
      refine ⟨2 ^ (n - i) * (2 * k + 1), ?_, ?_, Or.inr (Or.inr ⟨by omega, k, hk, rfl⟩)⟩
      · rw [← hpi]; exact Nat.mul_le_mul_left _ (by omega)
      · have := hev (n - i) (2 * k + 1) hi
        rw [show i + (n - i) = n by omega] at this
        exact this.symm
    · rintro ⟨j, hj, rfl, h | h | ⟨_, k, hk, rfl⟩⟩
      · omega
      · omega
      · refine ⟨k, List.mem_range.mpr hk, ?_⟩
        have := hev (n - i) (2 * k + 1) hi
        rw [show i + (n - i) = n by omega] at this
        exact this.symm

end Interp.Smolyak
