import Verif.Model.Objects
import Verif.Proofs.ExceptLemmas

/-!
# Which exception wrongly sized bounds raise: C86

In any arithmetic.
-/

namespace Interp.Props
open Interp.Codegen Interp.Cartesian Interp.Objects

theorem mapM_error {α β : Type} (f : α → Py β) (e : Err) (l : List α)
    (h : ∀ a ∈ l, f a = .error e ∨ ∃ b, f a = .ok b) (hx : ∃ a ∈ l, f a = .error e) :
    l.mapM f = .error e := by
  induction l with
  | nil => simp at hx
  | cons a l ih =>
    rw [List.mapM_cons]
    rcases h a (by simp) with ha | ⟨b, ha⟩
    · rw [ha]; rfl
    · rw [ha, ih (fun c hc => h c (by simp [hc]))]
      · rfl
      · obtain ⟨c, hc, hce⟩ := hx
        rcases List.mem_cons.1 hc with rfl | hc
        · rw [ha] at hce; cases hce
        · exact ⟨c, hc, hce⟩

theorem pyIndexNat_lt {α : Type} {l : List α} {i : ℕ} (h : i < l.length) : pyIndexNat l i = .ok l[i] := by
  simp [pyIndexNat, h]

theorem pyIndexNat_ge {α : Type} {l : List α} {i : ℕ} (h : l.length ≤ i) :
    pyIndexNat l i = .error .index := by
  simp [pyIndexNat, List.getElem?_eq_none h]

variable {K : Type}

section
variable [Add K] [Sub K] [Mul K] [Div K] [Zero K] [IntCast K] [NatCast K] [BEq K]

theorem linspace_ok (a b : K) {n : ℤ} (h : 0 ≤ n) : ∃ l, linspace a b n = .ok l := by
  rw [linspace, if_neg (by omega)]
  simp only
  split
  · split <;> exact ⟨_, rfl⟩
  · exact ⟨_, rfl⟩

/-- C86. `mlinspace` with fewer bounds than numbers of nodes raises `IndexError`. -/
theorem C86_mlinspace_short (a b : List K) (nums : List ℤ) (order : String) (hn : ∀ n ∈ nums, 0 ≤ n)
    (hs : a.length < nums.length ∨ b.length < nums.length) :
    mlinspace a b nums order = .error .index := by
  rw [mlinspace, mapM_error _ .index]
  · rfl
  · intro i hi
    rw [List.mem_range] at hi
    by_cases ha : i < a.length
    · by_cases hb : i < b.length
      · right
        obtain ⟨l, hl⟩ := linspace_ok a[i] b[i] (hn nums[i] (List.getElem_mem hi))
        exact ⟨l, by simp only [pyIndexNat_lt ha, pyIndexNat_lt hb, pyIndexNat_lt hi, ok_bind, hl]⟩
      · left
        simp only [pyIndexNat_lt ha, pyIndexNat_ge (not_lt.1 hb), ok_bind]; rfl
    · left
      simp only [pyIndexNat_ge (not_lt.1 ha)]; rfl
  · rcases hs with hs | hs
    · refine ⟨a.length, by simpa using hs, ?_⟩
      simp only [pyIndexNat_ge le_rfl]; rfl
    · refine ⟨b.length, by simpa using hs, ?_⟩
      by_cases ha : b.length < a.length
      · simp only [pyIndexNat_lt ha, pyIndexNat_ge le_rfl, ok_bind]; rfl
      · simp only [pyIndexNat_ge (not_lt.1 ha)]; rfl

/-- C86. `mlinspace` with a negative number of nodes raises `ValueError`. -/
theorem C86_mlinspace_negative (a b : List K) (nums : List ℤ) (order : String)
    (hn : ∃ n ∈ nums, n < 0) (ha : nums.length ≤ a.length) (hb : nums.length ≤ b.length) :
    mlinspace a b nums order = .error .value := by
  rw [mlinspace, mapM_error _ .value]
  · rfl
  · intro i hi
    rw [List.mem_range] at hi
    simp only [pyIndexNat_lt (hi.trans_le ha), pyIndexNat_lt (hi.trans_le hb), pyIndexNat_lt hi, ok_bind]
    by_cases h0 : nums[i] < 0
    · left; rw [linspace, if_pos h0]; rfl
    · right; exact linspace_ok _ _ (not_lt.1 h0)
  · obtain ⟨n, hn, h0⟩ := hn
    obtain ⟨i, hi, rfl⟩ := List.getElem_of_mem hn
    refine ⟨i, by simpa using hi, ?_⟩
    simp only [pyIndexNat_lt (hi.trans_le ha), pyIndexNat_lt (hi.trans_le hb), pyIndexNat_lt hi, ok_bind]
    rw [linspace, if_pos h0]; rfl

/-- C86. The `grid` of a linear spline object: `IndexError` when there are fewer bounds than orders. -/
theorem C86_linear_grid_short (smin smax : List K) (orders : List ℕ) (h2 : 2 ≤ orders.length)
    (hs : smin.length < orders.length ∨ smax.length < orders.length) :
    mlinspaceColumns smin smax orders = .error .index := by
  rw [mlinspaceColumns, if_neg (by omega), if_neg (by omega)]
  simp only [pure_eq_ok, ok_bind]
  rw [mapM_error _ .index]
  · rfl
  · intro i hi
    rw [List.mem_range] at hi
    by_cases ha : i < smin.length
    · by_cases hb : i < smax.length
      · right
        obtain ⟨l, hl⟩ := linspace_ok smin[i] smax[i] (Int.natCast_nonneg orders[i])
        exact ⟨l, by simp only [pyIndexNat_lt ha, pyIndexNat_lt hb, pyIndexNat_lt hi, ok_bind, hl]⟩
      · left
        simp only [pyIndexNat_lt ha, pyIndexNat_ge (not_lt.1 hb), ok_bind]; rfl
    · left
      simp only [pyIndexNat_ge (not_lt.1 ha)]; rfl
  · rcases hs with hs | hs
    · refine ⟨smin.length, by simpa using hs, ?_⟩
      simp only [pyIndexNat_ge le_rfl]; rfl
    · refine ⟨smax.length, by simpa using hs, ?_⟩
      by_cases ha : smax.length < smin.length
      · simp only [pyIndexNat_lt ha, pyIndexNat_ge le_rfl, ok_bind]; rfl
      · simp only [pyIndexNat_ge (not_lt.1 ha)]; rfl

end

/-- C86. The grid of a cubic spline object: `IndexError` when there are more lower bounds than upper bounds
or orders. -/
theorem C86_cubic_grid_short (a b : List K) (orders : List ℕ)
    (hs : b.length < a.length ∨ orders.length < a.length) : gridTuple a b orders = .error .index := by
  have hc : ∀ i < a.length, (b.length ≤ i ∨ orders.length ≤ i) →
      (do let ai ← pyIndexNat a i; let bi ← pyIndexNat b i; let ni ← pyIndexNat orders i
          pure (GridDim.uniform ai bi (ni : ℤ)) : Py _) = .error .index := by
    intro i hi h
    by_cases hb : i < b.length
    · have ho : orders.length ≤ i := by omega
      simp only [pyIndexNat_lt hi, pyIndexNat_lt hb, pyIndexNat_ge ho, ok_bind]; rfl
    · simp only [pyIndexNat_lt hi, pyIndexNat_ge (not_lt.1 hb), ok_bind]; rfl
  apply mapM_error
  · intro i hi
    rw [List.mem_range] at hi
    by_cases h : b.length ≤ i ∨ orders.length ≤ i
    · exact .inl (hc i hi h)
    · right
      have h1 : i < b.length := by omega
      have h2 : i < orders.length := by omega
      exact ⟨_, by simp only [pyIndexNat_lt hi, pyIndexNat_lt h1, pyIndexNat_lt h2, ok_bind]; rfl⟩
  · rcases hs with hs | hs
    · exact ⟨b.length, by simpa using hs, hc _ hs (.inl le_rfl)⟩
    · exact ⟨orders.length, by simpa using hs, hc _ hs (.inr le_rfl)⟩

/-! ## The hypotheses are satisfiable -/

example : mlinspace [(0 : ℚ)] [1, 2] [3, 4] "C" = .error .index :=
  C86_mlinspace_short _ _ _ _ (by simp) (.inl (by simp))

example : mlinspace [(0 : ℚ), 1] [1, 2] [3, -4] "F" = .error .value :=
  C86_mlinspace_negative _ _ _ _ ⟨-4, by simp, by omega⟩ (by simp) (by simp)

example : mlinspaceColumns [(0 : ℚ), 0] [1] [3, 4] = .error .index :=
  C86_linear_grid_short _ _ _ (by simp) (.inr (by simp))

example : gridTuple [(0 : ℚ), 0, 0] [1, 1, 1] [3, 4] = .error .index :=
  C86_cubic_grid_short _ _ _ (.inr (by simp))

end Interp.Props
