import Verif.Spec.Grid
import Verif.Spec.SplineRef
import Verif.Proofs.CodegenRun
import Mathlib.Tactic.FieldSimp
import Mathlib.Tactic.Ring
import Mathlib.Tactic.Linarith
import Mathlib.Algebra.Order.Floor.Semiring

/-! Facts about one axis, in exact arithmetic. -/

set_option linter.unusedSectionVars false
set_option linter.unusedSimpArgs false

namespace Interp.Codegen
open Interp.Ref Interp.Spec

variable {F : Type} [Field F] [LinearOrder F] [IsStrictOrderedRing F] [FloorRing F]

theorem size_eq (g : GridDim F) : size g = nNodes g := by cases g <;> rfl

theorem ValidAxis.two_le {g : GridDim F} (h : ValidAxis g) : 2 ≤ nNodes g := by
  cases g with
  | uniform a b n =>
    have h2 : 2 ≤ n := h.2
    show 2 ≤ n.toNat
    omega
  | array gc => exact h.1

/-- Spacing of a uniform axis. -/
theorem uniform_pos {a b : F} {n : ℤ} (h : ValidAxis (.uniform a b n)) :
    (0 : F) < (n : F) - 1 ∧ 0 < b - a := by
  obtain ⟨h1, h2⟩ := h
  have : (2 : F) ≤ (n : F) := by exact_mod_cast h2
  constructor <;> linarith

theorem getD_of_lt (l : List F) (i : ℕ) (h : i < l.length) : l.getD i 0 = l[i] := by
  rw [List.getD_eq_getElem?_getD, List.getElem?_eq_getElem h]; rfl

theorem node_lt {g : GridDim F} (h : ValidAxis g) {i j : ℕ} (hij : i < j) (hj : j < nNodes g) :
    node g i < node g j := by
  cases g with
  | uniform a b n =>
    obtain ⟨h1, h2⟩ := uniform_pos h
    have h3 : 0 < (b - a) / ((n : F) - 1) := div_pos h2 h1
    have h4 : (i : F) < (j : F) := by exact_mod_cast hij
    show a + _ < a + _
    have := mul_lt_mul_of_pos_right h4 h3
    linarith
  | array gc =>
    have hj' : j < gc.length := hj
    have := List.pairwise_iff_getElem.1 h.2 i j (by omega) hj' hij
    show gc.getD i 0 < gc.getD j 0
    rw [getD_of_lt _ _ hj', getD_of_lt _ _ (by omega)]
    exact this

theorem node_le {g : GridDim F} (h : ValidAxis g) {i j : ℕ} (hij : i ≤ j) (hj : j < nNodes g) :
    node g i ≤ node g j := by
  rcases Nat.lt_or_eq_of_le hij with h' | rfl
  · exact (node_lt h h' hj).le
  · exact le_rfl

theorem node_lt_iff {g : GridDim F} (h : ValidAxis g) {i j : ℕ} (hi : i < nNodes g)
    (hj : j < nNodes g) : node g i < node g j ↔ i < j := by
  refine ⟨fun hlt => ?_, fun hlt => node_lt h hlt hj⟩
  by_contra hcon
  have := node_le h (Nat.le_of_not_lt hcon) hi
  exact absurd hlt (not_lt.2 this)

theorem node_le_iff {g : GridDim F} (h : ValidAxis g) {i j : ℕ} (hi : i < nNodes g)
    (hj : j < nNodes g) : node g i ≤ node g j ↔ i ≤ j := by
  rw [← not_lt, node_lt_iff h hj hi, not_lt]

theorem wf_of_valid {g : GridDim F} (h : ValidAxis g) : WF g := by
  cases g with
  | uniform a b n =>
    refine ⟨h.2, ?_⟩
    rw [beq_eq_false_iff_ne]
    exact (uniform_pos h).2.ne'
  | array gc =>
    refine ⟨h.1, fun i hi => ?_⟩
    rw [beq_eq_false_iff_ne]
    have := node_lt h (Nat.lt_succ_self i) hi
    exact (sub_pos.2 this).ne'

theorem lo_eq (g : GridDim F) : lo g = first g := by
  cases g with
  | uniform a b n => simp [lo, first, node]
  | array gc => rfl

theorem hi_eq {g : GridDim F} (h : ValidAxis g) : hi g = last g := by
  cases g with
  | uniform a b n =>
    obtain ⟨h1, h2⟩ := uniform_pos h
    have hn : ((n.toNat - 1 : ℕ) : F) = (n : F) - 1 := by
      have h2 : 2 ≤ n := h.2
      have : ((n.toNat - 1 : ℕ) : ℤ) = n - 1 := by omega
      calc ((n.toNat - 1 : ℕ) : F) = (((n.toNat - 1 : ℕ) : ℤ) : F) := by push_cast; rfl
        _ = _ := by rw [this]; push_cast; rfl
    simp only [hi, last, node, nNodes, hn]
    field_simp
    ring
  | array gc => rfl

theorem first_lt_last {g : GridDim F} (h : ValidAxis g) : first g < last g := by
  have := ValidAxis.two_le h
  exact node_lt h (by omega) (by omega)

/-! ### Binary search -/

theorem bsearch_spec (l : List F) (hl : l.Pairwise (· < ·)) (v : F) :
    ∀ lo hi, lo ≤ hi → hi ≤ l.length → (∀ i (h : i < l.length), i < lo → l[i] < v) →
      (∀ i (h : i < l.length), hi ≤ i → v ≤ l[i]) →
      (∀ i (h : i < l.length), i < bsearch l v lo hi → l[i] < v) ∧
      (∀ i (h : i < l.length), bsearch l v lo hi ≤ i → v ≤ l[i]) := by
  intro lo hi
  induction lo, hi using bsearch.induct l v with
  | case1 lo hi h mid y hy hlt ih =>
    intro h1 h2 h3 h4
    have hm : mid < l.length := by simp only [mid]; omega
    have hy' : l[mid] = y := by
      rw [List.getElem?_eq_getElem hm] at hy; exact Option.some.inj hy
    rw [bsearch, dif_pos h]
    simp only [mid] at hy
    simp only [hy, hlt, if_true]
    refine ih (by simp only [mid]; omega) h2 ?_ h4
    intro i hi' hlt'
    rcases Nat.lt_or_eq_of_le (Nat.le_of_lt_succ hlt') with hi2 | hi2
    · have := List.pairwise_iff_getElem.1 hl i mid hi' hm hi2
      rw [hy'] at this
      exact this.trans hlt
    · subst hi2; rw [hy']; exact hlt
  | case2 lo hi h mid y hy hlt ih =>
    intro h1 h2 h3 h4
    have hm : mid < l.length := by simp only [mid]; omega
    have hy' : l[mid] = y := by
      rw [List.getElem?_eq_getElem hm] at hy; exact Option.some.inj hy
    rw [bsearch, dif_pos h]
    simp only [mid] at hy
    simp only [hy, hlt, if_false]
    refine ih (by simp only [mid]; omega) (by simp only [mid]; omega) h3 ?_
    intro i hi' hle
    rcases Nat.lt_or_eq_of_le hle with hi2 | hi2
    · have := List.pairwise_iff_getElem.1 hl mid i hm hi' hi2
      rw [hy'] at this
      exact (not_lt.1 hlt).trans this.le
    · subst hi2; rw [hy']; exact not_lt.1 hlt
  | case3 lo hi h mid hy ih =>
    intro h1 h2 h3 h4
    have hm : mid < l.length := by simp only [mid]; omega
    rw [List.getElem?_eq_getElem hm] at hy
    cases hy
  | case4 lo hi h =>
    intro h1 h2 h3 h4
    rw [bsearch, dif_neg h]
    exact ⟨h3, fun i hi' hle => h4 i hi' (by omega)⟩

theorem searchsorted_spec (l : List F) (hl : l.Pairwise (· < ·)) (v : F) :
    searchsorted l v ≤ l.length ∧
      (∀ i (_ : i < l.length), i < searchsorted l v → l[i] < v) ∧
      (∀ i (_ : i < l.length), searchsorted l v ≤ i → v ≤ l[i]) := by
  refine ⟨searchsorted_le l v, bsearch_spec l hl v 0 l.length (Nat.zero_le _) le_rfl
    (fun i _ h => by omega) (fun i h h' => by omega)⟩

/-! ### The cell -/

/-- `x` is in cell `j`; the first and last cells extend to infinity. -/
def InCell (g : GridDim F) (x : F) (j : ℕ) : Prop :=
  j + 1 < nNodes g ∧ (j = 0 ∨ node g j ≤ x) ∧ (j + 2 = nNodes g ∨ x ≤ node g (j + 1))

theorem uniform_step {a b : F} {n : ℤ} (h : ValidAxis (.uniform a b n)) (x : F) :
    x = a + ((x - a) * (((n : F) - 1) / (b - a))) * ((b - a) / ((n : F) - 1)) := by
  obtain ⟨h1, h2⟩ := uniform_pos h
  field_simp
  ring

theorem pyMax_eq {α : Type} [LinearOrder α] (a b : α) : pyMax a b = max a b := by
  unfold pyMax
  split_ifs with h
  · exact (max_eq_right h.le).symm
  · exact (max_eq_left (not_lt.1 h)).symm

theorem pyMin_eq {α : Type} [LinearOrder α] (a b : α) : pyMin a b = min a b := by
  unfold pyMin
  split_ifs with h
  · exact (min_eq_right h.le).symm
  · exact (min_eq_left (not_lt.1 h)).symm

theorem pyMaxZ_eq (a b : ℤ) : pyMax a b = max a b := by
  unfold pyMax
  split_ifs with h
  · exact (max_eq_right h.le).symm
  · exact (max_eq_left (not_lt.1 h)).symm

theorem pyMinZ_eq (a b : ℤ) : pyMin a b = min a b := by
  unfold pyMin
  split_ifs with h
  · exact (min_eq_right h.le).symm
  · exact (min_eq_left (not_lt.1 h)).symm

theorem inCell_cell {g : GridDim F} (h : ValidAxis g) (x : F) : InCell g x (cell g x).toNat := by
  obtain ⟨hc1, hc2⟩ := cell_bounds g (by rw [size_eq]; exact ValidAxis.two_le h) x
  rw [size_eq] at hc2
  have htwo := ValidAxis.two_le h
  refine ⟨by omega, ?_, ?_⟩
  · cases g with
    | uniform a b n =>
      by_cases h0 : (cell (.uniform a b n) x).toNat = 0
      · exact Or.inl h0
      · right
        set u := (x - a) * (((n : F) - 1) / (b - a)) with hu
        have hle : (cell (.uniform a b n) x : ℤ) ≤ ⌊u⌋ := by
          have : cell (.uniform a b n) x = max (min ⌊u⌋ (n - 2)) 0 := by
            rw [← pyMinZ_eq, ← pyMaxZ_eq]; rfl
          rw [this] at h0 ⊢
          rcases le_total (min ⌊u⌋ (n - 2)) 0 with h' | h'
          · rw [max_eq_right h'] at h0; exact absurd rfl h0
          · rw [max_eq_left h']; exact min_le_left _ _
        have hcast : (((cell (.uniform a b n) x).toNat : ℕ) : F) ≤ u := by
          calc (((cell (.uniform a b n) x).toNat : ℕ) : F)
              = ((((cell (.uniform a b n) x).toNat : ℕ) : ℤ) : F) := by push_cast; rfl
            _ = ((cell (.uniform a b n) x : ℤ) : F) := by rw [Int.toNat_of_nonneg hc1]
            _ ≤ ((⌊u⌋ : ℤ) : F) := by exact_mod_cast hle
            _ ≤ u := Int.floor_le u
        obtain ⟨h1, h2⟩ := uniform_pos h
        have h3 : 0 < (b - a) / ((n : F) - 1) := div_pos h2 h1
        show a + _ ≤ x
        conv_rhs => rw [uniform_step h x, ← hu]
        have := mul_le_mul_of_nonneg_right hcast h3.le
        linarith
    | array gc =>
      by_cases h0 : (cell (.array gc) x).toNat = 0
      · exact Or.inl h0
      · right
        obtain ⟨hs1, hs2, hs3⟩ := searchsorted_spec gc h.2 x
        have hcell : cell (.array gc) x
            = min (max ((searchsorted gc x : ℤ) - 1) 0) ((gc.length : ℤ) - 2) := by
          rw [← pyMaxZ_eq, ← pyMinZ_eq]; rfl
        have hn : nNodes (.array gc) = gc.length := rfl
        have hlt : (cell (.array gc) x).toNat < gc.length := by omega
        show gc.getD _ 0 ≤ x
        rw [getD_of_lt _ _ hlt]
        apply (hs2 _ hlt _).le
        omega
  · cases g with
    | uniform a b n =>
      by_cases h0 : (cell (.uniform a b n) x).toNat + 2 = nNodes (.uniform a b n)
      · exact Or.inl h0
      · right
        set u := (x - a) * (((n : F) - 1) / (b - a)) with hu
        have hge : ⌊u⌋ ≤ (cell (.uniform a b n) x : ℤ) := by
          have hcell : cell (.uniform a b n) x = max (min ⌊u⌋ (n - 2)) 0 := by
            rw [← pyMinZ_eq, ← pyMaxZ_eq]; rfl
          have hn : nNodes (.uniform a b n) = n.toNat := rfl
          omega
        have hcast : u ≤ (((cell (.uniform a b n) x).toNat + 1 : ℕ) : F) := by
          have h1 : u < (⌊u⌋ : F) + 1 := Int.lt_floor_add_one u
          have h2 : ((⌊u⌋ : ℤ) : F) ≤ ((cell (.uniform a b n) x : ℤ) : F) := by exact_mod_cast hge
          have h3 : ((cell (.uniform a b n) x : ℤ) : F)
              = (((cell (.uniform a b n) x).toNat : ℕ) : F) := by
            calc ((cell (.uniform a b n) x : ℤ) : F)
                = ((((cell (.uniform a b n) x).toNat : ℕ) : ℤ) : F) := by
                  rw [Int.toNat_of_nonneg hc1]
              _ = _ := by push_cast; rfl
          push_cast
          linarith
        obtain ⟨h1, h2⟩ := uniform_pos h
        have h3 : 0 < (b - a) / ((n : F) - 1) := div_pos h2 h1
        show x ≤ a + _
        conv_lhs => rw [uniform_step h x, ← hu]
        have := mul_le_mul_of_nonneg_right hcast h3.le
        linarith
    | array gc =>
      by_cases h0 : (cell (.array gc) x).toNat + 2 = nNodes (.array gc)
      · exact Or.inl h0
      · right
        obtain ⟨hs1, hs2, hs3⟩ := searchsorted_spec gc h.2 x
        have hcell : cell (.array gc) x
            = min (max ((searchsorted gc x : ℤ) - 1) 0) ((gc.length : ℤ) - 2) := by
          rw [← pyMaxZ_eq, ← pyMinZ_eq]; rfl
        have hn : nNodes (.array gc) = gc.length := rfl
        have hlt : (cell (.array gc) x).toNat + 1 < gc.length := by omega
        show x ≤ gc.getD _ 0
        rw [getD_of_lt _ _ hlt]
        apply hs3 _ hlt
        omega

theorem lam_eq {g : GridDim F} (h : ValidAxis g) (x : F) :
    lam g x = (x - node g (cell g x).toNat) /
      (node g ((cell g x).toNat + 1) - node g (cell g x).toNat) := by
  obtain ⟨hc1, hc2⟩ := cell_bounds g (by rw [size_eq]; exact ValidAxis.two_le h) x
  cases g with
  | uniform a b n =>
    obtain ⟨h1, h2⟩ := uniform_pos h
    have h3 : ((cell (.uniform a b n) x : ℤ) : F)
        = (((cell (.uniform a b n) x).toNat : ℕ) : F) := by
      calc ((cell (.uniform a b n) x : ℤ) : F)
          = ((((cell (.uniform a b n) x).toNat : ℕ) : ℤ) : F) := by
            rw [Int.toNat_of_nonneg hc1]
        _ = _ := by push_cast; rfl
    simp only [lam, node]
    rw [h3]
    push_cast
    set i : F := (((cell (.uniform a b n) x).toNat : ℕ) : F)
    have h4 : a + (i + 1) * ((b - a) / ((n : F) - 1)) - (a + i * ((b - a) / ((n : F) - 1)))
        = (b - a) / ((n : F) - 1) := by ring
    rw [h4]
    field_simp
    ring
  | array gc => rfl

/-- Width of a cell as used by the code for nonuniform axes; inverse width for uniform axes. -/
theorem delta_eq {g : GridDim F} (h : ValidAxis g) (x : F) :
    delta g x = match g with
      | .uniform .. => 1 / (node g ((cell g x).toNat + 1) - node g (cell g x).toNat)
      | .array _ => node g ((cell g x).toNat + 1) - node g (cell g x).toNat := by
  cases g with
  | uniform a b n =>
    obtain ⟨h1, h2⟩ := uniform_pos h
    simp only [delta, node]
    push_cast
    have h4 : ∀ i : F, a + (i + 1) * ((b - a) / ((n : F) - 1)) - (a + i * ((b - a) / ((n : F) - 1)))
        = (b - a) / ((n : F) - 1) := by intro i; ring
    rw [h4]
    field_simp
  | array gc => rfl

theorem width_pos {g : GridDim F} (h : ValidAxis g) {j : ℕ} (hj : j + 1 < nNodes g) :
    0 < node g (j + 1) - node g j := sub_pos.2 (node_lt h (Nat.lt_succ_self j) hj)

theorem delta_ne {g : GridDim F} (h : ValidAxis g) (x : F) : delta g x ≠ 0 := by
  have hw := width_pos h (inCell_cell h x).1
  rw [delta_eq h x]
  cases g with
  | uniform a b n => exact (one_div_pos.2 hw).ne'
  | array gc => exact hw.ne'

/-- Value at `x` of the affine function through the nodes `j` and `j+1`. -/
def segVal (g : GridDim F) (x : F) (j : ℕ) (c : ℕ → F) : F :=
  c j + (x - node g j) / (node g (j + 1) - node g j) * (c (j + 1) - c j)

/-- Overlapping cells give the same value. -/
theorem segVal_unique {g : GridDim F} (h : ValidAxis g) (x : F) (c : ℕ → F) {j j' : ℕ}
    (hj : InCell g x j) (hj' : InCell g x j') : segVal g x j c = segVal g x j' c := by
  wlog hlt : j < j' generalizing j j'
  · rcases Nat.lt_or_eq_of_le (Nat.le_of_not_lt hlt) with h' | h'
    · exact (this hj' hj h').symm
    · subst h'; rfl
  have h1 : x ≤ node g (j + 1) := by
    rcases hj.2.2 with h' | h'
    · have := hj'.1; omega
    · exact h'
  have h2 : node g j' ≤ x := by
    rcases hj'.2.1 with h' | h'
    · omega
    · exact h'
  have h3 : j' ≤ j + 1 := (node_le_iff h (by have := hj'.1; omega) hj.1).1 (h2.trans h1)
  have h4 : j' = j + 1 := by omega
  subst h4
  have h5 : x = node g (j + 1) := le_antisymm h1 h2
  have hw := (width_pos h hj.1).ne'
  simp only [segVal, h5, sub_self, zero_div, zero_mul, add_zero]
  rw [div_self hw]
  ring

/-- Linear interpolation along one axis. -/
def lin1 (g : GridDim F) (x : F) (c : ℕ → F) : F :=
  (1 - lam g x) * c (cell g x).toNat + lam g x * c ((cell g x).toNat + 1)

theorem lin1_eq {g : GridDim F} (h : ValidAxis g) (x : F) (c : ℕ → F) {j : ℕ}
    (hj : InCell g x j) : lin1 g x c = segVal g x j c := by
  rw [← segVal_unique h x c (inCell_cell h x) hj, lin1, segVal, lam_eq h x]
  ring

theorem evalAt_lin (g : GridDim F) (G : List (GridDim F)) (oo : List ℕ) (x : F) (xs : List F)
    (c : List ℕ → F) :
    evalAt 1 (g :: G) (0 :: oo) (x :: xs) c
      = lin1 g x (fun j => evalAt 1 G oo xs (fun r => c (j :: r))) := by
  simp [evalAt, weights, sumL, lin1]

/-- At a node. -/
theorem lin1_node {g : GridDim F} (h : ValidAxis g) (c : ℕ → F) {j : ℕ} (hj : j < nNodes g) :
    lin1 g (node g j) c = c j := by
  by_cases hl : j + 1 < nNodes g
  · rw [lin1_eq h _ c (j := j) ⟨hl, Or.inr le_rfl, Or.inr (node_le h (Nat.le_succ j) hl)⟩]
    simp [segVal]
  · have htwo := ValidAxis.two_le h
    obtain ⟨i, rfl⟩ : ∃ i, j = i + 1 := ⟨j - 1, by omega⟩
    rw [lin1_eq h _ c (j := i) ⟨hj, Or.inr (node_le h (Nat.le_succ i) hj), Or.inr le_rfl⟩]
    rw [segVal, div_self (width_pos h hj).ne']
    ring

/-- Affine data are reproduced at every abscissa. -/
theorem lin1_affine {g : GridDim F} (h : ValidAxis g) (x p q : F) (c : ℕ → F)
    (hc : ∀ j < nNodes g, c j = p + q * node g j) : lin1 g x c = p + q * x := by
  have hj := inCell_cell h x
  rw [lin1_eq h x c hj, segVal, hc _ (by have := hj.1; omega), hc _ hj.1]
  have := (width_pos h hj.1).ne'
  field_simp
  ring

theorem lam_mem {g : GridDim F} (h : ValidAxis g) {x : F} (h1 : first g ≤ x) (h2 : x ≤ last g) :
    0 ≤ lam g x ∧ lam g x ≤ 1 := by
  have hj := inCell_cell h x
  have hw := width_pos h hj.1
  rw [lam_eq h x]
  have ha : node g (cell g x).toNat ≤ x := by
    rcases hj.2.1 with h' | h'
    · rw [h']; exact h1
    · exact h'
  have hb : x ≤ node g ((cell g x).toNat + 1) := by
    rcases hj.2.2 with h' | h'
    · have : (cell g x).toNat + 1 = nNodes g - 1 := by omega
      rw [this]; exact h2
    · exact h'
  constructor
  · apply div_nonneg <;> linarith
  · rw [div_le_one hw]; linarith

end Interp.Codegen
