import Verif.Proofs.Cubic1
import Mathlib.Algebra.BigOperators.Ring.Finset
import Mathlib.Algebra.Order.BigOperators.Group.Finset
import Verif.Spec.Index

/-! Spline evaluation as a weighted sum of the coefficients. -/

set_option linter.unusedSectionVars false
set_option linter.unusedSimpArgs false


namespace Interp.Codegen
open Interp.Ref Interp.Spec

variable {F : Type} [Field F] [LinearOrder F] [IsStrictOrderedRing F] [FloorRing F]

/-! ### Expansion along one axis -/

/-- Number of coefficients along an axis. -/
def nCoef (k : ℕ) (g : GridDim F) : ℕ := nNodes g + (k - 1)

/-- The basis functions. -/
def basis (k l : ℕ) (g : GridDim F) (j : ℕ) (x : F) : F :=
  axisOp k l g x (fun i => if i = j then 1 else 0)

theorem mapIdx_sum_getD (ws : List F) (f : ℕ → F) :
    (ws.mapIdx fun j w => w * f j).sum = ∑ j ∈ Finset.range ws.length, ws.getD j 0 * f j := by
  induction ws generalizing f with
  | nil => simp
  | cons w ws ih =>
    rw [List.mapIdx_cons, List.sum_cons, ih (fun j => f (j + 1)), List.length_cons,
      Finset.sum_range_succ']
    simp [add_comm]

theorem axisOp_sum (k l : ℕ) (g : GridDim F) (x : F) (c : ℕ → F) :
    axisOp k l g x c = ∑ j ∈ Finset.range (weights k l g x).length,
      (weights k l g x).getD j 0 * c ((cell g x).toNat + j) := mapIdx_sum_getD _ _

theorem axisOp_expand (k l : ℕ) (hk : k = 1 ∨ k = 3) {g : GridDim F} (hg : ValidAxis g) (x : F)
    (c : ℕ → F) : axisOp k l g x c = ∑ j ∈ Finset.range (nCoef k g), basis k l g j x * c j := by
  simp only [basis, axisOp_sum, Finset.sum_mul]
  rw [Finset.sum_comm]
  apply Finset.sum_congr rfl
  intro i hi
  rw [weights_length k l hk, Finset.mem_range] at hi
  have hc := (inCell_cell hg x).1
  have hlt : (cell g x).toNat + i ∈ Finset.range (nCoef k g) := by
    rw [Finset.mem_range, nCoef]
    rcases hk with rfl | rfl <;> omega
  rw [Finset.sum_eq_single_of_mem _ hlt]
  · simp
  · intro j _ hj
    rw [if_neg (fun h => hj h.symm)]; ring

/-- Number of coefficients along each axis. -/
def coefShape (k : ℕ) (G : List (GridDim F)) : List ℕ := G.map (nCoef k)

/-- Weight of the coefficient `idx`. -/
def wt (k : ℕ) (G : List (GridDim F)) (oo : List ℕ) (x : List F) (idx : List ℕ) : F :=
  (List.zipWith (fun (a : GridDim F × ℕ) (b : F × ℕ) => basis k a.2 a.1 b.2 b.1)
    (G.zip oo) (x.zip idx)).prod

theorem list_sum_range (f : ℕ → F) (n : ℕ) :
    ((List.range n).map f).sum = ∑ j ∈ Finset.range n, f j := by
  induction n with
  | zero => simp
  | succ n ih => rw [List.range_succ, Finset.sum_range_succ]; simp [ih]

theorem list_sum_flatMap {α β : Type} (l : List α) (g : α → List β) (f : β → F) :
    ((l.flatMap g).map f).sum = (l.map fun a => ((g a).map f).sum).sum := by
  induction l with
  | nil => simp
  | cons a l ih => simp [ih]

theorem list_sum_map_mul_left {α : Type} (l : List α) (f : α → F) (r : F) :
    (l.map fun a => r * f a).sum = r * (l.map f).sum := by
  induction l with
  | nil => simp
  | cons a l ih => simp [ih, mul_add]

/-- A relation between operators along one axis carries over to the tensor product. -/
theorem evalAt_axis_affine (k l l' l'' : ℕ) (p q : F) : ∀ (G : List (GridDim F))
    (oo : List ℕ) (x : List F) (i : ℕ) (g : GridDim F) (t t' t'' : F), G[i]? = some g →
    oo.length = G.length → x.length = G.length →
    (∀ c, axisOp k l g t c = p * axisOp k l' g t' c + q * axisOp k l'' g t'' c) →
    ∀ c, evalAt k G (oo.set i l) (x.set i t) c
      = p * evalAt k G (oo.set i l') (x.set i t') c + q * evalAt k G (oo.set i l'') (x.set i t'') c
  | [], _, _, _, _, _, _, _, hg, _, _, _ => by simp at hg
  | _ :: _, [], _, _, _, _, _, _, _, ho, _, _ => by simp at ho
  | _ :: _, _ :: _, [], _, _, _, _, _, _, _, hx, _ => by simp at hx
  | g :: G, o :: oo, x :: xs, 0, g', t, t', t'', hg, ho, hx, h => by
    intro c
    simp only [List.getElem?_cons_zero, Option.some.injEq] at hg
    subst hg
    simp only [List.set_cons_zero, evalAt_cons]
    exact h _
  | g :: G, o :: oo, x :: xs, i + 1, g', t, t', t'', hg, ho, hx, h => by
    intro c
    simp only [List.getElem?_cons_succ] at hg
    simp only [List.set_cons_succ, evalAt_cons, axisOp_sum, Finset.mul_sum]
    rw [← Finset.sum_add_distrib]
    apply Finset.sum_congr rfl
    intro j _
    rw [evalAt_axis_affine k l l' l'' p q G oo xs i g' t t' t'' hg (by simpa using ho)
      (by simpa using hx) h _]
    ring

theorem evalAt_expand (k : ℕ) (hk : k = 1 ∨ k = 3) : ∀ (G : List (GridDim F)) (oo : List ℕ)
    (x : List F) (c : List ℕ → F), (∀ g ∈ G, ValidAxis g) → oo.length = G.length →
    x.length = G.length →
    evalAt k G oo x c = ((allIdx (coefShape k G)).map fun idx => wt k G oo x idx * c idx).sum
  | [], oo, x, c, _, ho, hx => by
    have ho : oo = [] := by simpa using ho
    have hx : x = [] := by simpa using hx
    subst ho hx
    simp [evalAt, coefShape, allIdx, wt]
  | g :: G, [], x, c, _, ho, _ => by simp at ho
  | g :: G, l :: oo, [], c, _, _, hx => by simp at hx
  | g :: G, l :: oo, x :: xs, c, hG, ho, hx => by
    rw [evalAt_cons, axisOp_expand k l hk (hG g (by simp))]
    simp only [coefShape, List.map_cons, allIdx]
    rw [list_sum_flatMap, list_sum_range]
    apply Finset.sum_congr rfl
    intro j _
    rw [evalAt_expand k hk G oo xs _ (fun g' h' => hG g' (by simp [h'])) (by simpa using ho)
      (by simpa using hx), ← list_sum_map_mul_left, List.map_map]
    apply congrArg
    apply List.map_congr_left
    intro idx _
    simp [wt, mul_assoc]

theorem axisOp_three_const {a b : F} {n : ℤ} (h : ValidAxis (.uniform a b n)) (x v : F) :
    axisOp 3 0 (.uniform a b n) x (fun _ => v) = v := by
  have hc := cell_bounds (.uniform a b n) (by rw [size_eq]; exact ValidAxis.two_le h) x
  rw [axisOp_three 0 a b n x _ _ (Int.toNat_of_nonneg hc.1).symm, (three_ops _ _ _ _ _ _).1]
  split_ifs <;> ring

theorem axisOp_three_nonneg {a b : F} {n : ℤ} (h : ValidAxis (.uniform a b n)) {x : F}
    (h1 : a ≤ x) (h2 : x ≤ b) {c : ℕ → F} (hc : ∀ j, 0 ≤ c j) :
    0 ≤ axisOp 3 0 (.uniform a b n) x c := by
  have hb := cell_bounds (.uniform a b n) (by rw [size_eq]; exact ValidAxis.two_le h) x
  rw [axisOp_three 0 a b n x _ _ (Int.toNat_of_nonneg hb.1).symm, (three_ops _ _ _ _ _ _).1]
  have hl := lam_mem h (x := x) (by rw [← lo_eq]; exact h1) (by rw [← hi_eq h]; exact h2)
  have e : lam (.uniform a b n) x = upos a b n x - ((cell (.uniform a b n) x).toNat : F) := by
    have h3 : ((cell (.uniform a b n) x : ℤ) : F)
        = (((cell (.uniform a b n) x).toNat : ℕ) : F) := by
      rw [← Int.cast_natCast, Int.toNat_of_nonneg hb.1]
    simp only [lam, upos, h3]
  rw [← e]
  set t := lam (.uniform a b n) x
  rw [if_neg (not_lt.2 hl.1), if_neg (not_lt.2 hl.2)]
  have p1 : 0 ≤ (1 - t) ^ 3 / 6 := div_nonneg (pow_nonneg (by linarith [hl.2]) 3) (by norm_num)
  have p2 : 0 ≤ (3 * t ^ 3 - 6 * t ^ 2 + 4) / 6 := by
    apply div_nonneg _ (by norm_num)
    have : 3 * t ^ 3 - 6 * t ^ 2 + 4 = 3 * t * (1 - t) ^ 2 + 3 * (1 - t) + 1 := by ring
    rw [this]
    have := mul_nonneg (mul_nonneg (by norm_num : (0 : F) ≤ 3) hl.1) (sq_nonneg (1 - t))
    linarith [hl.2]
  have p3 : 0 ≤ (-3 * t ^ 3 + 3 * t ^ 2 + 3 * t + 1) / 6 := by
    apply div_nonneg _ (by norm_num)
    have : -3 * t ^ 3 + 3 * t ^ 2 + 3 * t + 1 = 3 * (t ^ 2 * (1 - t)) + 3 * t + 1 := by ring
    rw [this]
    have := mul_nonneg (sq_nonneg t) (by linarith [hl.2] : 0 ≤ 1 - t)
    linarith [hl.1]
  have p4 : 0 ≤ t ^ 3 / 6 := div_nonneg (pow_nonneg hl.1 3) (by norm_num)
  have := mul_nonneg p1 (hc (cell (.uniform a b n) x).toNat)
  have := mul_nonneg p2 (hc ((cell (.uniform a b n) x).toNat + 1))
  have := mul_nonneg p3 (hc ((cell (.uniform a b n) x).toNat + 2))
  have := mul_nonneg p4 (hc ((cell (.uniform a b n) x).toNat + 3))
  linarith

/-- Outside an axis the cubic spline is its tangent line. -/
theorem axisOp_tangent_left {a b : F} {n : ℤ} (h : ValidAxis (.uniform a b n)) {t : F}
    (ht : t ≤ a) (c : ℕ → F) :
    axisOp 3 0 (.uniform a b n) t c
      = axisOp 3 0 (.uniform a b n) a c + (t - a) * axisOp 3 1 (.uniform a b n) a c := by
  obtain ⟨h1, h2⟩ := uniform_pos h
  have hu : upos a b n t ≤ 0 :=
    mul_nonpos_of_nonpos_of_nonneg (by linarith) (div_nonneg h1.le h2.le)
  have h0 : upos a b n a = 0 := by simp [upos]
  rw [(cubic_left h hu c).1, (cubic_left h h0.le c).1, (cubic_left h h0.le c).2, h0, upos]
  ring

theorem upos_end {a b : F} {n : ℤ} (h : ValidAxis (.uniform a b n)) :
    upos a b n b = (n : F) - 1 := by
  obtain ⟨h1, h2⟩ := uniform_pos h
  unfold upos
  field_simp

theorem axisOp_tangent_right {a b : F} {n : ℤ} (h : ValidAxis (.uniform a b n)) {t : F}
    (ht : b ≤ t) (c : ℕ → F) :
    axisOp 3 0 (.uniform a b n) t c
      = axisOp 3 0 (.uniform a b n) b c + (t - b) * axisOp 3 1 (.uniform a b n) b c := by
  obtain ⟨h1, h2⟩ := uniform_pos h
  have hb := upos_end h
  obtain ⟨j, rfl⟩ : ∃ j : ℕ, n = (j : ℤ) + 2 := ⟨(n - 2).toNat, by have : 2 ≤ n := h.2; omega⟩
  have e : (((j : ℤ) + 2 : ℤ) : F) - 1 = (j : F) + 1 := by push_cast; ring
  rw [e] at hb
  have hu : (j : F) + 1 ≤ upos a b ((j : ℤ) + 2) t := by
    rw [← hb]
    exact mul_le_mul_of_nonneg_right (by linarith) (div_nonneg h1.le h2.le)
  rw [(cubic_right h rfl hu c).1, (cubic_right h rfl hb.ge c).1, (cubic_right h rfl hb.ge c).2]
  have : upos a b ((j : ℤ) + 2) t - ((j : F) + 1)
      = (t - b) * (((((j : ℤ) + 2 : ℤ) : F) - 1) / (b - a)) := by
    rw [← hb]; unfold upos; ring
  rw [this, hb]
  ring

end Interp.Codegen
