import Verif.Spec.BSplines
import Verif.Proofs.BSplines
import Verif.Proofs.Family
import Mathlib.Data.Rat.Floor
import Mathlib.Tactic.NormNum

/-!
# B-splines: C44, C45, C46

Exact arithmetic.
-/

set_option linter.unusedSectionVars false
set_option linter.unusedSimpArgs false

namespace Interp.Props
open Interp.Codegen Interp.Spec Interp.Ref Interp.BSplines

variable {F : Type} [Field F] [LinearOrder F] [IsStrictOrderedRing F] [FloorRing F]

/-- C44. -/
theorem C44_bspline_nonneg_support (p : ℕ) (u : List F) (hu : u.Pairwise (· < ·)) (i : ℕ)
    (hi : i + p + 1 < u.length) (x : F) :
    ∃ v, B p u i x = .ok v ∧ 0 ≤ v ∧ (x < u[i] ∨ u[i + p + 1] ≤ x → v = 0) := by
  refine ⟨_, B_ok hu x p i hi, b_nonneg (ext_strictMono hu) x p i, fun h => ?_⟩
  refine b_support (ext_strictMono hu) x p i ?_
  rw [ext_of_lt (show i < u.length by omega), ext_of_lt hi]
  rintro ⟨h1, h2⟩
  rcases h with h | h
  · exact absurd h1 (not_le.mpr h)
  · exact absurd h2 (not_lt.mpr h)

/-- C45. `m` is the number of basis functions: `u` has `m + p + 1` knots. -/
theorem C45_bspline_partition (p m : ℕ) (u : List F) (hu : u.Pairwise (· < ·))
    (hm : u.length = m + p + 1) (x : F) (h1 : u[p] ≤ x) (h2 : x < u[m]) :
    ∃ v : ℕ → F, (∀ i < m, B p u i x = .ok (v i)) ∧ ∑ i ∈ Finset.range m, v i = 1 := by
  refine ⟨_, fun i hi => B_ok hu x p i (by omega), ?_⟩
  refine b_sum (ext_strictMono hu) x p m ?_ ?_
  · rw [ext_of_lt (show p < u.length by omega)]; exact h1
  · rw [ext_of_lt (show m < u.length by omega)]; exact h2

/-- On one axis, the weight of coefficient number `r` is the B-spline number `r`. -/
theorem basis_eq_B {g : GridDim F} (hg : ValidAxis g) (hu : g.gtype = .uniform) {x : F}
    (h1 : first g ≤ x) (h2 : x ≤ last g) {r : ℕ} (hr : r < nNodes g + 2) :
    B 3 (knots g) r x = .ok (basis 3 0 g r x) := by
  cases g with
  | array gc => cases hu
  | uniform a b n =>
    rw [← lo_eq] at h1
    rw [← hi_eq hg] at h2
    simp only [lo, hi] at h1 h2
    obtain ⟨hab, hn⟩ := hg
    have hn1 : (1 : F) ≤ (n : F) - 1 := by
      have : (2 : F) ≤ (n : F) := by exact_mod_cast hn
      linarith
    set h := (b - a) / ((n : F) - 1) with hh
    have hpos : 0 < h := div_pos (sub_pos.mpr hab) (by linarith)
    have hsort : (knots (.uniform a b n) : List F).Pairwise (· < ·) := by
      refine List.Pairwise.map _ ?_ List.pairwise_lt_range
      intro i j hij
      have : (i : F) < j := by exact_mod_cast hij
      have := mul_lt_mul_of_pos_right (show (i : F) - 3 < (j : F) - 3 by linarith) hpos
      linarith
    have hlen : (knots (.uniform a b n) : List F).length = n.toNat + 6 := by simp [knots]
    have hr' : r < n.toNat + 2 := hr
    rw [B_ok hsort x 3 r (by omega)]
    congr 1
    have hext : ∀ i ≤ r + 4, ext (knots (.uniform a b n)) i = a + ((i : F) - 3) * h := by
      intro i hi
      rw [ext_of_lt (by omega)]
      simp [knots, hh]
    have hup : upos a b n x = (x - a) / h := by
      have : (b - a) ≠ 0 := (sub_pos.mpr hab).ne'
      have : (n : F) - 1 ≠ 0 := by linarith
      simp only [upos, hh]; field_simp
    have hu0 : 0 ≤ upos a b n x := by
      rw [hup]; exact div_nonneg (by linarith) hpos.le
    have hu1 : upos a b n x ≤ (n : F) - 1 := by
      rw [hup, div_le_iff₀ hpos, hh]
      have : ((n : F) - 1) * ((b - a) / ((n : F) - 1)) = b - a := by
        field_simp
      rw [this]; linarith
    obtain ⟨j, hj⟩ : ∃ j : ℕ, ⌊upos a b n x⌋ = j :=
      ⟨⌊upos a b n x⌋.toNat, by rw [Int.toNat_of_nonneg (Int.floor_nonneg.mpr hu0)]⟩
    have hj1 : (j : F) ≤ upos a b n x := by
      have := Int.floor_le (upos a b n x); rw [hj] at this; exact_mod_cast this
    have hj2 : upos a b n x < (j : F) + 1 := by
      have := Int.lt_floor_add_one (upos a b n x); rw [hj] at this; exact_mod_cast this
    rw [b_cubic (ext_strictMono hsort) hpos r j hext (by rw [← hup]; exact hj1)
      (by rw [← hup]; exact hj2), ← hup]
    have hjn : (j : ℤ) ≤ n - 1 := by
      have h3 : (j : F) ≤ ((n - 1 : ℤ) : F) := by push_cast; linarith
      exact_mod_cast h3
    rcases hjn.lt_or_eq with hlt | heq
    · exact ((cubic_mid ⟨hab, hn⟩ (by omega) hj1 hj2.le _).1).symm
    · -- the last node
      have hu2 : upos a b n x = (j : F) := by
        refine le_antisymm ?_ hj1
        have : (j : F) = ((n - 1 : ℤ) : F) := by rw [← heq]; push_cast; rfl
        rw [this]; push_cast; exact hu1
      obtain ⟨i, rfl⟩ : ∃ i, j = i + 1 := ⟨j - 1, by omega⟩
      have e := (cubic_mid (x := x) (j := i) ⟨hab, hn⟩ (by omega)
        (by rw [hu2]; push_cast; linarith) (by rw [hu2]; push_cast; exact le_rfl)
        (fun k => if k = r then 1 else 0)).1
      rw [basis, e, hu2, cubP_left]
      push_cast
      rw [cubP_right]

theorem bweights_wt : ∀ (G : List (GridDim F)) (x : List F) (idx : List ℕ),
    (∀ g ∈ G, ValidAxis g) → (∀ g ∈ G, g.gtype = .uniform) → InBox G x →
    InShape (G.map fun g => nNodes g + 2) idx →
    ∃ ws, BWeights G x idx ws ∧ wt 3 G (List.replicate G.length 0) x idx = ws.prod
  | [], _, [], _, _, .nil, _ => ⟨[], rfl, by simp [wt]⟩
  | [], _, _ :: _, _, _, _, h => h.elim
  | g :: G, _, [], _, _, _, h => h.elim
  | g :: G, _, i :: idx, hG, hu, .cons (l₂ := xs) h1 h2, hi => by
    obtain ⟨ws, h3, h4⟩ := bweights_wt G xs idx (fun g' h' => hG g' (by simp [h']))
      (fun g' h' => hu g' (by simp [h'])) h2 hi.2
    refine ⟨_ :: ws, ⟨basis_eq_B (hG g (by simp)) (hu g (by simp)) h1.1 h1.2 hi.1, h3⟩, ?_⟩
    rw [List.prod_cons, ← h4]
    simp [wt, List.replicate_succ]

/-- C46. At every point of the box, evaluating a cubic spline is summing its coefficients with the
products of the values of the B-splines `B(3, ...)` on the knots of each axis. -/
theorem C46_cubic_weights_bsplines {G : List (GridDim F)} {C : NdArray F} {vec : Bool} {m : ℕ}
    (h : Request 3 G C vec m none) (x : List F) (hx : InBox G x) :
    ∃ w : List ℕ → F,
      (∀ idx, InShape (G.map fun g => nNodes g + 2) idx →
        ∃ ws, BWeights G x idx ws ∧ w idx = ws.prod) ∧
      Returns 3 G C vec m none "linear" x (fun tail =>
        ((allIdx (G.map fun g => nNodes g + 2)).map fun idx => w idx * C.get (idx ++ tail)).sum) := by
  have hu : ∀ g ∈ G, g.gtype = .uniform := by
    rcases h.degree with h' | h'
    · omega
    · exact h'.2
  have hl : x.length = G.length := hx.length_eq.symm
  refine ⟨wt 3 G (List.replicate G.length 0) x,
    fun idx hi => bweights_wt G x idx h.grid.2 hu hx hi, ?_⟩
  refine (h.good.returns "linear" x hl).congr fun tail ht => ?_
  rw [rowEntry_plain 3 _ G C vec m _ tail ht, evalMode_linear,
    evalAt_expand 3 (Or.inr rfl) G _ x _ h.grid.2 (by simp) hl]
  rfl

/-! ### The hypotheses are satisfiable -/

/-- Six knots: two cubic basis functions. -/
example := C44_bspline_nonneg_support (F := ℚ) 3 [0, 1, 2, 4, 5, 9] (by simp; norm_num) 1 (by simp) 3

/-- Four quadratic basis functions on seven knots, at a point of the third cell. -/
example := C45_bspline_partition (F := ℚ) 2 4 [0, 1, 2, 4, 5, 9, 10] (by simp; norm_num) rfl 3
  (by norm_num) (by norm_num)

example : InBox (F := ℚ) [.uniform 0 4 5, .uniform (-1) 1 3] [5/2, 1] := by
  refine .cons ?_ (.cons ?_ .nil) <;> norm_num [first, last, node, nNodes, show Int.toNat 5 = 5 from rfl, show Int.toNat 3 = 3 from rfl]

end Interp.Props
