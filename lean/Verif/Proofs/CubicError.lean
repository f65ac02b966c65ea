import Verif.Proofs.FilterApi
import Verif.Proofs.LinearError

/-! Distance between the natural cubic spline and the linear interpolant of the same data. -/

set_option linter.unusedSectionVars false

namespace Interp.Filter
open Interp.FilterRef Interp.Spec Interp.Codegen
open Interp.Ref (cell lam)

variable {F : Type} [Field F] [LinearOrder F] [IsStrictOrderedRing F] [FloorRing F]

/-- Second differences. -/
def diff2 (c : ℕ → F) (j : ℕ) : F := c j - 2 * c (j + 1) + c (j + 2)

theorem diff2_data {M : ℕ} {data c : ℕ → F} (h : Sys M data c) {j : ℕ} (hj : j + 2 < M) :
    diff2 c j + 4 * diff2 c (j + 1) + diff2 c (j + 2) = 6 * diff2 data j := by
  have h0 := h.mid j (by omega)
  have h1 := h.mid (j + 1) (by omega)
  have h2 := h.mid (j + 2) hj
  simp only [cubV, show j + 1 + 1 = j + 2 from rfl, show j + 1 + 2 = j + 3 from rfl,
    show j + 2 + 1 = j + 3 from rfl, show j + 2 + 2 = j + 4 from rfl] at h0 h1 h2
  simp only [diff2, show j + 1 + 1 = j + 2 from rfl, show j + 1 + 2 = j + 3 from rfl,
    show j + 2 + 1 = j + 3 from rfl, show j + 2 + 2 = j + 4 from rfl]
  linear_combination 6 * h0 - 12 * h1 + 6 * h2

/-- A tridiagonal system dominated by its diagonal. -/
theorem tri_le {M : ℕ} (hM : 2 ≤ M) (q : ℕ → F) (q0 : q 0 = 0) (q1 : q (M - 1) = 0) {E : F}
    (hE : 0 ≤ E) (hD : ∀ j, j + 2 < M → |q j + 4 * q (j + 1) + q (j + 2)| ≤ 6 * E) :
    ∀ j < M, |q j| ≤ 3 * E := by
  obtain ⟨k, hk, hmax⟩ := Finset.exists_max_image (Finset.range M) (fun j => |q j|)
    ⟨0, by simp; omega⟩
  have key : |q k| ≤ 3 * E := by
    rw [Finset.mem_range] at hk
    by_cases h0 : k = 0
    · rw [h0, q0, abs_zero]; linarith
    by_cases h1 : k = M - 1
    · rw [h1, q1, abs_zero]; linarith
    obtain ⟨i, rfl⟩ : ∃ i, k = i + 1 := ⟨k - 1, by omega⟩
    have a0 := hmax i (by simp; omega)
    have a2 := hmax (i + 2) (by simp; omega)
    have b0 := abs_le.1 a0
    have b2 := abs_le.1 a2
    have bd := abs_le.1 (hD i (by omega))
    rcases abs_cases (q (i + 1)) with ⟨hh, _⟩ | ⟨hh, _⟩ <;> rw [hh] at b0 b2 ⊢ <;> linarith
  exact fun j hj => (hmax j (by simpa using hj)).trans key

theorem diff2_ends {M : ℕ} (hM : 2 ≤ M) {data c : ℕ → F} (h : Sys M data c) :
    diff2 c 0 = 0 ∧ diff2 c (M - 1) = 0 := by
  refine ⟨h.left, ?_⟩
  have := h.right
  obtain ⟨k, rfl⟩ : ∃ k, M = k + 1 := ⟨M - 1, by omega⟩
  simpa [diff2] using this

/-- The second differences of the coefficients are at most three times those of the data. -/
theorem diff2_le {M : ℕ} (hM : 2 ≤ M) {data c : ℕ → F} (h : Sys M data c) {E : F} (hE : 0 ≤ E)
    (hD : ∀ j, j + 2 < M → |diff2 data j| ≤ E) : ∀ j < M, |diff2 c j| ≤ 3 * E := by
  refine tri_le hM _ (diff2_ends hM h).1 (diff2_ends hM h).2 hE fun j hj => ?_
  rw [diff2_data h hj, abs_mul, abs_of_pos (by norm_num : (0 : F) < 6)]
  linarith [hD j hj]

theorem cubP_eq (j : ℕ) (c : ℕ → F) (u : F) :
    cubP j c u = (1 - (u - j)) * cubV j c + (u - j) * cubV (j + 1) c
      - (u - j) * (1 - (u - j)) / 6 * ((2 - (u - j)) * diff2 c j + (1 + (u - j)) * diff2 c (j + 1)) := by
  simp only [cubP, cubV, diff2, show j + 1 + 1 = j + 2 from rfl, show j + 1 + 2 = j + 3 from rfl]
  ring

/-- The spline in one cell, in terms of the data and of the second differences of the coefficients. -/
theorem cubic_cell {a b : F} {n : ℤ} (hv : ValidAxis (.uniform a b n)) {x : F}
    (h1 : first (.uniform a b n) ≤ x) (h2 : x ≤ last (.uniform a b n)) {data c : ℕ → F}
    (h : Sys n.toNat data c) {j : ℕ} (hj : j = (cell (.uniform a b n) x).toNat) {t : F}
    (ht : t = lam (.uniform a b n) x) :
    axisOp 3 0 (.uniform a b n) x c = (1 - t) * data j + t * data (j + 1)
      - t * (1 - t) / 6 * ((2 - t) * diff2 c j + (1 + t) * diff2 c (j + 1)) := by
  obtain ⟨l0, l1⟩ := lam_mem hv h1 h2
  have hj1 := (inCell_cell hv x).1
  have hc : cell (.uniform a b n) x = ((cell (.uniform a b n) x).toNat : ℤ) := by
    have : 0 ≤ cell (.uniform a b n) x := by
      have hc : cell (.uniform a b n) x = max (min ⌊upos a b n x⌋ (n - 2)) 0 := by
        rw [← pyMinZ_eq, ← pyMaxZ_eq]; rfl
      rw [hc]; exact le_max_right _ _
    exact (Int.toNat_of_nonneg this).symm
  have hlam : lam (.uniform a b n) x = upos a b n x - ((cell (.uniform a b n) x).toNat : F) := by
    simp only [lam, upos]
    congr 1
    exact_mod_cast congrArg (Int.cast : ℤ → F) hc
  rw [axisOp_three 0 a b n x c _ hc, (three_ops _ _ _ _ _ _).1, ← hlam, if_neg (not_lt.2 l0),
    if_neg (not_lt.2 l1), ← hj, ← ht]
  rw [← hj] at hj1
  have hj' : j + 1 < n.toNat := hj1
  rw [← h.mid j (by omega), ← h.mid (j + 1) hj']
  have e := cubP_eq j c (j + t)
  simp only [cubP, add_sub_cancel_left] at e
  exact e

/-- The two interpolants of the same data. -/
theorem cubic_sub_linear {a b : F} {n : ℤ} (hv : ValidAxis (.uniform a b n)) {x : F}
    (h1 : first (.uniform a b n) ≤ x) (h2 : x ≤ last (.uniform a b n)) {data c : ℕ → F}
    (h : Sys n.toNat data c) {E : F} (hE : 0 ≤ E)
    (hD : ∀ j, j + 2 < n.toNat → |diff2 data j| ≤ E) :
    |axisOp 3 0 (.uniform a b n) x c - lin1 (.uniform a b n) x data| ≤ 3 / 8 * E := by
  obtain ⟨l0, l1⟩ := lam_mem hv h1 h2
  have hj := (inCell_cell hv x).1
  have hn : 2 ≤ n.toNat := by have := hv.2; omega
  rw [cubic_cell hv h1 h2 h rfl rfl, lin1]
  set j := (cell (.uniform a b n) x).toNat
  set t := lam (.uniform a b n) x
  have hj' : j + 1 < n.toNat := hj
  have d0 := diff2_le hn h hE hD j (by omega)
  have d1 := diff2_le hn h hE hD (j + 1) hj'
  have hs : |(2 - t) * diff2 c j + (1 + t) * diff2 c (j + 1)| ≤ 9 * E := by
    calc _ ≤ |(2 - t) * diff2 c j| + |(1 + t) * diff2 c (j + 1)| := abs_add_le _ _
      _ = (2 - t) * |diff2 c j| + (1 + t) * |diff2 c (j + 1)| := by
          rw [abs_mul, abs_mul, abs_of_nonneg (by linarith : (0 : F) ≤ 2 - t),
            abs_of_nonneg (by linarith : (0 : F) ≤ 1 + t)]
      _ ≤ (2 - t) * (3 * E) + (1 + t) * (3 * E) :=
          add_le_add (mul_le_mul_of_nonneg_left d0 (by linarith))
            (mul_le_mul_of_nonneg_left d1 (by linarith))
      _ = 9 * E := by ring
  have hq : 0 ≤ t * (1 - t) / 6 := by
    have := mul_nonneg l0 (sub_nonneg.2 l1); linarith
  rw [sub_sub_cancel_left, abs_neg, abs_mul, abs_of_nonneg hq]
  calc t * (1 - t) / 6 * |(2 - t) * diff2 c j + (1 + t) * diff2 c (j + 1)|
      ≤ t * (1 - t) / 6 * (9 * E) := mul_le_mul_of_nonneg_left hs hq
    _ = t * (1 - t) * (3 / 2 * E) := by ring
    _ ≤ 1 / 4 * (3 / 2 * E) := by
        apply mul_le_mul_of_nonneg_right _ (by linarith)
        nlinarith [sq_nonneg (1 - 2 * t)]
    _ = 3 / 8 * E := by ring

/-! ### Several dimensions -/

/-- The natural cubic spline of the values `d` on one axis. -/
def cub (g : GridDim F) (x : F) (d : ℕ → F) : F := axisOp 3 0 g x (solve 1 (nNodes g) d)

/-- The filtered spline on a grid. -/
def spl (G : List (GridDim F)) (D : List ℕ → F) (x : List F) : F :=
  Ref.evalAt 3 G (List.replicate G.length 0) x (tfilt (unitAxes G) D)

theorem axisOp_lin (k l : ℕ) (g : GridDim F) (x : F) (c c' : ℕ → F) (p q : F) :
    axisOp k l g x (fun i => p * c i + q * c' i) = p * axisOp k l g x c + q * axisOp k l g x c' := by
  have := evalAt_linear k [g] [l] [x] (fun r => c (r.headD 0)) (fun r => c' (r.headD 0)) p q
  simpa [axisOp, Ref.evalAt, sumL_eq_sum] using this

section
variable {G : List (GridDim F)} (hv : ∀ g ∈ G, ValidAxis g) (hu : ∀ g ∈ G, g.gtype = .uniform)
include hv hu

theorem spl_linear (D D' : List ℕ → F) (p q : F) {x : List F} (hx : x.length = G.length) :
    spl G (fun r => p * D r + q * D' r) x = p * spl G D x + q * spl G D' x := by
  rw [spl, spl, spl, ← evalAt_linear]
  refine evalAt_congr 3 (Or.inr rfl) G _ x _ _ hv (by simp) hx fun idx hidx => ?_
  rw [(unitAxes_match hv hu).coefShape] at hidx
  exact tfilt_linear p q (es := []) _ _ (unitAxes_good hv) (by simpa using hidx)

theorem spl_comb3 (D0 D1 D2 D : List ℕ → F) (p0 p1 p2 : F) {x : List F} (hx : x.length = G.length)
    (h : ∀ r, p0 * D0 r + p1 * D1 r + p2 * D2 r = D r) :
    p0 * spl G D0 x + p1 * spl G D1 x + p2 * spl G D2 x = spl G D x := by
  have e : D = fun r => 1 * (p0 * D0 r + p1 * D1 r) + p2 * D2 r := by
    funext r; rw [← h]; ring
  rw [e, spl_linear hv hu _ _ _ _ hx, spl_linear hv hu _ _ _ _ hx]
  ring

theorem spl_zero {x : List F} (hx : x.length = G.length) : spl G (fun _ => 0) x = 0 := by
  have := spl_linear hv hu (fun _ => 0) (fun _ => 0) 0 0 hx
  simpa using this

end

/-- Several dimensions are handled one axis at a time. -/
theorem spl_cons {g : GridDim F} {G : List (GridDim F)} (hv : ∀ g' ∈ g :: G, ValidAxis g')
    (hu : ∀ g' ∈ g :: G, g'.gtype = .uniform) (D : List ℕ → F) (x : F) {xs : List F}
    (hx : xs.length = G.length) :
    spl (g :: G) D (x :: xs) = cub g x (fun j => spl G (fun s => D (j :: s)) xs) := by
  have hg := hv g (by simp)
  have hv' : ∀ g' ∈ G, ValidAxis g' := fun g' h => hv g' (by simp [h])
  have hu' : ∀ g' ∈ G, g'.gtype = .uniform := fun g' h => hu g' (by simp [h])
  have hM : 2 ≤ nNodes g := ValidAxis.two_le hg
  rw [spl, List.length_cons, List.replicate_succ, evalAt_cons, cub]
  refine axisOp_congr 3 0 (Or.inr rfl) hg x fun i hi => ?_
  show spl G (fun s => solve 1 (nNodes g) (fun j => D (j :: s)) i) xs = _
  have hi' : i < nNodes g + 2 := hi
  refine sys_unique (δ := (1 : F)) one_ne_zero hM
    (c := fun i => spl G (fun s => solve 1 (nNodes g) (fun j => D (j :: s)) i) xs) ⟨?_, ?_, ?_⟩ i hi'
  · have := spl_comb3 hv' hu' (fun s => solve 1 (nNodes g) (fun j => D (j :: s)) 0)
      (fun s => solve 1 (nNodes g) (fun j => D (j :: s)) 1)
      (fun s => solve 1 (nNodes g) (fun j => D (j :: s)) 2) (fun _ => 0) 1 (-2) 1 hx
      (fun r => by linear_combination (solve_sys (δ := (1 : F)) one_ne_zero hM (fun j => D (j :: r))).left)
    rw [spl_zero hv' hu' hx] at this
    linear_combination this
  · have := spl_comb3 hv' hu' (fun s => solve 1 (nNodes g) (fun j => D (j :: s)) (nNodes g - 1))
      (fun s => solve 1 (nNodes g) (fun j => D (j :: s)) (nNodes g))
      (fun s => solve 1 (nNodes g) (fun j => D (j :: s)) (nNodes g + 1)) (fun _ => 0) 1 (-2) 1 hx
      (fun r => by linear_combination (solve_sys (δ := (1 : F)) one_ne_zero hM (fun j => D (j :: r))).right)
    rw [spl_zero hv' hu' hx] at this
    linear_combination this
  · intro k hk
    have := spl_comb3 hv' hu' (fun s => solve 1 (nNodes g) (fun j => D (j :: s)) k)
      (fun s => solve 1 (nNodes g) (fun j => D (j :: s)) (k + 1))
      (fun s => solve 1 (nNodes g) (fun j => D (j :: s)) (k + 2)) (fun s => D (k :: s))
      (1 / 6) (4 / 6) (1 / 6) hx
      (fun r => by
        have := (solve_sys (δ := (1 : F)) one_ne_zero hM (fun j => D (j :: r))).mid k hk
        rw [cubV] at this
        linear_combination this)
    rw [cubV]
    linear_combination this

/-- On one axis. -/
theorem cub_sub_lin1 {g : GridDim F} (hv : ValidAxis g) (hu : g.gtype = .uniform) {x : F}
    (h1 : first g ≤ x) (h2 : x ≤ last g) (d : ℕ → F) {E : F} (hE : 0 ≤ E)
    (hD : ∀ j, j + 2 < nNodes g → |diff2 d j| ≤ E) : |cub g x d - lin1 g x d| ≤ 3 / 8 * E := by
  cases g with
  | uniform a b n =>
    exact cubic_sub_linear hv h1 h2 (solve_sys one_ne_zero (ValidAxis.two_le hv) d) hE hD
  | array gc => cases hu

theorem cub_linear {g : GridDim F} (hv : ValidAxis g) (x : F) (d d' : ℕ → F) (p q : F) :
    cub g x (fun i => p * d i + q * d' i) = p * cub g x d + q * cub g x d' := by
  rw [cub, cub, cub, ← axisOp_lin]
  exact axisOp_congr 3 0 (Or.inr rfl) hv x fun i hi =>
    solve_linear one_ne_zero (ValidAxis.two_le hv) p q d d' i hi

/-- Stability on one axis. -/
theorem cub_le {g : GridDim F} (hv : ValidAxis g) (hu : g.gtype = .uniform) {x : F}
    (h1 : first g ≤ x) (h2 : x ≤ last g) (d : ℕ → F) {E : F}
    (hD : ∀ j < nNodes g, |d j| ≤ E) : |cub g x d| ≤ 5 / 2 * E := by
  have hE : 0 ≤ E := (abs_nonneg _).trans (hD 0 (by have := ValidAxis.two_le hv; omega))
  have a := cub_sub_lin1 hv hu h1 h2 d (E := 4 * E) (by linarith) (fun j hj => by
    have b0 := abs_le.1 (hD j (by omega))
    have b1 := abs_le.1 (hD (j + 1) (by omega))
    have b2 := abs_le.1 (hD (j + 2) (by omega))
    rw [diff2, abs_le]
    constructor <;> linarith)
  have b := lin1_sub_le hv h1 h2 d (fun _ => 0) E (by simpa using hD)
  have z : lin1 g x (fun _ => (0 : F)) = 0 := by simp [lin1]
  rw [z, sub_zero] at b
  calc |cub g x d| = |(cub g x d - lin1 g x d) + lin1 g x d| := by ring_nf
    _ ≤ |cub g x d - lin1 g x d| + |lin1 g x d| := abs_add_le _ _
    _ ≤ 3 / 8 * (4 * E) + E := add_le_add a b
    _ = 5 / 2 * E := by ring

theorem cub_sub_le {g : GridDim F} (hv : ValidAxis g) (hu : g.gtype = .uniform) {x : F}
    (h1 : first g ≤ x) (h2 : x ≤ last g) (d d' : ℕ → F) {E : F}
    (hD : ∀ j < nNodes g, |d j - d' j| ≤ E) : |cub g x d - cub g x d'| ≤ 5 / 2 * E := by
  have e : cub g x d - cub g x d' = cub g x (fun i => 1 * d i + (-1) * d' i) := by
    rw [cub_linear hv]; ring
  rw [e]
  refine cub_le hv hu h1 h2 _ fun j hj => ?_
  have := hD j hj
  rwa [show 1 * d j + -1 * d' j = d j - d' j by ring]

/-- Stability. -/
theorem spl_le : ∀ (G : List (GridDim F)) (D : List ℕ → F) (x : List F) (E : F),
    (∀ g ∈ G, ValidAxis g) → (∀ g ∈ G, g.gtype = .uniform) → InBox G x →
    (∀ idx, InShape (gridShape G) idx → |D idx| ≤ E) → |spl G D x| ≤ (5 / 2) ^ G.length * E
  | [], D, [], E, _, _, _, hD => by simpa [spl, Ref.evalAt, tfilt, unitAxes] using hD [] trivial
  | [], _, _ :: _, _, _, _, h, _ => by cases h
  | _ :: _, _, [], _, _, _, h, _ => by cases h
  | g :: G, D, x :: xs, E, hv, hu, hx, hD => by
    cases hx with
    | cons h1 h2 =>
      rw [spl_cons hv hu D x h2.length_eq.symm, List.length_cons, pow_succ', mul_assoc]
      refine cub_le (hv g (by simp)) (hu g (by simp)) h1.1 h1.2 _ fun j hj => ?_
      exact spl_le G _ xs E (fun g' h => hv g' (by simp [h])) (fun g' h => hu g' (by simp [h])) h2
        fun idx hidx => hD (j :: idx) ⟨hj, hidx⟩

/-- If along every axis, on every line of the box, the cubic spline has error at most `e i`, then
in several dimensions the error is at most the sum of the `(5/2)^i e i`. -/
theorem spl_error : ∀ (G : List (GridDim F)) (x : List F) (f : List F → F) (e : ℕ → F),
    (∀ g ∈ G, ValidAxis g) → (∀ g ∈ G, g.gtype = .uniform) → InBox G x →
    (∀ (i : ℕ) (g : GridDim F) (t : F), G[i]? = some g → x[i]? = some t → first g ≤ t → t ≤ last g →
      ∀ y, InBox G y → |cub g t (fun j => f (y.set i (node g j))) - f (y.set i t)| ≤ e i) →
    |spl G (fun idx => f (nodeAt G idx)) x - f x| ≤ ∑ i ∈ Finset.range G.length, (5 / 2) ^ i * e i
  | [], [], f, e, _, _, _, _ => by simp [spl, Ref.evalAt, tfilt, unitAxes, nodeAt]
  | [], _ :: _, _, _, _, _, h, _ => by cases h
  | _ :: _, [], _, _, _, _, h, _ => by cases h
  | g :: G, x :: xs, f, e, hg, hu, hx, he => by
    cases hx with
    | cons h1 h2 =>
      have hv := hg g (by simp)
      rw [spl_cons hg hu _ x h2.length_eq.symm]
      have ih : ∀ j < nNodes g, |spl G (fun r => f (nodeAt (g :: G) (j :: r))) xs - f (node g j :: xs)|
          ≤ ∑ i ∈ Finset.range G.length, (5 / 2) ^ i * e (i + 1) := by
        intro j hj
        apply spl_error G xs (fun ys => f (node g j :: ys)) (fun i => e (i + 1))
          (fun g' hg' => hg g' (by simp [hg'])) (fun g' hg' => hu g' (by simp [hg'])) h2
        intro i g' t hg' ht ht1 ht2 y hy
        have := he (i + 1) g' t (by simpa using hg') (by simpa using ht) ht1 ht2 (node g j :: y)
          (.cons ⟨node_le hv (Nat.zero_le _) hj, node_le hv (by omega) (by omega)⟩ hy)
        simpa using this
      have a1 := cub_sub_le hv (hu g (by simp)) h1.1 h1.2 _ _ ih
      have a2 := he 0 g x rfl rfl h1.1 h1.2 (x :: xs) (.cons h1 h2)
      simp only [List.set_cons_zero] at a2
      rw [List.length_cons, Finset.sum_range_succ', pow_zero, one_mul]
      have e1 : ∑ i ∈ Finset.range G.length, (5 / 2 : F) ^ (i + 1) * e (i + 1)
          = 5 / 2 * ∑ i ∈ Finset.range G.length, (5 / 2) ^ i * e (i + 1) := by
        rw [Finset.mul_sum]
        exact Finset.sum_congr rfl fun i _ => by ring
      rw [e1]
      calc _ ≤ |cub g x (fun j => spl G (fun r => f (nodeAt (g :: G) (j :: r))) xs)
              - cub g x (fun j => f (node g j :: xs))|
            + |cub g x (fun j => f (node g j :: xs)) - f (x :: xs)| := abs_sub_le _ _ _
        _ ≤ _ := add_le_add a1 a2



theorem spl_congr {G : List (GridDim F)} (hv : ∀ g ∈ G, ValidAxis g)
    (hu : ∀ g ∈ G, g.gtype = .uniform) {D D' : List ℕ → F} {x : List F} (hx : InBox G x)
    (h : ∀ idx, InShape (gridShape G) idx → D idx = D' idx) : spl G D x = spl G D' x := by
  have a := spl_le G (fun r => 1 * D r + (-1) * D' r) x 0 hv hu hx
    (fun idx hi => by rw [h idx hi]; simp)
  rw [spl_linear hv hu _ _ _ _ hx.length_eq.symm, mul_zero] at a
  have := abs_nonpos_iff.1 a
  linear_combination this

/-! ### One axis, functions -/

theorem node_step {a b : F} {n : ℤ} (j : ℕ) :
    node (.uniform a b n) (j + 1) - node (.uniform a b n) j
      = node (.uniform a b n) 1 - node (.uniform a b n) 0 := by
  simp [node]; ring

theorem cub_error_of {g : GridDim F} (hv : ValidAxis g) (hu : g.gtype = .uniform) {x : F}
    (h1 : first g ≤ x) (h2 : x ≤ last g) (φ : F → F) {E e : F} (hE : 0 ≤ E)
    (hD : ∀ j, j + 2 < nNodes g → |diff2 (fun j => φ (node g j)) j| ≤ E)
    (he : |lin1 g x (fun j => φ (node g j)) - φ x| ≤ e) :
    |cub g x (fun j => φ (node g j)) - φ x| ≤ e + 3 / 8 * E := by
  calc _ ≤ |cub g x (fun j => φ (node g j)) - lin1 g x (fun j => φ (node g j))|
        + |lin1 g x (fun j => φ (node g j)) - φ x| := abs_sub_le _ _ _
    _ ≤ 3 / 8 * E + e := add_le_add (cub_sub_lin1 hv hu h1 h2 _ hE hD) he
    _ = e + 3 / 8 * E := add_comm _ _

theorem node_mem {g : GridDim F} (hv : ValidAxis g) {j : ℕ} (hj : j < nNodes g) :
    first g ≤ node g j ∧ node g j ≤ last g :=
  ⟨node_le hv (Nat.zero_le _) hj, node_le hv (by omega) (by omega)⟩

theorem cub_error_modulus {g : GridDim F} (hv : ValidAxis g) (hu : g.gtype = .uniform) {x : F}
    (h1 : first g ≤ x) (h2 : x ≤ last g) (φ : F → F) {H w : F}
    (hH : ∀ i, i + 1 < nNodes g → node g (i + 1) - node g i ≤ H)
    (hw : ∀ s t, first g ≤ s → s ≤ last g → first g ≤ t → t ≤ last g → |s - t| ≤ H →
      |φ s - φ t| ≤ w) :
    |cub g x (fun j => φ (node g j)) - φ x| ≤ 7 / 4 * w := by
  obtain ⟨hj, ha, hb⟩ := closedCell hv h1 h2
  obtain ⟨l0, l1⟩ := lam_mem hv h1 h2
  have hj0 := node_mem hv (Nat.lt_of_succ_lt hj)
  have hj1 := node_mem hv hj
  have hHj := hH _ hj
  have hH0 : 0 ≤ H := by linarith
  have w0 : 0 ≤ w := (abs_nonneg _).trans (hw x x h1 h2 h1 h2 (by simpa using hH0))
  have step : ∀ i, i + 1 < nNodes g → |φ (node g i) - φ (node g (i + 1))| ≤ w := fun i hi => by
    have m0 := node_mem hv (Nat.lt_of_succ_lt hi)
    have m1 := node_mem hv hi
    apply hw _ _ m0.1 m0.2 m1.1 m1.2
    rw [abs_sub_comm, abs_of_nonneg (width_pos hv hi).le]
    exact hH i hi
  have := cub_error_of hv hu h1 h2 φ (E := 2 * w) (e := w) (by linarith)
    (fun i hi => by
      have s0 := abs_le.1 (step i (by omega))
      have s1 := abs_le.1 (step (i + 1) hi)
      simp only [show i + 1 + 1 = i + 2 from rfl] at s1
      rw [diff2, abs_le]
      constructor <;> linarith)
    (by
      have c0 := abs_le.1 (hw (node g (cell g x).toNat) x hj0.1 hj0.2 h1 h2
        (by rw [abs_le]; constructor <;> linarith))
      have c1 := abs_le.1 (hw (node g ((cell g x).toNat + 1)) x hj1.1 hj1.2 h1 h2
        (by rw [abs_le]; constructor <;> linarith))
      rw [lin1, abs_le]
      have k : 0 ≤ 1 - lam g x := sub_nonneg.2 l1
      constructor
      · nlinarith [mul_le_mul_of_nonneg_left c0.1 k, mul_le_mul_of_nonneg_left c1.1 l0]
      · nlinarith [mul_le_mul_of_nonneg_left c0.2 k, mul_le_mul_of_nonneg_left c1.2 l0])
  linarith

theorem cub_error_lipschitz {g : GridDim F} (hv : ValidAxis g) (hu : g.gtype = .uniform) {x : F}
    (h1 : first g ≤ x) (h2 : x ≤ last g) (φ : F → F) (L H : F)
    (hH : ∀ i, i + 1 < nNodes g → node g (i + 1) - node g i ≤ H)
    (hL : ∀ s t, first g ≤ s → s ≤ last g → first g ≤ t → t ≤ last g → |φ s - φ t| ≤ L * |s - t|) :
    |cub g x (fun j => φ (node g j)) - φ x| ≤ 5 / 4 * (L * H) := by
  have hn := ValidAxis.two_le hv
  have hw0 := width_pos hv (j := 0) (by omega)
  have step : ∀ i, i + 1 < nNodes g → |φ (node g i) - φ (node g (i + 1))| ≤ L * |node g i - node g (i + 1)| :=
    fun i hi => hL _ _ (node_mem hv (Nat.lt_of_succ_lt hi)).1 (node_mem hv (Nat.lt_of_succ_lt hi)).2
      (node_mem hv hi).1 (node_mem hv hi).2
  have hL0 : 0 ≤ L := by
    by_contra hneg
    have : L * |node g 0 - node g 1| < 0 := mul_neg_of_neg_of_pos (not_le.1 hneg)
      (abs_pos.2 (sub_ne_zero.2 (sub_pos.1 hw0).ne))
    linarith [abs_nonneg (φ (node g 0) - φ (node g 1)), step 0 (by omega)]
  have step' : ∀ i, i + 1 < nNodes g → |φ (node g i) - φ (node g (i + 1))| ≤ L * H := fun i hi => by
    refine (step i hi).trans (mul_le_mul_of_nonneg_left ?_ hL0)
    rw [abs_sub_comm, abs_of_nonneg (width_pos hv hi).le]
    exact hH i hi
  have w0 : 0 ≤ L * H := (abs_nonneg _).trans (step' 0 (by omega))
  have := cub_error_of hv hu h1 h2 φ (E := 2 * (L * H)) (by linarith)
    (fun i hi => by
      have s0 := abs_le.1 (step' i (by omega))
      have s1 := abs_le.1 (step' (i + 1) hi)
      simp only [show i + 1 + 1 = i + 2 from rfl] at s1
      rw [diff2, abs_le]
      constructor <;> linarith)
    (lin1_error_lipschitz hv h1 h2 φ L H hH hL)
  linarith

theorem cub_error_convex {g : GridDim F} (hv : ValidAxis g) (hu : g.gtype = .uniform) {x : F}
    (h1 : first g ≤ x) (h2 : x ≤ last g) (φ : F → F) (M H : F) (hM : 0 ≤ M)
    (hH : ∀ i, i + 1 < nNodes g → node g (i + 1) - node g i ≤ H)
    (hp : ∀ s t r, first g ≤ s → s ≤ last g → first g ≤ t → t ≤ last g → 0 ≤ r → r ≤ 1 →
      |(1 - r) * φ s + r * φ t - φ ((1 - r) * s + r * t)|
        ≤ M / 2 * ((1 - r) * s ^ 2 + r * t ^ 2 - ((1 - r) * s + r * t) ^ 2)) :
    |cub g x (fun j => φ (node g j)) - φ x| ≤ M * H ^ 2 / 2 := by
  have := cub_error_of hv hu h1 h2 φ (E := M * H ^ 2) (by positivity)
    (fun i hi => by
      cases g with
      | array gc => cases hu
      | uniform a b n =>
        have m0 := node_mem hv (j := i) (by omega)
        have m2 := node_mem hv hi
        have k := hp _ _ (1 / 2) m0.1 m0.2 m2.1 m2.2 (by norm_num) (by norm_num)
        have s0 := node_step (a := a) (b := b) (n := n) i
        have s1 := node_step (a := a) (b := b) (n := n) (i + 1)
        have w := width_pos hv (j := i) (by omega)
        have hHi := hH i (by omega)
        simp only [show i + 1 + 1 = i + 2 from rfl] at s1
        set p0 := node (.uniform a b n) i
        set p1 := node (.uniform a b n) (i + 1)
        set p2 := node (.uniform a b n) (i + 2)
        have e : (1 - 1 / 2) * p0 + 1 / 2 * p2 = p1 := by linear_combination 1 / 2 * (s1 - s0)
        rw [e] at k
        have e2 : (1 - 1 / 2) * p0 ^ 2 + 1 / 2 * p2 ^ 2 - p1 ^ 2 = (p1 - p0) ^ 2 := by
          have : p2 = 2 * p1 - p0 := by linear_combination s1 - s0
          rw [this]; ring
        rw [e2] at k
        have b2 : (p1 - p0) ^ 2 ≤ H ^ 2 := pow_le_pow_left₀ w.le hHi 2
        have b3 : M * (p1 - p0) ^ 2 ≤ M * H ^ 2 := mul_le_mul_of_nonneg_left b2 hM
        rw [abs_le] at k
        show |φ p0 - 2 * φ p1 + φ p2| ≤ _
        rw [abs_le]
        constructor <;> linarith)
    (lin1_error_convex hv h1 h2 φ M H hM hH hp)
  linarith

end Interp.Filter
