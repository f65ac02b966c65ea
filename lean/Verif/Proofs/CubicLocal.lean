import Verif.Proofs.CubicError
import Mathlib.Algebra.Order.BigOperators.Ring.Finset

/-! Natural cubic splines depend very little on data far away. -/

set_option linter.unusedSectionVars false

namespace Interp.Filter
open Interp.FilterRef Interp.Spec Interp.Codegen
open Interp.Ref (cell lam)

variable {F : Type} [Field F] [LinearOrder F] [IsStrictOrderedRing F] [FloorRing F]

/-- Comparison principle for the tridiagonal system with zero right-hand side. -/
theorem tri_compare {p q : ℕ} (hpq : p ≤ q) (z w : ℕ → F)
    (h0 : |z p| ≤ w p) (h1 : |z q| ≤ w q)
    (hz : ∀ k, p ≤ k → k + 2 ≤ q → z k + 4 * z (k + 1) + z (k + 2) = 0)
    (hw : ∀ k, p ≤ k → k + 2 ≤ q → w k + w (k + 2) ≤ 4 * w (k + 1)) :
    ∀ k, p ≤ k → k ≤ q → |z k| ≤ w k := by
  obtain ⟨k, hk, hmax⟩ := Finset.exists_max_image (Finset.Icc p q) (fun j => |z j| - w j)
    ⟨p, by simp [hpq]⟩
  rw [Finset.mem_Icc] at hk
  have key : |z k| - w k ≤ 0 := by
    by_cases e0 : k = p
    · rw [e0]; linarith
    by_cases e1 : k = q
    · rw [e1]; linarith
    obtain ⟨i, rfl⟩ : ∃ i, k = i + 1 := ⟨k - 1, by omega⟩
    have a0 := hmax i (by simp; omega)
    have a2 := hmax (i + 2) (by simp; omega)
    have ez := hz i (by omega) (by omega)
    have ew := hw i (by omega) (by omega)
    have e : 4 * |z (i + 1)| ≤ |z i| + |z (i + 2)| := by
      have : 4 * z (i + 1) = -(z i + z (i + 2)) := by linear_combination ez
      calc 4 * |z (i + 1)| = |4 * z (i + 1)| := by rw [abs_mul, abs_of_pos (by norm_num : (0 : F) < 4)]
        _ = |z i + z (i + 2)| := by rw [this, abs_neg]
        _ ≤ _ := abs_add_le _ _
    linarith
  intro j hj1 hj2
  have := hmax j (by simp [hj1, hj2])
  linarith

theorem decay_weight {ρ : F} (h0 : 0 < ρ) (h1 : 1 ≤ ρ * (4 - ρ)) (e : ℕ) :
    ρ ^ e + ρ ^ (e + 2) ≤ 4 * ρ ^ (e + 1) := by
  have := pow_pos h0 e
  have e1 : ρ ^ (e + 2) = ρ ^ e * (ρ * ρ) := by ring
  have e2 : 4 * ρ ^ (e + 1) = ρ ^ e * (4 * ρ) := by ring
  rw [e1, e2]
  nlinarith

/-- Second differences in the middle of a stretch of zero data. -/
theorem diff2_local {M : ℕ} (hM : 2 ≤ M) {data c : ℕ → F} (h : Sys M data c) {B ρ : F} (hB : 0 ≤ B)
    (h0 : 0 < ρ) (h1 : 1 ≤ ρ * (4 - ρ)) (hD : ∀ j < M, |diff2 c j| ≤ B) {j R : ℕ} (hR : 1 ≤ R)
    (hj : j + 1 < M) (hz : ∀ i < M, j + 1 ≤ i + R → i ≤ j + R → data i = 0) :
    |diff2 c j| ≤ B * (ρ ^ (R - 1) + ρ ^ R) ∧ |diff2 c (j + 1)| ≤ B * (ρ ^ (R - 1) + ρ ^ R) := by
  obtain ⟨q0, q1⟩ := diff2_ends hM h
  set w : ℕ → F := fun k => B * (ρ ^ (k + R - (j + 1)) + ρ ^ (j + R - k)) with hwd
  have wpos : ∀ k, 0 ≤ w k := fun k =>
    mul_nonneg hB (add_nonneg (pow_nonneg h0.le _) (pow_nonneg h0.le _))
  have main := tri_compare (p := j + 1 - R) (q := min (j + R) (M - 1)) (by omega) (diff2 c) w
    (by
      by_cases e : j + 1 ≤ R
      · rw [show j + 1 - R = 0 by omega, q0, abs_zero]; exact wpos _
      · refine (hD _ (by omega)).trans ?_
        rw [hwd]
        simp only
        rw [show j + 1 - R + R - (j + 1) = 0 by omega, pow_zero]
        have := mul_nonneg hB (pow_nonneg h0.le (j + R - (j + 1 - R)))
        rw [mul_add]; linarith)
    (by
      by_cases e : M - 1 ≤ j + R
      · rw [min_eq_right e, q1, abs_zero]; exact wpos _
      · refine (hD _ (by omega)).trans ?_
        rw [min_eq_left (by omega), hwd]
        simp only
        rw [Nat.sub_self, pow_zero]
        have := mul_nonneg hB (pow_nonneg h0.le (j + R + R - (j + 1)))
        rw [mul_add]; linarith)
    (by
      intro k hk1 hk2
      have hk3 : k + 2 < M := by have := min_le_right (j + R) (M - 1); omega
      have hk4 : k + 2 ≤ j + R := hk2.trans (min_le_left _ _)
      rw [diff2_data h hk3, diff2, hz k (by omega) (by omega) (by omega),
        hz (k + 1) (by omega) (by omega) (by omega), hz (k + 2) (by omega) (by omega) (by omega)]
      ring)
    (by
      intro k hk1 hk2
      have hk4 : k + 2 ≤ j + R := hk2.trans (min_le_left _ _)
      obtain ⟨s, hs⟩ : ∃ s, k + R = s + (j + 1) := ⟨k + R - (j + 1), by omega⟩
      obtain ⟨t, ht⟩ : ∃ t, j + R = t + (k + 2) := ⟨j + R - (k + 2), by omega⟩
      rw [hwd]
      simp only
      rw [show k + R - (j + 1) = s by omega, show k + 2 + R - (j + 1) = s + 2 by omega,
        show k + 1 + R - (j + 1) = s + 1 by omega, show j + R - k = t + 2 by omega,
        show j + R - (k + 2) = t by omega, show j + R - (k + 1) = t + 1 by omega]
      have a := mul_le_mul_of_nonneg_left (decay_weight h0 h1 s) hB
      have b := mul_le_mul_of_nonneg_left (decay_weight h0 h1 t) hB
      linarith)
  have m0 := main j (by omega) (by omega)
  have m1 := main (j + 1) (by omega) (by omega)
  rw [hwd] at m0 m1
  simp only at m0 m1
  rw [show j + R - (j + 1) = R - 1 by omega, show j + R - j = R by omega] at m0
  rw [show j + 1 + R - (j + 1) = R by omega, show j + R - (j + 1) = R - 1 by omega,
    add_comm (ρ ^ R)] at m1
  exact ⟨m0, m1⟩

/-- On one axis: data that vanish at the nodes closer than `R` cells. -/
theorem cub_local {g : GridDim F} (hv : ValidAxis g) (hu : g.gtype = .uniform) {x : F}
    (h1 : first g ≤ x) (h2 : x ≤ last g) (d : ℕ → F) {E ρ : F} (hE : ∀ j < nNodes g, |d j| ≤ E)
    (r0 : 0 < ρ) (r1 : 1 ≤ ρ * (4 - ρ)) (R : ℕ)
    (hz : ∀ i < nNodes g, |x - node g i| < R * (node g 1 - node g 0) → d i = 0) :
    |cub g x d| ≤ 15 / 2 * ρ ^ R * E := by
  have hE0 : 0 ≤ E := (abs_nonneg _).trans (hE 0 (by have := ValidAxis.two_le hv; omega))
  rcases Nat.eq_zero_or_pos R with rfl | hR
  · have := cub_le hv hu h1 h2 d hE
    rw [pow_zero]; linarith
  cases g with
  | array gc => cases hu
  | uniform a b n =>
    obtain ⟨l0, l1⟩ := lam_mem hv h1 h2
    have hM : 2 ≤ n.toNat := ValidAxis.two_le hv
    have hj := (inCell_cell hv x).1
    have hw := width_pos hv hj
    have hl := lam_eq hv x
    have hs := solve_sys (δ := (1 : F)) one_ne_zero hM d
    rw [cub]
    rw [show nNodes (GridDim.uniform a b n) = n.toNat from rfl] at hz hE hj ⊢
    rw [cubic_cell hv h1 h2 hs rfl rfl]
    set j := (cell (.uniform a b n) x).toNat with hjd
    set t := lam (.uniform a b n) x with htd
    set s := node (GridDim.uniform a b n) 1 - node (.uniform a b n) 0 with hsd
    have hst := node_step (a := a) (b := b) (n := n) j
    rw [← hsd] at hst
    rw [hst] at hl hw
    have hnode : ∀ i : ℕ, node (.uniform a b n) i = a + i * s := by
      intro i; rw [hsd]; simp [node]
    have hx : x = a + (j + t) * s := by
      rw [hl, hnode]; field_simp; ring
    have hz' : ∀ i < n.toNat, |(j : F) + t - i| < R → d i = 0 := by
      intro i hi hlt
      apply hz i hi
      rw [hx, hnode, show a + (j + t) * s - (a + i * s) = (j + t - i) * s by ring, abs_mul,
        abs_of_pos hw]
      exact mul_lt_mul_of_pos_right hlt hw
    have hR1 : (1 : F) ≤ R := by exact_mod_cast hR
    have hlin : (1 - t) * d j + t * d (j + 1) = 0 := by
      have ea : (1 - t) * d j = 0 := by
        rcases eq_or_lt_of_le l1 with e | e
        · rw [e]; ring
        · rw [hz' j (by omega) (by rw [add_sub_cancel_left, abs_of_nonneg l0]; linarith), mul_zero]
      have eb : t * d (j + 1) = 0 := by
        rcases eq_or_lt_of_le l0 with e | e
        · rw [← e]; ring
        · rw [hz' (j + 1) hj (by
            push_cast
            rw [abs_of_nonpos (by linarith)]; linarith), mul_zero]
      rw [ea, eb, add_zero]
    rw [hlin, zero_sub, abs_neg]
    have hq : 0 ≤ t * (1 - t) / 6 := by
      have := mul_nonneg l0 (sub_nonneg.2 l1); linarith
    have hP : 0 < ρ ^ R := pow_pos r0 R
    by_cases hin : 0 < t ∧ t < 1
    · obtain ⟨i0, i1⟩ := hin
      have hd : ∀ k < n.toNat, |diff2 (solve 1 n.toNat d) k| ≤ 12 * E := by
        have := diff2_le hM hs (E := 4 * E) (by linarith) (fun k hk => by
          have b0 := abs_le.1 (hE k (by omega))
          have b1 := abs_le.1 (hE (k + 1) (by omega))
          have b2 := abs_le.1 (hE (k + 2) (by omega))
          rw [diff2, abs_le]
          constructor <;> linarith)
        intro k hk
        have := this k hk
        linarith
      obtain ⟨m0, m1⟩ := diff2_local hM hs (B := 12 * E) (by linarith) r0 r1 hd hR hj
        (fun i hi c1 c2 => hz' i hi (by
          have c1' : (j : F) + 1 ≤ i + R := by exact_mod_cast c1
          have c2' : (i : F) ≤ j + R := by exact_mod_cast c2
          rw [abs_lt]; constructor <;> linarith))
      have hpow : ρ ^ (R - 1) + ρ ^ R ≤ 5 * ρ ^ R := by
        obtain ⟨r, rfl⟩ : ∃ r, R = r + 1 := ⟨R - 1, by omega⟩
        have := decay_weight r0 r1 r
        have p2 := pow_pos r0 (r + 2)
        rw [Nat.add_sub_cancel]; linarith
      have hb := mul_le_mul_of_nonneg_left hpow (by linarith : 0 ≤ 12 * E)
      have d0 := m0.trans hb
      have d1 := m1.trans hb
      set Q := 12 * E * (5 * ρ ^ R)
      have hQ : 0 ≤ Q := (abs_nonneg _).trans d0
      have hsum : |(2 - t) * diff2 (solve 1 n.toNat d) j + (1 + t) * diff2 (solve 1 n.toNat d) (j + 1)|
          ≤ 3 * Q := by
        calc _ ≤ |(2 - t) * diff2 (solve 1 n.toNat d) j|
              + |(1 + t) * diff2 (solve 1 n.toNat d) (j + 1)| := abs_add_le _ _
          _ = (2 - t) * |diff2 (solve 1 n.toNat d) j| + (1 + t) * |diff2 (solve 1 n.toNat d) (j + 1)| := by
              rw [abs_mul, abs_mul, abs_of_nonneg (by linarith : (0 : F) ≤ 2 - t),
                abs_of_nonneg (by linarith : (0 : F) ≤ 1 + t)]
          _ ≤ (2 - t) * Q + (1 + t) * Q :=
              add_le_add (mul_le_mul_of_nonneg_left d0 (by linarith))
                (mul_le_mul_of_nonneg_left d1 (by linarith))
          _ = 3 * Q := by ring
      rw [abs_mul, abs_of_nonneg hq]
      calc _ ≤ t * (1 - t) / 6 * (3 * Q) := mul_le_mul_of_nonneg_left hsum hq
        _ = t * (1 - t) * (1 / 2 * Q) := by ring
        _ ≤ 1 / 4 * (1 / 2 * Q) := by
            apply mul_le_mul_of_nonneg_right _ (by linarith)
            nlinarith [sq_nonneg (1 - 2 * t)]
        _ = 15 / 2 * ρ ^ R * E := by simp only [Q]; ring
    · have : t * (1 - t) = 0 := by
        rcases eq_or_lt_of_le l0 with e | e
        · rw [← e]; ring
        · have : t = 1 := le_antisymm l1 (not_lt.1 fun c => hin ⟨e, c⟩)
          rw [this]; ring
      rw [this, zero_div, zero_mul, abs_zero]
      exact mul_nonneg (mul_nonneg (by norm_num) hP.le) hE0

/-- The point is closer than `R` cells to the node along every axis. -/
def Near (R : ℕ) : List (GridDim F) → List F → List ℕ → Prop
  | g :: G, x :: xs, i :: idx => |x - node g i| < R * (node g 1 - node g 0) ∧ Near R G xs idx
  | _, _, _ => True

/-- Data that vanish at the nodes closer than `R` cells. -/
theorem spl_local {ρ : F} (r0 : 0 < ρ) (r1 : 1 ≤ ρ * (4 - ρ)) (R : ℕ) :
    ∀ (G : List (GridDim F)) (D : List ℕ → F) (x : List F) (E : F),
    (∀ g ∈ G, ValidAxis g) → (∀ g ∈ G, g.gtype = .uniform) → InBox G x →
    (∀ idx, InShape (gridShape G) idx → |D idx| ≤ E) →
    (∀ idx, InShape (gridShape G) idx → Near R G x idx → D idx = 0) →
    |spl G D x| ≤ G.length * (5 / 2) ^ (G.length - 1) * (15 / 2 * ρ ^ R) * E
  | [], D, [], E, _, _, _, _, hz => by
    have := hz [] trivial trivial
    simp [spl, Ref.evalAt, tfilt, unitAxes, this]
  | [], _, _ :: _, _, _, _, h, _, _ => by cases h
  | _ :: _, _, [], _, _, _, h, _, _ => by cases h
  | g :: G, D, x :: xs, E, hv, hu, hx, hD, hz => by
    cases hx with
    | cons h1 h2 =>
      have hvg := hv g (by simp)
      have hug := hu g (by simp)
      have hv' : ∀ g' ∈ G, ValidAxis g' := fun g' h => hv g' (by simp [h])
      have hu' : ∀ g' ∈ G, g'.gtype = .uniform := fun g' h => hu g' (by simp [h])
      classical
      rw [spl_cons hv hu D x h2.length_eq.symm, List.length_cons]
      set e : ℕ → F := fun j => spl G (fun s => D (j :: s)) xs with he
      set P : ℕ → Prop := fun j => |x - node g j| < R * (node g 1 - node g 0) with hP
      have hsplit : cub g x e
          = cub g x (fun j => if P j then e j else 0) + cub g x (fun j => if P j then 0 else e j) := by
        have := cub_linear hvg x (fun j => if P j then e j else 0) (fun j => if P j then 0 else e j) 1 1
        rw [one_mul, one_mul] at this
        rw [← this]
        congr 1
        funext j
        split <;> ring
      have hE0 : ∀ j < nNodes g, |e j| ≤ (5 / 2) ^ G.length * E := fun j hj =>
        spl_le G _ xs E hv' hu' h2 fun idx hi => hD (j :: idx) ⟨hj, hi⟩
      have hnn : 0 ≤ (5 / 2) ^ G.length * E :=
        (abs_nonneg _).trans (hE0 0 (by have := ValidAxis.two_le hvg; omega))
      have hEE : 0 ≤ E := by
        have : (0 : F) < (5 / 2) ^ G.length := by positivity
        nlinarith
      have hρ := pow_pos r0 R
      have near := cub_le hvg hug h1.1 h1.2 (fun j => if P j then e j else 0)
        (E := G.length * (5 / 2) ^ (G.length - 1) * (15 / 2 * ρ ^ R) * E) (fun j hj => by
          by_cases c : P j
          · simp only [c, if_true]
            exact spl_local r0 r1 R G _ xs E hv' hu' h2 (fun idx hi => hD (j :: idx) ⟨hj, hi⟩)
              (fun idx hi hn => hz (j :: idx) ⟨hj, hi⟩ ⟨c, hn⟩)
          · simp only [c, if_false, abs_zero]
            positivity)
      have far := cub_local hvg hug h1.1 h1.2 (fun j => if P j then 0 else e j)
        (E := (5 / 2) ^ G.length * E) (ρ := ρ) (fun j hj => by
          by_cases c : P j
          · simp only [c, if_true, abs_zero]; exact hnn
          · simp only [c, if_false]; exact hE0 j hj) r0 r1 R (fun j _ c => by
          have c' : P j := c
          simp only [c', if_true])
      rw [hsplit]
      calc _ ≤ _ := abs_add_le _ _
        _ ≤ 5 / 2 * (G.length * (5 / 2) ^ (G.length - 1) * (15 / 2 * ρ ^ R) * E)
            + 15 / 2 * ρ ^ R * ((5 / 2) ^ G.length * E) := add_le_add near far
        _ = _ := by
            rcases hl : G.length with _ | k
            · simp
            · rw [Nat.add_sub_cancel, Nat.add_sub_cancel, pow_succ]
              push_cast
              ring

/-- The value at a single node. -/
theorem spl_single {ρ : F} (r0 : 0 < ρ) (r1 : 1 ≤ ρ * (4 - ρ)) :
    ∀ (G : List (GridDim F)) (D : List ℕ → F) (x : List F) (E : F) (c : List ℕ) (r : ℕ → ℕ),
    (∀ g ∈ G, ValidAxis g) → (∀ g ∈ G, g.gtype = .uniform) → InBox G x → 0 ≤ E →
    (InShape (gridShape G) c → |D c| ≤ E) →
    (∀ idx, InShape (gridShape G) idx → idx ≠ c → D idx = 0) →
    (∀ (i : ℕ) (g : GridDim F) (t : F) (k : ℕ), G[i]? = some g → x[i]? = some t → c[i]? = some k →
      (r i : F) * (node g 1 - node g 0) ≤ |t - node g k|) →
    |spl G D x| ≤ (∏ i ∈ Finset.range G.length, 15 / 2 * ρ ^ r i) * E
  | [], D, [], E, c, _, _, _, _, hE, hD, hz, _ => by
    have : |D []| ≤ E := by
      by_cases e : [] = c
      · rw [e]; exact hD (by rw [← e]; trivial)
      · rw [hz [] trivial e, abs_zero]; exact hE
    simpa [spl, Ref.evalAt, tfilt, unitAxes] using this
  | [], _, _ :: _, _, _, _, _, _, h, _, _, _, _ => by cases h
  | _ :: _, _, [], _, _, _, _, _, h, _, _, _, _ => by cases h
  | g :: G, D, x :: xs, E, c, r, hv, hu, hx, hE, hD, hz, hr => by
    cases hx with
    | cons h1 h2 =>
      have hvg := hv g (by simp)
      have hug := hu g (by simp)
      have hv' : ∀ g' ∈ G, ValidAxis g' := fun g' h => hv g' (by simp [h])
      have hu' : ∀ g' ∈ G, g'.gtype = .uniform := fun g' h => hu g' (by simp [h])
      rw [spl_cons hv hu D x h2.length_eq.symm, List.length_cons, Finset.prod_range_succ']
      have hp : 0 ≤ (∏ i ∈ Finset.range G.length, 15 / 2 * ρ ^ r (i + 1)) * E :=
        mul_nonneg (Finset.prod_nonneg fun i _ => by positivity) hE
      have hin : ∀ j < nNodes g, |spl G (fun s => D (j :: s)) xs|
          ≤ (∏ i ∈ Finset.range G.length, 15 / 2 * ρ ^ r (i + 1)) * E := by
        intro j hj
        apply spl_single r0 r1 G (fun s => D (j :: s)) xs E c.tail (fun i => r (i + 1)) hv' hu' h2 hE
        · intro hi
          by_cases e : j :: c.tail = c
          · rw [e]; exact hD (by rw [← e]; exact ⟨hj, hi⟩)
          · rw [hz (j :: c.tail) ⟨hj, hi⟩ e, abs_zero]; exact hE
        · intro idx hi hne
          exact hz (j :: idx) ⟨hj, hi⟩ (fun e => hne (by rw [← e]; rfl))
        · intro i g' t k e1 e2 e3
          exact hr (i + 1) g' t k (by simpa using e1) (by simpa using e2) (by
            rw [List.getElem?_tail] at e3; exact e3)
      have := cub_local hvg hug h1.1 h1.2 (fun j => spl G (fun s => D (j :: s)) xs) hin r0 r1 (r 0)
        (fun j hj hlt => by
          have hne : ∀ s, j :: s ≠ c := fun s e =>
            absurd (hr 0 g x j rfl rfl (by rw [← e]; rfl)) (not_le.2 hlt)
          have : spl G (fun s => D (j :: s)) xs = spl G (fun _ => 0) xs :=
            spl_congr hv' hu' h2 fun idx hi => hz (j :: idx) ⟨hj, hi⟩ (hne idx)
          rw [this, spl_zero hv' hu' h2.length_eq.symm])
      calc _ ≤ _ := this
        _ = _ := by ring

end Interp.Filter
