import Verif.Proofs.SmolRounding

/-!
# The map of the cube to the domain and back, in rounded arithmetic
-/

set_option linter.unusedSectionVars false

namespace Interp.Smolyak
open Interp.Spec Interp.Codegen
open Interp.CompletePoly (transpose dot rangeN)

section
variable {K : Type} [Add K] [Sub K] [Mul K] [Div K] [Neg K] [Zero K] [One K] [NatCast K] [IntCast K]
  [LT K] [DecidableLT K] [Trig K]

/-- The arrays of a constructed grid, in any arithmetic. -/
theorem new_arrays (la : LinAlg K) (d : ℤ) (mu : Mu) (lb ub : Bound K) (sg : Grid K) (h : Grid.new la d mu lb ub = .ok sg) :
    ∃ npts, sg.cubeGrid.shape = [npts, sg.d] ∧ cube2dom sg.lb sg.ub sg.cubeGrid = .ok sg.grid ∧
      buildB sg.d sg.mu sg.cubeGrid (some sg.pinds) = .ok sg.B ∧
      ∀ inds, smolInds d.toNat mu = .ok inds → buildGrid d.toNat mu (some inds) = .ok sg.cubeGrid := by
  obtain ⟨hd2, hv, -, -, -, -, inds', he, -⟩ := new_any la d mu lb ub sg h
  obtain ⟨M, inds'', e', hi, -⟩ := exists_inds d.toNat mu (by omega) hv
  obtain ⟨rows, hg⟩ := buildGrid_any (K := K) hi
  rw [Grid.new] at h
  rcases h1 : boundOf d (-1) lb with e | lb'
  · rw [h1] at h; cases h
  rw [h1, ok_bind] at h
  rcases h2 : boundOf d 1 ub with e | ub'
  · rw [h2] at h; cases h
  rw [h2, ok_bind] at h
  by_cases h3 : d ≤ 1
  · simp [h3] at h
  simp only [h3, if_false, pure_eq_ok, ok_bind] at h
  rcases h4 : checkMu d.toNat mu with e | ⟨⟩
  · rw [h4] at h; cases h
  rw [h4, ok_bind, e', ok_bind] at h
  rcases h6 : polyInds d.toNat mu (some inds'') with e | pinds
  · rw [h6] at h; cases h
  rw [h6, ok_bind, hg, ok_bind] at h
  cases lb' with
  | none => cases h
  | some lbl =>
    cases ub' with
    | none => cases h
    | some ubl =>
      simp only [attr, pure_eq_ok, ok_bind] at h
      rcases h8 : cube2dom lbl ubl (ofRows d.toNat rows) with e | grid
      · rw [h8] at h; cases h
      rw [h8, ok_bind] at h
      rcases h9 : buildB d.toNat mu (ofRows d.toNat rows) (some pinds) with e | B
      · rw [h9] at h; cases h
      rw [h9, ok_bind] at h
      rcases h10 : la.lu B with e | ⟨l, u⟩
      · rw [h10] at h; cases h
      rw [h10, ok_bind] at h
      cases h
      exact ⟨rows.length, rfl, h8, h9, fun i h => by rw [e'] at h; cases h; exact hg⟩

end

variable {R : Rounding}

/-- The nodes, where the cosines are at most one in absolute value. -/
theorem sN_le [Trig (Fl R)] (hcos : ∀ x : Fl R, |(Trig.cos x).val| ≤ 1) (n : ℕ) :
    ∀ y ∈ (sN n : List (Fl R)), |y.val| ≤ 1 + R.u := by
  have u0 := Rounding.u_nonneg R
  intro y hy
  unfold sN at hy
  split at hy
  · simp only [List.mem_singleton] at hy
    rw [hy, Fl.zero_val, abs_zero]; linarith
  · simp only [List.mem_map] at hy
    obtain ⟨v, ⟨c, -, rfl⟩, rfl⟩ := hy
    generalize Trig.pi * (c - 1) / _ = a
    unfold flush
    split
    · rw [Fl.zero_val, abs_zero]; linarith
    · have h0 := hcos a
      have h1 : (-1 * Trig.cos a : Fl R).val = R.rnd (-1 * (Trig.cos a).val) := rfl
      have h2 := R.err (-1 * (Trig.cos a).val)
      have h3 : |(-1 * (Trig.cos a).val)| ≤ 1 := by rw [abs_mul]; simpa using h0
      have h4 := abs_add_le (R.rnd (-1 * (Trig.cos a).val) - -1 * (Trig.cos a).val) (-1 * (Trig.cos a).val)
      rw [sub_add_cancel] at h4
      have h5 := mul_le_mul_of_nonneg_left h3 u0
      rw [h1]; linarith

theorem forall₂_left {α β : Type} {q : α → Prop} : ∀ {l : List α} {l' : List β}, l.length = l'.length → (∀ a ∈ l, q a) →
    List.Forall₂ (fun a _ => q a) l l'
  | [], [], _, _ => .nil
  | a :: _, _ :: _, h, hq => .cons (hq a (by simp)) (forall₂_left (by simpa using h) fun b hb => hq b (by simp [hb]))

theorem forall₂_getD {α β : Type} {r : α → β → Prop} {q : α → Prop} {l : List α} {l' : List β} (h : List.Forall₂ r l l')
    (hr : ∀ a b, r a b → q a) {a0 : α} (h0 : q a0) (i : ℕ) : q (l.getD i a0) := by
  induction h generalizing i with
  | nil => simpa using h0
  | cons h1 _ ih => cases i with
    | zero => simpa using hr _ _ h1
    | succ i => simpa using ih i

/-- The points of the grid, where the cosines are at most one in absolute value. -/
theorem buildGrid_le [Trig (Fl R)] (hcos : ∀ x : Fl R, |(Trig.cos x).val| ≤ 1) {d M : ℕ} {mu : Mu} {inds : List (List ℤ)}
    (hi : IndsOK d mu M inds) : ∃ g : NdArray (Fl R), buildGrid d mu (some inds) = .ok g ∧ ∀ r i, |(g.get [r, i]).val| ≤ 1 + R.u := by
  have u0 := Rounding.u_nonneg R
  set Q : Fl R → ℝ → Prop := fun a _ => |a.val| ≤ 1 + R.u with hQ
  have hsN : List.Forall₂ Q (sN (M + 1)) (sN (M + 1)) := by
    refine forall₂_left ?_ (sN_le hcos _)
    rw [sN_eq (M + 1) (by have := hi.pos; omega)]
    unfold sN
    rw [if_neg (by have := hi.pos; omega)]
    simp
  have q0 : ∀ b, Q 0 b := fun b => by simp only [hQ, Fl.zero_val, abs_zero]; linarith
  have hc : DictRel Q (aChain (M + 1)) (aChain (M + 1)) := by
    unfold aChain
    refine chain_rel _ _ _ (.cons ⟨rfl, .cons ?_ (.cons ?_ .nil)⟩ (.cons ⟨rfl, .cons (q0 0) .nil⟩ .nil)) hsN
    · simp only [hQ, Fl.neg_val, Fl.one_val, abs_neg, abs_one]; linarith
    · simp only [hQ, Fl.one_val, abs_one]; linarith
  have hp : ∃ pts, inds.mapM (fun el => do
      let temp ← el.mapM (dictGet (aChain (M + 1) : Dict (Fl R)))
      pure (iterProduct temp)) = Except.ok pts ∧ List.Forall₂ (List.Forall₂ (List.Forall₂ Q)) pts
        (inds.map fun el => iterProduct (el.map fun e => aLevel e.toNat)) := by
    refine mapM_rel (r := List.Forall₂ (List.Forall₂ Q)) (g := fun el => do
      let temp ← el.mapM (dictGet (aChain (M + 1) : Dict ℝ))
      pure (iterProduct temp)) inds (fun el hel b hb => ?_) ?_
    · cases ht : el.mapM (dictGet (aChain (M + 1) : Dict ℝ)) with
      | error e => rw [ht] at hb; cases hb
      | ok t =>
        rw [ht, ok_bind] at hb
        cases hb
        obtain ⟨v, hv, hvw⟩ := mapM_rel (r := List.Forall₂ Q) (f := dictGet (aChain (M + 1) : Dict (Fl R))) el
          (fun c _ b hb => dictGet_rel hc c hb) ht
        exact ⟨iterProduct v, by rw [hv, ok_bind]; rfl, iterProduct_rel hvw⟩
    · rw [mapM_ok _ fun el => iterProduct (el.map fun e => aLevel e.toNat)]
      intro el hel
      rw [mapM_ok _ fun e => aLevel e.toNat]
      · rfl
      · intro e he
        have := (hi.entry hel).2 e he
        have h1 := aChain_lookup (M + 1) e.toNat (by omega) (by omega) (by have := hi.pos; omega)
        rwa [Int.toNat_of_nonneg (by omega)] at h1
  obtain ⟨pts, hp1, hp2⟩ := hp
  refine ⟨ofRows d pts.flatten, ?_, fun r i => ?_⟩
  · rw [buildGrid]
    simp only [indsOr, pure_eq_ok, ok_bind, hi.top, show ((M : ℤ) + 1).toNat = M + 1 by omega]
    simp only [pure_eq_ok] at hp1
    rw [hp1]; rfl
  · have h1 := List.rel_flatten hp2
    have h2 : ∀ j, |((pts.flatten.getD r []).getD j 0).val| ≤ 1 + R.u :=
      forall₂_getD (q := fun row : List (Fl R) => ∀ j, |(row.getD j 0).val| ≤ 1 + R.u) h1
        (fun row row' hrr j => forall₂_getD (q := fun a : Fl R => |a.val| ≤ 1 + R.u) hrr (fun _ _ h => h) (q0 0) j)
        (fun j => by simpa using q0 0) r
    exact h2 i

theorem radius_close {r : ℝ} (hu : R.u ≤ 1 / 500) (l h : Fl R) (hr : r = (h.val - l.val) / 2) (r0 : 0 < r) :
    |(radius l h).val - r| ≤ 2.01 * (R.u * r) := by
  have u0 := Rounding.u_nonneg R
  have ur : 0 ≤ R.u * r := mul_nonneg u0 r0.le
  have uur : R.u * (R.u * r) ≤ R.u * r / 500 := by
    have := mul_le_mul_of_nonneg_right hu (mul_nonneg u0 r0.le); linarith
  have h1 : |R.rnd (h.val - l.val) - 2 * r| ≤ R.u * (2 * r) := by
    have := R.err (h.val - l.val)
    rw [show h.val - l.val = 2 * r by rw [hr]; ring] at this ⊢
    rwa [abs_of_pos (show 0 < 2 * r by linarith)] at this
  have h2 : (radius l h).val = R.rnd (R.rnd (h.val - l.val) / ((2 : ℕ) : ℝ)) := rfl
  set dd := R.rnd (h.val - l.val) with hdd
  have h3 : |dd / ((2 : ℕ) : ℝ) - r| ≤ R.u * r := by
    have : dd / ((2 : ℕ) : ℝ) - r = (dd - 2 * r) / 2 := by push_cast; ring
    rw [this, abs_div, abs_two]; linarith
  have h4 : |dd / ((2 : ℕ) : ℝ)| ≤ r + R.u * r := by
    have := abs_add_le (dd / ((2 : ℕ) : ℝ) - r) r
    rw [sub_add_cancel, abs_of_pos r0] at this; linarith
  have h5 := (R.err (dd / ((2 : ℕ) : ℝ))).trans (mul_le_mul_of_nonneg_left h4 u0)
  have h6 := abs_add_le (R.rnd (dd / ((2 : ℕ) : ℝ)) - dd / ((2 : ℕ) : ℝ)) (dd / ((2 : ℕ) : ℝ) - r)
  rw [sub_add_sub_cancel] at h6
  rw [h2]
  linarith

/-- A point of the cube is mapped to the domain and back. -/
theorem roundtrip_close {k : ℝ} (hu : R.u ≤ 1 / 500) (hk0 : 0 ≤ k) (hk : k * R.u ≤ 1 / 100) (x l h : Fl R) (hlh : l.val < h.val)
    (hc : |l.val + h.val| ≤ k * (h.val - l.val)) (hx : |x.val| ≤ 1 + R.u) :
    |((x * radius l h + center l h - center l h) / radius l h).val - x.val| ≤ (6 + 2 * k) * R.u := by
  have u0 := Rounding.u_nonneg R
  set r : ℝ := (h.val - l.val) / 2 with hr
  set c : ℝ := (l.val + h.val) / 2 with hcd
  have r0 : 0 < r := by rw [hr]; linarith
  have hc' : |c| ≤ k * r := by rw [hcd, hr, abs_div, abs_two]; linarith
  have b1 := radius_close hu l h hr r0
  set r' : ℝ := (radius l h).val with hr'
  have ur : 0 ≤ R.u * r := mul_nonneg u0 r0.le
  have usm : R.u * r ≤ r / 500 := by have := mul_le_mul_of_nonneg_right hu r0.le; linarith
  have hr995 : 0.995 * r ≤ r' := by linarith [(abs_le.1 b1).1]
  have r'0 : 0 < r' := by linarith
  have kur : k * (R.u * r) ≤ r / 100 := by
    have := mul_le_mul_of_nonneg_right hk r0.le; linarith
  have kr0 : 0 ≤ k * r := mul_nonneg hk0 r0.le
  -- centre
  set c' : ℝ := (center l h).val with hc'd
  have b2 : |c'| ≤ 1.003 * (k * r) + 0.01 * r := by
    have h1 : c' = R.rnd (l.val + r') := rfl
    have h2 : l.val + r' - c = r' - r := by rw [hcd, hr]; ring
    have h4 : |l.val + r'| ≤ k * r + 2.01 * (R.u * r) := by
      have := abs_add_le (l.val + r' - c) c
      rw [sub_add_cancel, h2] at this; linarith
    have h5 := (R.err (l.val + r')).trans (mul_le_mul_of_nonneg_left h4 u0)
    have h6 := abs_add_le (R.rnd (l.val + r') - (l.val + r')) (l.val + r')
    rw [sub_add_cancel] at h6
    have h7 : R.u * (k * r + 2.01 * (R.u * r)) ≤ 1 / 500 * (k * r + 2.01 * (R.u * r)) :=
      mul_le_mul_of_nonneg_right hu (by linarith)
    rw [h1]
    linarith
  have b3 : |c'| ≤ 1.01 * k * r' + 0.02 * r' := by
    have := mul_le_mul_of_nonneg_left hr995 hk0
    linarith
  have ur' : 0 ≤ R.u * r' := mul_nonneg u0 r'0.le
  have uur' : R.u * (R.u * r') ≤ R.u * r' / 500 := by
    have := mul_le_mul_of_nonneg_right hu ur'; linarith
  have kuur' : R.u * (k * (R.u * r')) ≤ R.u * r' / 100 := by
    have := mul_le_mul_of_nonneg_right hk ur'; linarith
  have kur' : 0 ≤ k * (R.u * r') := mul_nonneg hk0 ur'
  -- product
  set p : ℝ := (x * radius l h).val with hp
  have xr : |x.val * r'| ≤ r' + R.u * r' := by
    rw [abs_mul, abs_of_pos r'0]
    have := mul_le_mul_of_nonneg_right hx r'0.le; linarith
  have b4 : |p - x.val * r'| ≤ 1.01 * (R.u * r') := by
    have := (R.err (x.val * r')).trans (mul_le_mul_of_nonneg_left xr u0)
    show |R.rnd (x.val * r') - x.val * r'| ≤ _
    linarith
  have b5 : |p| ≤ r' + 2.01 * (R.u * r') := by
    have := abs_add_le (p - x.val * r') (x.val * r')
    rw [sub_add_cancel] at this; linarith
  -- sum
  set g : ℝ := (x * radius l h + center l h).val with hg
  have b6 : |g - (p + c')| ≤ 1.04 * (R.u * r') + 1.01 * (k * (R.u * r')) := by
    have h1 : |p + c'| ≤ r' + 2.01 * (R.u * r') + (1.01 * k * r' + 0.02 * r') := (abs_add_le _ _).trans (add_le_add b5 b3)
    have h2 := (R.err (p + c')).trans (mul_le_mul_of_nonneg_left h1 u0)
    show |R.rnd (p + c') - (p + c')| ≤ _
    linarith
  -- difference
  have b7 : |g - c' - x.val * r'| ≤ 2.05 * (R.u * r') + 1.01 * (k * (R.u * r')) := by
    have := abs_add_le (g - (p + c')) (p - x.val * r')
    rw [show g - (p + c') + (p - x.val * r') = g - c' - x.val * r' by ring] at this
    linarith
  set q : ℝ := (x * radius l h + center l h - center l h).val with hq
  have b8 : |q - x.val * r'| ≤ 3.1 * (R.u * r') + 1.01 * (k * (R.u * r')) := by
    have h1 : |g - c'| ≤ r' + R.u * r' + (2.05 * (R.u * r') + 1.01 * (k * (R.u * r'))) := by
      have := abs_add_le (g - c' - x.val * r') (x.val * r')
      rw [sub_add_cancel] at this; linarith
    have h2 := (R.err (g - c')).trans (mul_le_mul_of_nonneg_left h1 u0)
    have h3 := abs_add_le (R.rnd (g - c') - (g - c')) (g - c' - x.val * r')
    rw [sub_add_sub_cancel] at h3
    show |R.rnd (g - c') - x.val * r'| ≤ _
    linarith
  -- quotient
  have ku0 : 0 ≤ k * R.u := mul_nonneg hk0 u0
  have b9 : |q / r' - x.val| ≤ 3.1 * R.u + 1.01 * (k * R.u) := by
    rw [show q / r' - x.val = (q - x.val * r') / r' by field_simp, abs_div, abs_of_pos r'0, div_le_iff₀ r'0]
    linarith
  have b10 : |q / r'| ≤ 1.1 := by
    have := abs_add_le (q / r' - x.val) x.val
    rw [sub_add_cancel] at this
    linarith
  have b11 := (R.err (q / r')).trans (mul_le_mul_of_nonneg_left b10 u0)
  have b12 := abs_add_le (R.rnd (q / r') - q / r') (q / r' - x.val)
  rw [sub_add_sub_cancel] at b12
  show |R.rnd (q / r') - x.val| ≤ _
  linarith

end Interp.Smolyak
