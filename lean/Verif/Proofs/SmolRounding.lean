import Verif.Proofs.ChebRounding
import Verif.Proofs.SmolInterp
import Verif.Proofs.NodesRounding
import Verif.Spec.SmolRounding

/-!
# Smolyak interpolation in rounded arithmetic
-/

set_option linter.unusedSectionVars false

namespace Interp.Smolyak
open Interp.Spec Interp.Codegen
open Interp.CompletePoly (transpose dot rangeN)

/-! ### Construction of the grid -/

section
variable {K : Type} [Add K] [Sub K] [Mul K] [Div K] [Neg K] [Zero K] [One K] [NatCast K] [IntCast K]
  [LT K] [DecidableLT K] [Trig K]

theorem boundOf_length {d : ℤ} {x : K} {b : Bound K} {l : List K} (h : boundOf d x b = .ok (some l)) : l.length = d.toNat := by
  cases b with
  | default => by_cases hd : d < 0 <;> simp [boundOf, hd, pure_eq_ok] at h; rw [← h]; simp
  | scalar y => by_cases hd : d < 0 <;> simp [boundOf, hd, pure_eq_ok] at h; rw [← h]; simp
  | array a => by_cases hd : (a.length : ℤ) = d <;> simp [boundOf, hd, pure_eq_ok] at h; rw [← h]; omega
  | other => simp [boundOf, pure_eq_ok] at h

/-- What a successful construction of a grid says, in any arithmetic. -/
theorem new_any (la : LinAlg K) (d : ℤ) (mu : Mu) (lb ub : Bound K) (sg : Grid K) (h : Grid.new la d mu lb ub = .ok sg) :
    2 ≤ d ∧ ValidMu d.toNat mu ∧ sg.d = d.toNat ∧ sg.mu = mu ∧ sg.lb.length = d.toNat ∧ sg.ub.length = d.toNat ∧
      ∃ inds, smolInds d.toNat mu = .ok inds ∧ polyInds d.toNat mu (some inds) = .ok sg.pinds := by
  rw [Grid.new] at h
  rcases h1 : boundOf d (-1) lb with e | lb'
  · rw [h1] at h; cases h
  rw [h1, ok_bind] at h
  rcases h2 : boundOf d 1 ub with e | ub'
  · rw [h2] at h; cases h
  rw [h2, ok_bind] at h
  by_cases h3 : d ≤ 1
  · simp [h3] at h
  simp only [h3, if_false, pure_eq_ok, ok_bind] at h
  rcases h4 : checkMu d.toNat mu with e | ⟨⟩
  · rw [h4] at h; cases h
  rw [h4, ok_bind] at h
  have hv := (validMu_check d.toNat mu).mp h4
  rcases h5 : smolInds d.toNat mu with e | inds
  · rw [h5] at h; cases h
  rw [h5, ok_bind] at h
  rcases h6 : polyInds d.toNat mu (some inds) with e | pinds
  · rw [h6] at h; cases h
  rw [h6, ok_bind] at h
  rcases h7 : (buildGrid d.toNat mu (some inds) : Py (NdArray K)) with e | cube
  · rw [h7] at h; cases h
  rw [h7, ok_bind] at h
  cases lb' with
  | none => cases h
  | some lbl =>
    cases ub' with
    | none => cases h
    | some ubl =>
      simp only [attr, pure_eq_ok, ok_bind] at h
      rcases h8 : cube2dom lbl ubl cube with e | grid
      · rw [h8] at h; cases h
      rw [h8, ok_bind] at h
      rcases h9 : buildB d.toNat mu cube (some pinds) with e | B
      · rw [h9] at h; cases h
      rw [h9, ok_bind] at h
      rcases h10 : la.lu B with e | ⟨l, u⟩
      · rw [h10] at h; cases h
      rw [h10, ok_bind] at h
      cases h
      exact ⟨by omega, hv, rfl, rfl, boundOf_length h1, boundOf_length h2, inds, rfl, h6⟩

theorem forall₂_true {α β : Type} : ∀ {l : List α} {l' : List β}, l.length = l'.length → List.Forall₂ (fun _ _ => True) l l'
  | [], [], _ => .nil
  | _ :: _, _ :: _, h => .cons trivial (forall₂_true (by simpa using h))

/-- `build_grid` returns in any arithmetic. -/
theorem buildGrid_any {d M : ℕ} {mu : Mu} {inds : List (List ℤ)} (hi : IndsOK d mu M inds) :
    ∃ rows : List (List K), buildGrid d mu (some inds) = .ok (ofRows d rows) := by
  have hsN : List.Forall₂ (fun (_ : K) (_ : ℝ) => True) (sN (M + 1)) (sN (M + 1)) := by
    refine forall₂_true ?_
    rw [sN_eq (M + 1) (by have := hi.pos; omega)]
    unfold sN
    rw [if_neg (by have := hi.pos; omega)]
    simp
  have hc : DictRel (fun (_ : K) (_ : ℝ) => True) (aChain (M + 1)) (aChain (M + 1)) := by
    unfold aChain
    exact chain_rel _ _ _ (.cons ⟨rfl, .cons trivial (.cons trivial .nil)⟩ (.cons ⟨rfl, .cons trivial .nil⟩ .nil)) hsN
  have hp : ∃ pts, inds.mapM (fun el => do
      let temp ← el.mapM (dictGet (aChain (M + 1) : Dict K))
      pure (iterProduct temp)) = Except.ok pts ∧ List.Forall₂ (fun _ _ => True) pts
        (inds.map fun el => iterProduct (el.map fun e => aLevel e.toNat)) := by
    refine mapM_rel (r := fun _ _ => True) (g := fun el => do
      let temp ← el.mapM (dictGet (aChain (M + 1) : Dict ℝ))
      pure (iterProduct temp)) inds (fun el hel b hb => ?_) ?_
    · cases ht : el.mapM (dictGet (aChain (M + 1) : Dict ℝ)) with
      | error e => rw [ht] at hb; cases hb
      | ok t =>
        obtain ⟨v, hv, -⟩ := mapM_rel (r := fun _ _ => True) (f := dictGet (aChain (M + 1) : Dict K)) el
          (fun c _ b hb => by obtain ⟨v, h1, -⟩ := dictGet_rel hc c hb; exact ⟨v, h1, trivial⟩) ht
        exact ⟨iterProduct v, by rw [hv, ok_bind]; rfl, trivial⟩
    · rw [mapM_ok _ fun el => iterProduct (el.map fun e => aLevel e.toNat)]
      intro el hel
      rw [mapM_ok _ fun e => aLevel e.toNat]
      · rfl
      · intro e he
        have := (hi.entry hel).2 e he
        have h1 := aChain_lookup (M + 1) e.toNat (by omega) (by omega) (by have := hi.pos; omega)
        rwa [Int.toNat_of_nonneg (by omega)] at h1
  obtain ⟨pts, hp1, -⟩ := hp
  refine ⟨pts.flatten, ?_⟩
  rw [buildGrid]
  simp only [indsOr, pure_eq_ok, ok_bind, hi.top, show ((M : ℤ) + 1).toNat = M + 1 by omega]
  simp only [pure_eq_ok] at hp1
  rw [hp1]; rfl

/-- The constructor returns in any arithmetic. -/
theorem new_total (la : LinAlg K) (hla : ∀ B, ∃ p, la.lu B = .ok p) (d : ℕ) (mu : Mu) (lb ub : Bound K) (lbl ubl : List K)
    (hd : 2 ≤ d) (hv : ValidMu d mu) (hl : boundOf d (-1) lb = .ok (some lbl)) (hu : boundOf d 1 ub = .ok (some ubl)) :
    ∃ sg, Grid.new la (d : ℤ) mu lb ub = .ok sg ∧ sg.d = d ∧ sg.lb = lbl ∧ sg.ub = ubl := by
  obtain ⟨M, inds, e, hi, -⟩ := exists_inds d mu hd hv
  obtain ⟨rows, hg⟩ := buildGrid_any (K := K) hi
  have ll := boundOf_length hl
  have lu := boundOf_length hu
  rw [Int.toNat_natCast] at ll lu
  have hc : ∃ g, cube2dom lbl ubl (ofRows d rows) = .ok g := by
    simp [cube2dom, alongLast, ll, lu, ofRows, pure_eq_ok]
  obtain ⟨g, hc⟩ := hc
  obtain ⟨B, eB, -⟩ := buildB_ok (K := K) d M rows.length mu (ofRows d rows) (pRows inds) (by omega) hi.top rfl
    (fun p hp => (hi.pRows_bounds hp).1) (fun p hp => (hi.pRows_bounds hp).2)
  obtain ⟨⟨l, u⟩, elu⟩ := hla B
  refine ⟨⟨d, mu, lbl, ubl, inds, pRows inds, ofRows d rows, g, B, l, u⟩, ?_, rfl, rfl, rfl⟩
  rw [Grid.new]
  simp only [hl, hu, ok_bind, show ¬ (d : ℤ) ≤ 1 by omega, if_false, pure_eq_ok, Int.toNat_natCast,
    (validMu_check d mu).mpr hv, e, polyInds_ok hi, hg, attr, hc, eB, elu]

end

variable {R : Rounding}

/-! ### The map to the cube -/

theorem dom2cube_close {k : ℝ} (hu : R.u ≤ 1 / 500) (hk0 : 0 ≤ k) (hk : k * R.u ≤ 1 / 100) (p l h : Fl R) (hlh : l.val < h.val)
    (hc : |l.val + h.val| ≤ k * (h.val - l.val)) (hp : l.val ≤ p.val ∧ p.val ≤ h.val) :
    |((p - center l h) / radius l h).val - (p.val - center l.val h.val) / radius l.val h.val| ≤ (7 + 2 * k) * R.u ∧
      |(p.val - center l.val h.val) / radius l.val h.val| ≤ 1 := by
  have u0 := Rounding.u_nonneg R
  set r : ℝ := radius l.val h.val with hr
  set c : ℝ := center l.val h.val with hcd
  have er : r = (h.val - l.val) / 2 := by rw [hr, radius]; push_cast; ring
  have ec : c = (l.val + h.val) / 2 := by rw [hcd, center]; push_cast; ring
  have r0 : 0 < r := by rw [er]; linarith
  have hc' : |c| ≤ k * r := by
    rw [ec, er, abs_div, abs_two]; linarith
  have hpc : |p.val - c| ≤ r := by
    rw [abs_le, ec, er]; constructor <;> linarith [hp.1, hp.2]
  have ur : 0 ≤ R.u * r := mul_nonneg u0 r0.le
  have uur : R.u * (R.u * r) ≤ R.u * r / 500 := by
    have := mul_le_mul_of_nonneg_right hu ur; linarith
  have kur : 0 ≤ k * (R.u * r) := mul_nonneg hk0 ur
  have ukur : R.u * (k * (R.u * r)) ≤ R.u * r / 100 := by
    have := mul_le_mul_of_nonneg_right hk ur; linarith
  -- radius
  set r' : ℝ := (radius l h).val with hr'
  have b1 : |r' - r| ≤ 2.01 * (R.u * r) := by
    have h1 : |R.rnd (h.val - l.val) - 2 * r| ≤ R.u * (2 * r) := by
      have := R.err (h.val - l.val)
      rw [show h.val - l.val = 2 * r by rw [er]; ring] at this ⊢
      rwa [abs_of_pos (show 0 < 2 * r by linarith)] at this
    have h2 : r' = R.rnd (R.rnd (h.val - l.val) / ((2 : ℕ) : ℝ)) := rfl
    set dd := R.rnd (h.val - l.val) with hdd
    have h3 : |dd / ((2 : ℕ) : ℝ) - r| ≤ R.u * r := by
      have : dd / ((2 : ℕ) : ℝ) - r = (dd - 2 * r) / 2 := by push_cast; ring
      rw [this, abs_div, abs_two]; linarith
    have h4 : |dd / ((2 : ℕ) : ℝ)| ≤ r + R.u * r := by
      have := abs_add_le (dd / ((2 : ℕ) : ℝ) - r) r
      rw [sub_add_cancel, abs_of_pos r0] at this; linarith
    have h5 := (R.err (dd / ((2 : ℕ) : ℝ))).trans (mul_le_mul_of_nonneg_left h4 u0)
    have h6 := abs_add_le (R.rnd (dd / ((2 : ℕ) : ℝ)) - dd / ((2 : ℕ) : ℝ)) (dd / ((2 : ℕ) : ℝ) - r)
    rw [sub_add_sub_cancel] at h6
    rw [h2]
    linarith
  -- centre
  set c' : ℝ := (center l h).val with hc'd
  have b2 : |c' - c| ≤ 2.02 * (R.u * r) + k * (R.u * r) := by
    have h1 : c' = R.rnd (l.val + r') := rfl
    have h2 : l.val + r' - c = r' - r := by rw [ec, er]; ring
    have h3 : |l.val + r' - c| ≤ 2.01 * (R.u * r) := by rw [h2]; exact b1
    have h4 : |l.val + r'| ≤ k * r + 2.01 * (R.u * r) := by
      have := abs_add_le (l.val + r' - c) c
      rw [sub_add_cancel] at this; linarith
    have h5 := (R.err (l.val + r')).trans (mul_le_mul_of_nonneg_left h4 u0)
    have h6 := abs_add_le (R.rnd (l.val + r') - (l.val + r')) (l.val + r' - c)
    rw [sub_add_sub_cancel] at h6
    rw [h1]
    have : R.u * (k * r + 2.01 * (R.u * r)) ≤ k * (R.u * r) + 0.01 * (R.u * r) := by linarith
    linarith
  -- difference
  set q' : ℝ := (p - center l h).val with hq'
  have b3 : |q' - (p.val - c)| ≤ 3.04 * (R.u * r) + k * (R.u * r) := by
    have h1 : q' = R.rnd (p.val - c') := rfl
    have h3 : |p.val - c' - (p.val - c)| ≤ 2.02 * (R.u * r) + k * (R.u * r) := by
      rw [show p.val - c' - (p.val - c) = c - c' by ring, abs_sub_comm]; exact b2
    have h4 : |p.val - c'| ≤ r + (2.02 * (R.u * r) + k * (R.u * r)) := by
      have := abs_add_le (p.val - c' - (p.val - c)) (p.val - c)
      rw [sub_add_cancel] at this; linarith
    have h5 := (R.err (p.val - c')).trans (mul_le_mul_of_nonneg_left h4 u0)
    have h6 := abs_add_le (R.rnd (p.val - c') - (p.val - c')) (p.val - c' - (p.val - c))
    rw [sub_add_sub_cancel] at h6
    rw [h1]
    linarith
  -- quotient
  set x : ℝ := (p.val - c) / r with hx
  have hx1 : |x| ≤ 1 := by rw [hx, abs_div, abs_of_pos r0, div_le_one r0]; exact hpc
  refine ⟨?_, hx1⟩
  have xr : x * r = p.val - c := by rw [hx]; field_simp
  have hr995 : 0.995 * r ≤ r' := by
    have := (abs_le.1 b1).1
    have := mul_le_mul_of_nonneg_right hu r0.le
    linarith
  have r'0 : 0 < r' := by linarith
  have b4 : |q' - x * r'| ≤ 5.05 * (R.u * r) + k * (R.u * r) := by
    have h1 := abs_add_le (q' - (p.val - c)) (x * (r - r'))
    rw [show q' - (p.val - c) + x * (r - r') = q' - x * r' by rw [← xr]; ring, abs_mul, abs_sub_comm r r'] at h1
    have h2 : |x| * |r' - r| ≤ 1 * (2.01 * (R.u * r)) := mul_le_mul hx1 b1 (abs_nonneg _) zero_le_one
    linarith
  have b5 : |q' / r' - x| ≤ 5.09 * R.u + 1.01 * (k * R.u) := by
    rw [show q' / r' - x = (q' - x * r') / r' by field_simp, abs_div, abs_of_pos r'0, div_le_iff₀ r'0]
    refine b4.trans ?_
    have ku0 : 0 ≤ k * R.u := mul_nonneg hk0 u0
    have h1 := mul_le_mul_of_nonneg_left hr995 (show 0 ≤ 5.09 * R.u + 1.01 * (k * R.u) by linarith)
    linarith
  have ku0 : 0 ≤ k * R.u := mul_nonneg hk0 u0
  have b6 : |q' / r'| ≤ 1.1 := by
    have := abs_add_le (q' / r' - x) x
    rw [sub_add_cancel] at this
    linarith
  have b7 := (R.err (q' / r')).trans (mul_le_mul_of_nonneg_left b6 u0)
  have b8 := abs_add_le (R.rnd (q' / r') - q' / r') (q' / r' - x)
  rw [sub_add_sub_cancel] at b8
  show |R.rnd (q' / r') - x| ≤ _
  linarith

/-! ### The polynomials at a perturbed point -/

theorem chebRec_pert (hu : R.u ≤ 1 / 100) (y : Fl R) {x ξ : ℝ} (hx : |x| ≤ 1) (hy : |y.val - x| ≤ ξ) (hξ : ξ ≤ 1 / 100) :
    ∀ n : ℕ, 10 * (4 * R.u + 1.15 * ξ) * (n * (n + 1)) ≤ 1 →
      |(chebRec 1 y n).val - chebRec 1 x n| ≤ (4 * R.u + 1.15 * ξ) * (n * (n + 1)) := by
  intro n
  have u0 := Rounding.u_nonneg R
  have ξ0 : 0 ≤ ξ := (abs_nonneg _).trans hy
  have hy1 : |y.val| ≤ 101 / 100 := by
    have := abs_add_le (y.val - x) x
    rw [sub_add_cancel] at this; linarith
  induction n using Nat.strong_induction_on with
  | _ n ih =>
    intro hn
    set e : ℕ → ℝ := fun k => (chebRec 1 y k).val - chebRec 1 x k with he
    set δ : ℕ → ℝ := fun k => match k with
      | 0 => e 1
      | k + 1 => (chebRec 1 y (k + 2)).val - (2 * x * (chebRec 1 y (k + 1)).val - (chebRec 1 y k).val) with hδ
    have h0 : e 0 = 0 := by simp [he, chebRec, Fl.one_val]
    have hr : ∀ k, e (k + 2) = 2 * x * e (k + 1) - e k + δ (k + 1) := by
      intro k
      simp only [he, hδ, chebRec.eq_3 (1 : ℝ)]
      push_cast
      ring
    have small : ∀ k < n, |(chebRec 1 y k).val| ≤ 11 / 10 * 1 := by
      intro k hk'
      have hkn : (k : ℝ) ≤ n := by exact_mod_cast hk'.le
      have k0 : (0 : ℝ) ≤ k := Nat.cast_nonneg k
      have q : (4 * R.u + 1.15 * ξ) * ((k : ℝ) * (k + 1)) ≤ (4 * R.u + 1.15 * ξ) * (n * (n + 1)) := by gcongr
      have c1 := ih k hk' (by linarith)
      have c2 := chebRec_T_le hx k
      have c3 := abs_add_le ((chebRec 1 y k).val - chebRec 1 x k) (chebRec 1 x k)
      rw [sub_add_cancel] at c3
      linarith
    have hD : ∀ k < n, |δ k| ≤ 8 * R.u + 2.3 * ξ := by
      intro k hk'
      match k, hk' with
      | 0, _ =>
        show |(chebRec 1 y 1).val - chebRec 1 x 1| ≤ _
        rw [chebRec, chebRec, Fl.mul_val, Fl.one_val, mul_one, mul_one]
        have a := (R.err y.val).trans (mul_le_mul_of_nonneg_left hy1 u0)
        have b := abs_add_le (R.rnd y.val - y.val) (y.val - x)
        rw [sub_add_sub_cancel] at b
        linarith
      | k + 1, hk' =>
        have s1 := small (k + 1) hk'
        have := step_close hu hy1 s1 (small k (by omega))
        show |(chebRec 1 y (k + 2)).val - _| ≤ _
        rw [chebRec.eq_3 1 y]
        set t1 := (chebRec 1 y (k + 1)).val
        set t0 := (chebRec 1 y k).val
        have a : |2 * y.val * t1 - t0 - (2 * x * t1 - t0)| ≤ 2.3 * ξ := by
          rw [show 2 * y.val * t1 - t0 - (2 * x * t1 - t0) = 2 * ((y.val - x) * t1) by ring, abs_mul, abs_two, abs_mul]
          have := mul_le_mul hy s1 (abs_nonneg _) ξ0
          linarith
        have b := abs_add_le (R.rnd (R.rnd (R.rnd (2 * y.val) * t1) - t0) - (2 * y.val * t1 - t0))
          (2 * y.val * t1 - t0 - (2 * x * t1 - t0))
        rw [sub_add_sub_cancel] at b
        show |R.rnd (R.rnd (R.rnd (2 * y.val) * t1) - t0) - (2 * x * t1 - t0)| ≤ _
        linarith
    have := recursion_le hx h0 rfl hr hD
    refine this.trans (le_of_eq ?_)
    ring

/-! ### Sums -/

theorem sum_close {α : Type} (f : α → Fl R) (g w : α → ℝ) {G0 : ℝ} : ∀ (l : List α) (s' : Fl R) (s W G : ℝ), G0 ≤ G → 1 ≤ G →
    (∀ a ∈ l, |g a| ≤ w a) → (∀ a ∈ l, |(f a).val - g a| ≤ (G0 - 1) * w a) → |s| ≤ W → |s'.val - s| ≤ (G - 1) * W →
    |((l.map f).foldl (· + ·) s').val - (l.map g).foldl (· + ·) s| ≤ (G * (1 + R.u) ^ l.length - 1) * (W + (l.map w).sum)
  | [], s', s, W, G, _, _, _, _, _, h => by simpa using h
  | a :: l, s', s, W, G, hG, hG1, hg, hf, hs, h => by
    have u0 := Rounding.u_nonneg R
    have ga := hg a (by simp)
    have fa := hf a (by simp)
    have w0 : 0 ≤ w a := (abs_nonneg _).trans ga
    have W0 : 0 ≤ W := (abs_nonneg _).trans hs
    have h1 : |s + g a| ≤ W + w a := (abs_add_le _ _).trans (add_le_add hs ga)
    have h2 : |s'.val + (f a).val - (s + g a)| ≤ (G - 1) * (W + w a) := by
      have := abs_add_le (s'.val - s) ((f a).val - g a)
      rw [show s'.val - s + ((f a).val - g a) = s'.val + (f a).val - (s + g a) by ring] at this
      have : (G0 - 1) * w a ≤ (G - 1) * w a := mul_le_mul_of_nonneg_right (by linarith) w0
      linarith
    have h3 : |s'.val + (f a).val| ≤ G * (W + w a) := by
      have := abs_add_le (s'.val + (f a).val - (s + g a)) (s + g a)
      rw [sub_add_cancel] at this; linarith
    have h4 : |(s' + f a).val - (s + g a)| ≤ (G * (1 + R.u) - 1) * (W + w a) := by
      have a1 := (R.err (s'.val + (f a).val)).trans (mul_le_mul_of_nonneg_left h3 u0)
      have a2 := abs_add_le (R.rnd (s'.val + (f a).val) - (s'.val + (f a).val)) (s'.val + (f a).val - (s + g a))
      rw [sub_add_sub_cancel] at a2
      rw [Fl.add_val]; linarith
    have hGu : G ≤ G * (1 + R.u) := by nlinarith
    have := sum_close f g w l (s' + f a) (s + g a) (W + w a) (G * (1 + R.u)) (by linarith) (by linarith)
      (fun b hb => hg b (by simp [hb])) (fun b hb => hf b (by simp [hb])) h1 h4
    simp only [List.map_cons, List.foldl_cons, List.length_cons, List.sum_cons]
    refine this.trans (le_of_eq ?_)
    rw [pow_succ]; ring

theorem basisVal_le (comb : List ℤ) {x : List ℝ} (hx : ∀ t ∈ x, |t| ≤ 1) : |basisVal comb x| ≤ 1 := by
  rw [basisVal, reduceMul_prod]
  induction comb generalizing x with
  | nil => simp
  | cons c l ih =>
    cases x with
    | nil => simp
    | cons t x =>
      rw [List.zipWith_cons_cons, List.prod_cons, abs_mul]
      have := mul_le_mul (chebRec_T_le (hx t (by simp)) (c - 1).toNat) (ih (x := x) fun t ht => hx t (by simp [ht]))
        (abs_nonneg _) zero_le_one
      linarith

/-- Values of basis functions at perturbed points. -/
theorem basisVal_close (hu : R.u ≤ 1 / 100) {ξ : ℝ} (hξ0 : 0 ≤ ξ) (hξ : ξ ≤ 1 / 100) (K : ℕ)
    (hK : 10 * (4 * R.u + 1.15 * ξ) * (K * (K + 1)) ≤ 1) (comb : List ℤ) (hc : ∀ c ∈ comb, (c - 1).toNat ≤ K)
    (d : ℕ) (hl : comb.length = d) (y : ℕ → Fl R) (x : ℕ → ℝ) (hx : ∀ i < d, |x i| ≤ 1 ∧ |(y i).val - x i| ≤ ξ) :
    |(basisVal comb ((List.range d).map y)).val - basisVal comb ((List.range d).map x)|
      ≤ ((1 + (4 * R.u + 1.15 * ξ) * (K * (K + 1))) * (1 + R.u)) ^ d - 1 := by
  have u0 := Rounding.u_nonneg R
  have z1 : List.zipWith (fun a b => chebRec (1 : Fl R) (y b) (a - 1).toNat) comb (List.range d)
      = (comb.zip (List.range d)).map fun q => chebRec (1 : Fl R) (y q.2) (q.1 - 1).toNat := by
    rw [List.map_zip_eq_zipWith]; rfl
  have z2 : List.zipWith (fun a b => chebRec (1 : ℝ) (x b) (a - 1).toNat) comb (List.range d)
      = (comb.zip (List.range d)).map fun q => chebRec (1 : ℝ) (x q.2) (q.1 - 1).toNat := by
    rw [List.map_zip_eq_zipWith]; rfl
  rw [basisVal, basisVal, List.zipWith_map_right, List.zipWith_map_right, z1, z2]
  have hlen : (comb.zip (List.range d)).length = d := by simp [hl]
  have := reduceMul_close (R := R) (fun q : ℤ × ℕ => chebRec (1 : Fl R) (y q.2) (q.1 - 1).toNat)
    (fun q => chebRec (1 : ℝ) (x q.2) (q.1 - 1).toNat) (ε := (4 * R.u + 1.15 * ξ) * (K * (K + 1))) (by positivity)
    (comb.zip (List.range d)) (fun q hq => chebRec_T_le (hx _ (List.mem_range.1 (List.of_mem_zip hq).2)).1 _) (fun q hq => by
      obtain ⟨h1, h2⟩ := List.of_mem_zip hq
      obtain ⟨h3, h4⟩ := hx _ (List.mem_range.1 h2)
      have h5 : ((q.1 - 1).toNat : ℝ) ≤ K := by exact_mod_cast hc _ h1
      have q0 : (0 : ℝ) ≤ ((q.1 - 1).toNat : ℝ) := Nat.cast_nonneg _
      have hq' : (4 * R.u + 1.15 * ξ) * (((q.1 - 1).toNat : ℝ) * ((q.1 - 1).toNat + 1)) ≤ (4 * R.u + 1.15 * ξ) * (K * (K + 1)) := by
        gcongr
      exact (chebRec_pert hu (y q.2) h3 h4 hξ (q.1 - 1).toNat (by linarith)).trans hq')
  rwa [hlen] at this

end Interp.Smolyak
