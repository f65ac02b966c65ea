import Verif.Proofs.FilterRounding
import Verif.Proofs.FilterApi

/-! Rounding errors of the filter along several axes. -/

set_option linter.unusedSectionVars false
set_option linter.unusedSimpArgs false

namespace Interp.Filter
open Interp.Codegen Interp.Ref Interp.Spec Interp.FilterRef

/-- The coefficients of a line are at most five times as large as the data. -/
theorem solve_abs_le {δ : ℝ} (hδ : δ ≠ 0) {m : ℕ} (hm : 2 ≤ m) {d : ℕ → ℝ} {M : ℝ}
    (hM : ∀ i < m, |d i| ≤ M) : ∀ i < m + 2, |solve δ m d i| ≤ 5 * M := by
  have h := solve_sys hδ hm d
  generalize solve δ m d = c at h
  have hM0 : 0 ≤ M := (abs_nonneg _).trans (hM 0 (by omega))
  have hd := diff2_le hm h (E := 4 * M) (by linarith) (fun j hj => by
    have a0 := abs_le.1 (hM j (by omega))
    have a1 := abs_le.1 (hM (j + 1) (by omega))
    have a2 := abs_le.1 (hM (j + 2) (by omega))
    rw [diff2, abs_le]
    constructor <;> linarith [a0.1, a0.2, a1.1, a1.2, a2.1, a2.2])
  have hmid : ∀ j < m, |c (j + 1)| ≤ 3 * M := by
    intro j hj
    have e := h.mid j hj
    have b := abs_le.1 (hd j hj)
    have a0 := abs_le.1 (hM j hj)
    simp only [cubV] at e
    simp only [diff2] at b
    rw [abs_le]
    constructor <;> linarith [a0.1, a0.2, b.1, b.2]
  obtain ⟨e0, e1⟩ := diff2_ends hm h
  intro i hi
  rcases Nat.eq_zero_or_pos i with rfl | hp
  · have b1 := h.mid 0 (by omega)
    simp only [cubV] at b1
    simp only [diff2] at e0
    have a0 := abs_le.1 (hM 0 (by omega))
    have a2 := abs_le.1 (hmid 1 (by omega))
    rw [abs_le]
    constructor <;> linarith [a0.1, a0.2, a2.1, a2.2]
  · by_cases hl : i = m + 1
    · subst hl
      have b1 := h.mid (m - 1) (by omega)
      simp only [cubV] at b1
      simp only [diff2] at e1
      obtain ⟨k, rfl⟩ : ∃ k, m = k + 2 := ⟨m - 2, by omega⟩
      have a0 := abs_le.1 (hM (k + 1) (by omega))
      have a2 := abs_le.1 (hmid k (by omega))
      simp only [show k + 2 - 1 = k + 1 by omega] at b1 e1
      have : |c (k + 1 + 2)| ≤ 5 * M := by
        rw [abs_le]
        constructor <;> linarith [a0.1, a0.2, a2.1, a2.2]
      exact this
    · have := hmid (i - 1) (by omega)
      rw [show i - 1 + 1 = i by omega] at this
      linarith

theorem tfilt_abs_le : ∀ {as : List (ℝ × ℕ)} {es : List ℕ} {D : List ℕ → ℝ} {M : ℝ} {idx : List ℕ},
    Good as → (∀ r, InShape (dsh as ++ es) r → |D r| ≤ M) → InShape (csh as ++ es) idx →
    |tfilt as D idx| ≤ 5 ^ as.length * M
  | [], es, D, M, idx, _, hD, hi => by simpa [tfilt] using hD idx hi
  | a :: as, es, D, M, [], _, _, hi => hi.elim
  | a :: as, es, D, M, i :: r, hg, hD, hi => by
    have ha := hg a (by simp)
    have := tfilt_abs_le (as := as) (es := es) (M := 5 * M)
      (D := fun s => solve a.1 a.2 (fun j => D (j :: s)) i) (idx := r)
      (fun b hb => hg b (by simp [hb]))
      (fun s hs => solve_abs_le ha.1 ha.2 (fun j hj => hD (j :: s) ⟨hj, hs⟩) i hi.1) hi.2
    simp only [tfilt, List.length_cons, pow_succ]
    linarith

variable {R : Rounding}

/-- The same axes with a normalised spacing in exact arithmetic. -/
def unitFl (as : List (Fl R × ℕ)) : List (ℝ × ℕ) := as.map fun a => (1, a.2)

theorem unitFl_good {as : List (Fl R × ℕ)} (h : ∀ a ∈ as, a.1.val ≠ 0 ∧ 2 ≤ a.2) :
    Good (unitFl as) := by
  intro a ha
  obtain ⟨b, hb, rfl⟩ := List.mem_map.1 ha
  exact ⟨one_ne_zero, (h b hb).2⟩

theorem tfilt_close (hu : R.u ≤ 1 / 1000) : ∀ {as : List (Fl R × ℕ)} {es : List ℕ}
    {D : List ℕ → Fl R} {M : ℝ} {idx : List ℕ}, (∀ a ∈ as, a.1.val ≠ 0 ∧ 2 ≤ a.2) →
    (∀ r, InShape (dsh as ++ es) r → |(D r).val| ≤ M) → InShape (csh as ++ es) idx →
    |(tfilt as D idx).val - tfilt (unitFl as) (fun r => (D r).val) idx|
      ≤ ((5 + 540 * R.u) ^ as.length - 5 ^ as.length) * M
  | [], es, D, M, idx, _, hD, hi => by simp [tfilt, unitFl]
  | a :: as, es, D, M, [], _, _, hi => hi.elim
  | a :: as, es, D, M, i :: r, hg, hD, hi => by
    have ha := hg a (by simp)
    have hg' : ∀ b ∈ as, b.1.val ≠ 0 ∧ 2 ≤ b.2 := fun b hb => hg b (by simp [hb])
    set D1 : List ℕ → Fl R := fun s => solve a.1 a.2 (fun j => D (j :: s)) i with hD1
    set E1 : List ℕ → ℝ := fun s => solve (1 : ℝ) a.2 (fun j => (D (j :: s)).val) i with hE1
    have c1 : ∀ s, InShape (dsh as ++ es) s → |(D1 s).val - E1 s| ≤ 540 * R.u * M := fun s hs =>
      solve_close hu ha.1 ha.2 (fun j hj => hD (j :: s) ⟨hj, hs⟩) i hi.1
    have c2 : ∀ s, InShape (dsh as ++ es) s → |E1 s| ≤ 5 * M := fun s hs =>
      solve_abs_le one_ne_zero ha.2 (fun j hj => hD (j :: s) ⟨hj, hs⟩) i hi.1
    have c3 : ∀ s, InShape (dsh as ++ es) s → |(D1 s).val| ≤ (5 + 540 * R.u) * M := fun s hs => by
      have := close_abs (c1 s hs) (c2 s hs)
      linarith
    have ih := tfilt_close hu (as := as) (es := es) (D := D1) (idx := r) hg' c3 hi.2
    have hsh : dsh (unitFl as) = dsh as := by simp [dsh, unitFl, Function.comp_def]
    have hch : csh (unitFl as) = csh as := by simp [csh, unitFl, Function.comp_def]
    have hlen : (unitFl as).length = as.length := by simp [unitFl]
    have hdiff := tfilt_abs_le (as := unitFl as) (es := es)
      (D := fun s => 1 * (D1 s).val + (-1) * E1 s) (M := 540 * R.u * M) (idx := r)
      (unitFl_good hg')
      (fun s hs => by
        rw [hsh] at hs
        have := c1 s hs
        rwa [show 1 * (D1 s).val + -1 * E1 s = (D1 s).val - E1 s by ring])
      (by rw [hch]; exact hi.2)
    rw [tfilt_linear 1 (-1) (fun s => (D1 s).val) E1 (unitFl_good hg') (by rw [hch]; exact hi.2),
      hlen] at hdiff
    have e1 : tfilt (a :: as) D (i :: r) = tfilt as D1 r := rfl
    have e2 : tfilt (unitFl (a :: as)) (fun r => (D r).val) (i :: r) = tfilt (unitFl as) E1 r := rfl
    rw [e1, e2]
    have tri := abs_sub_le (tfilt as D1 r).val (tfilt (unitFl as) (fun s => (D1 s).val) r)
      (tfilt (unitFl as) E1 r)
    have e3 : tfilt (unitFl as) (fun s => (D1 s).val) r - tfilt (unitFl as) E1 r
        = 1 * tfilt (unitFl as) (fun s => (D1 s).val) r + -1 * tfilt (unitFl as) E1 r := by ring
    rw [e3] at tri
    simp only [List.length_cons, pow_succ]
    linarith

/-! ### The filter itself -/

theorem dinv_fl (hu : R.u < 1) : ∀ {G : List (GridDim (Fl R))},
    (∀ g ∈ G, ValidAxis (exactAxis g)) → (∀ g ∈ G, (exactAxis g).gtype = .uniform) →
    ∃ δs : List (Fl R), List.Forall₂ (fun g δ => dinv g = .ok δ) G δs ∧ ∀ δ ∈ δs, δ.val ≠ 0
  | [], _, _ => ⟨[], .nil, by simp⟩
  | g :: G, hv, hun => by
    obtain ⟨δs, h1, h2⟩ := dinv_fl hu (G := G) (fun g h => hv g (by simp [h]))
      (fun g h => hun g (by simp [h]))
    have hg := hun g (by simp)
    have hv := hv g (by simp)
    cases g with
    | array gc => simp [exactAxis, GridDim.gtype] at hg
    | uniform a b n =>
      obtain ⟨hab, hn⟩ : a.val < b.val ∧ 2 ≤ n := hv
      have hn0 : (n : ℝ) ≠ 0 := by
        have : n ≠ 0 := by omega
        exact_mod_cast this
      refine ⟨(b - a) / (n : Fl R) :: δs, .cons ?_ h1, ?_⟩
      · have : ((n : Fl R) == 0) = false := by
          rw [Fl.beq_false_iff, Fl.intCast_val, Fl.zero_val]; exact hn0
        simp [dinv, pyDiv, this]
      · intro δ hδ
        rcases List.mem_cons.mp hδ with rfl | hδ
        · rw [Fl.div_val, Fl.sub_val, Fl.intCast_val]
          exact rnd_ne_zero hu (div_ne_zero (rnd_ne_zero hu (sub_pos.2 hab).ne') hn0)
        · exact h2 δ hδ

theorem stepsUsed_mem_fl {l : List (Fl R)} {δ : Fl R} (h : δ ∈ stepsUsed l) : δ ∈ l := by
  unfold stepsUsed at h
  split at h
  · simp at h; simp [h]
  · exact h

theorem unitFl_zip : ∀ (δs : List (Fl R)) (G : List (GridDim ℝ)), δs.length = G.length →
    unitFl (δs.zip (gridShape G)) = unitAxes G
  | [], [], _ => rfl
  | [], _ :: _, h => by simp at h
  | _ :: _, [], h => by simp at h
  | δ :: δs, g :: G, h => by
    have := unitFl_zip δs G (by simpa using h)
    simp only [unitFl, unitAxes, gridShape] at this ⊢
    simp only [List.map_cons, List.zip_cons_cons, this]

section
variable {G : List (GridDim (Fl R))} {D : NdArray (Fl R)} {vec : Bool} {m : ℕ}

/-- Filtering in place. -/
theorem filter_fl (hu : R.u ≤ 1 / 1000) (h : FilterRequest (G.map exactAxis) (exactArray D) vec m)
    (B : NdArray (Fl R)) (hB : B.shape = coefsShape (G.map exactAxis) vec m) :
    ∃ C, filterInto G D B = .ok C ∧ C.shape = coefsShape (G.map exactAxis) vec m ∧
      (filterCubic G D = filterInto G D (.zeros (coefsShape (G.map exactAxis) vec m))) ∧
      ∀ comp M, InShape (if vec then [m] else []) comp →
        (∀ idx, InShape (gridShape (G.map exactAxis)) idx → |(D.get (idx ++ comp)).val| ≤ M) →
        ∀ idx, InShape ((G.map exactAxis).map fun g => nNodes g + 2) idx →
        |(C.get (idx ++ comp)).val - coefs (G.map exactAxis) (exactArray D).get (idx ++ comp)|
          ≤ ((5 + 540 * R.u) ^ G.length - 5 ^ G.length) * M := by
  have hu1 : R.u < 1 := by linarith
  have hv : ∀ g ∈ G, ValidAxis (exactAxis g) := fun g hg => h.grid.2 _ (List.mem_map_of_mem hg)
  obtain ⟨δs, hd, hne⟩ := dinv_fl hu1 hv (fun g hg => h.uniform _ (List.mem_map_of_mem hg))
  set ms := gridShape (G.map exactAxis) with hms
  have hlms : ms.length = G.length := by simp [hms, gridShape]
  have hlen : δs.length = ms.length := by rw [← hd.length_eq, hlms]
  have hl' : (stepsUsed δs).length = ms.length := by rw [stepsUsed_length, hlen]
  have hgood : ∀ a ∈ (stepsUsed δs).zip ms, a.1.val ≠ 0 ∧ 2 ≤ a.2 := fun a ha =>
    ⟨hne _ (stepsUsed_mem_fl (List.of_mem_zip ha).1),
      gridShape_two_le h.grid.2 _ (List.of_mem_zip ha).2⟩
  have hsol : Solvable ((stepsUsed δs).zip ms) := fun a ha =>
    ⟨(hgood a ha).2, noZeroPivot_fl hu (hgood a ha).1 a.2⟩
  have hsh : coefsShape (G.map exactAxis) vec m = ms.map (· + 2) ++ (if vec then [m] else []) := by
    simp [hms, coefsShape, gridShape, Function.comp_def]
  have h1 : 1 ≤ G.length := by
    have := List.length_pos_iff.mpr h.grid.1
    rw [List.length_map] at this
    exact this
  have h4 : G.length ≤ 4 := by simpa using h.dim
  obtain ⟨C, e, s, f⟩ := filterInto_ok hd hlms h1 h4 hsol h.shape (by rw [hB, hsh])
  refine ⟨C, e, by rw [s, hB], ?_, ?_⟩
  · rw [filterCubic_ok hd hlms h1 h4 hsol h.shape (by cases vec <;> simp), ← hsh]
  intro comp M hcomp hM idx hidx
  have hc2 : csh ((stepsUsed δs).zip ms) = (G.map exactAxis).map fun g => nNodes g + 2 := by
    rw [csh_zip hl']; simp [hms, gridShape, Function.comp_def]
  have hin : InShape C.shape (idx ++ comp) := by
    rw [s, hB]; exact inShape_append hidx hcomp
  rw [f _ (by rw [← s]; exact hin)]
  have hlidx : idx.length = ((stepsUsed δs).zip ms).length := by
    have := inShape_length hidx
    simp only [List.length_map] at this
    rw [List.length_zip, hl', min_self, hlms, this]
  have app : ∀ (as : List (Fl R × ℕ)) (D : List ℕ → Fl R) (r c : List ℕ), r.length = as.length →
      tfilt as D (r ++ c) = tfilt as (fun s => D (s ++ c)) r := by
    intro as
    induction as with
    | nil => intro D r c hr; cases r <;> simp_all [tfilt]
    | cons a as ih =>
      intro D r c hr
      cases r with
      | nil => simp at hr
      | cons i r =>
        simp only [List.cons_append, tfilt]
        exact ih _ r c (by simpa using hr)
  rw [app _ _ _ _ hlidx, coefs, tfilt_append comp _ _ _ (by
    rw [hlidx, List.length_zip, hl', min_self, hlms]; simp [unitAxes])]
  have := tfilt_close hu (as := (stepsUsed δs).zip ms) (es := []) (D := fun s => D.get (s ++ comp))
    (M := M) (idx := idx) hgood (fun r hr => by
      rw [List.append_nil, dsh_zip hl'] at hr
      exact hM r hr) (by rw [List.append_nil, hc2]; exact hidx)
  rw [unitFl_zip _ _ (by rw [hl', hlms]; simp), List.length_zip, hl', min_self, hlms] at this
  exact this

end

end Interp.Filter
