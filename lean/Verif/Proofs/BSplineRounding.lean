import Verif.Proofs.BSplines
import Verif.Proofs.Rounding
import Verif.Spec.RoundingOrder

/-!
# The recursion of the B-splines in rounded arithmetic

Every step adds two terms that are not negative, so relative errors are kept.
-/

set_option linter.unusedSectionVars false

namespace Interp.BSplines
open Interp.Spec Interp.Codegen

variable {R : Rounding}

/-- A quotient of two differences. -/
theorem ratio_near (hu : R.u ≤ 1 / 100) (a b c d : Fl R) :
    Near (3.1 * R.u) ((a.val - b.val) / (c.val - d.val)) ((a - b) / (c - d)).val := by
  have u0 := Rounding.u_nonneg R
  have h1 : Near R.u (a.val - b.val) (a - b).val := R.err _
  have h2 : Near R.u (c.val - d.val) (c - d).val := R.err _
  have h3 := (h1.div h2 u0 u0 (by linarith)).rnd (R := R)
  refine h3.mono ?_
  have e : (R.u + R.u) / (1 - R.u) ≤ 2.03 * R.u := by
    rw [div_le_iff₀ (by linarith)]; nlinarith
  have e' := mul_le_mul_of_nonneg_right e u0
  nlinarith

/-- One step of the recursion, if the terms are not negative. -/
theorem step_near (hu : R.u ≤ 1 / 100) {E s t v w : ℝ} {s' t' v' w' : Fl R} (hE : 0 ≤ E)
    (hs : Near (3.1 * R.u) s s'.val) (ht : Near (3.1 * R.u) t t'.val) (hv : Near E v v'.val) (hw : Near E w w'.val)
    (h1 : 0 ≤ s * v) (h2 : 0 ≤ t * w) :
    Near ((1 + 6 * R.u) * (1 + E) - 1) (s * v + t * w) (s' * v' + t' * w').val := by
  have u0 := Rounding.u_nonneg R
  have a1 := (hs.mul hv).rnd (R := R)
  have a2 := (ht.mul hw).rnd (R := R)
  set q : ℝ := 3.1 * R.u + E + 3.1 * R.u * E + R.u + (3.1 * R.u + E + 3.1 * R.u * E) * R.u with hq
  have a3 : Near q (s * v + t * w) (R.rnd (s'.val * v'.val) + R.rnd (t'.val * w'.val)) := by
    have b1 : |R.rnd (s'.val * v'.val) - s * v| ≤ q * |s * v| := a1
    have b2 : |R.rnd (t'.val * w'.val) - t * w| ≤ q * |t * w| := a2
    rw [abs_of_nonneg h1] at b1
    rw [abs_of_nonneg h2] at b2
    unfold Near
    rw [abs_of_nonneg (add_nonneg h1 h2)]
    have := abs_add_le (R.rnd (s'.val * v'.val) - s * v) (R.rnd (t'.val * w'.val) - t * w)
    rw [show R.rnd (s'.val * v'.val) - s * v + (R.rnd (t'.val * w'.val) - t * w)
      = R.rnd (s'.val * v'.val) + R.rnd (t'.val * w'.val) - (s * v + t * w) by ring] at this
    linarith
  refine (a3.rnd (R := R)).mono ?_
  have e : q + R.u + q * R.u = (1 + 3.1 * R.u) * (1 + R.u) * (1 + R.u) * (1 + E) - 1 := by rw [hq]; ring
  have e2 : (1 + 3.1 * R.u) * (1 + R.u) * (1 + R.u) ≤ 1 + 6 * R.u := by
    have : R.u * R.u ≤ 1 / 100 * R.u := by gcongr
    have : R.u * R.u * R.u ≤ 1 / 100 * R.u := by nlinarith
    nlinarith
  rw [e]
  have := mul_le_mul_of_nonneg_right e2 (show 0 ≤ 1 + E by linarith)
  linarith

theorem pyIndex_fl {u : List (Fl R)} {j : ℕ} {i : ℤ} (hi : i = j) (h : j < u.length) :
    ∃ w, pyIndex u i = .ok w ∧ w.val = ext (u.map Fl.val) j := by
  subst hi
  refine ⟨u[j], ?_, ?_⟩
  · simp only [pyIndex, wrapIndex_of_lt (show (0 : ℤ) ≤ j by omega) (by exact_mod_cast h)]
    simp [h]
  · rw [ext_of_lt (by simpa using h), List.getElem_map]

theorem B_fl (hu : R.u ≤ 1 / 100) {u : List (Fl R)} (hs : u.Pairwise fun a b => a.val < b.val) (x : Fl R) :
    ∀ (p i : ℕ), i + p + 1 < u.length → ∃ v, B p u (i : ℤ) x = .ok v ∧
      Near ((1 + 6 * R.u) ^ p - 1) (b (ext (u.map Fl.val)) p i x.val) v.val
  | 0, i, h => by
    obtain ⟨a, ha, ha'⟩ := pyIndex_fl (u := u) (i := (i : ℤ)) rfl (show i < u.length by omega)
    obtain ⟨c, hc, hc'⟩ := pyIndex_fl (u := u) (show (i : ℤ) + 1 = ((i + 1 : ℕ) : ℤ) by push_cast; ring)
      (show i + 1 < u.length by omega)
    have key : ∀ q : Fl R, Near ((1 + 6 * R.u) ^ 0 - 1) q.val q.val := fun q => by
      rw [pow_zero, sub_self]; exact Near.refl _
    by_cases h1 : a.val ≤ x.val
    · by_cases h2 : x.val < c.val
      · refine ⟨1, ?_, ?_⟩
        · simp only [B, B0, ha, hc, ok_bind]
          rw [if_pos (show a ≤ x from h1), if_pos (show x < c from h2), pure_eq_ok]
        · rw [b, if_pos (by rw [← ha', ← hc']; exact ⟨h1, h2⟩)]; exact key 1
      · refine ⟨0, ?_, ?_⟩
        · simp only [B, B0, ha, hc, ok_bind]
          rw [if_pos (show a ≤ x from h1), if_neg (show ¬ x < c from h2), pure_eq_ok]
        · rw [b, if_neg (by rw [← ha', ← hc']; exact fun h => h2 h.2)]; exact key 0
    · refine ⟨0, ?_, ?_⟩
      · simp only [B, B0, ha, ok_bind]
        rw [if_neg (show ¬ a ≤ x from h1), pure_eq_ok]
      · rw [b, if_neg (by rw [← ha', ← hc']; exact fun h => h1 h.1)]; exact key 0
  | p + 1, i, h => by
    have u0 := Rounding.u_nonneg R
    have hs' : (u.map Fl.val).Pairwise (· < ·) := by rw [List.pairwise_map]; exact hs
    have hm := ext_strictMono hs'
    obtain ⟨a, ha, ha'⟩ := pyIndex_fl (u := u) (i := (i : ℤ)) rfl (show i < u.length by omega)
    obtain ⟨c, hc, hc'⟩ := pyIndex_fl (u := u)
      (show (i : ℤ) + ((p + 1 : ℕ) : ℤ) = ((i + (p + 1) : ℕ) : ℤ) by push_cast; ring)
      (show i + (p + 1) < u.length by omega)
    obtain ⟨d, hd, hd'⟩ := pyIndex_fl (u := u)
      (show (i : ℤ) + ((p + 1 : ℕ) : ℤ) + 1 = ((i + (p + 1) + 1 : ℕ) : ℤ) by push_cast; ring)
      (show i + (p + 1) + 1 < u.length by omega)
    obtain ⟨e, he, he'⟩ := pyIndex_fl (u := u) (show (i : ℤ) + 1 = ((i + 1 : ℕ) : ℤ) by push_cast; ring)
      (show i + 1 < u.length by omega)
    obtain ⟨v1, hv1, n1⟩ := B_fl hu hs x p i (by omega)
    obtain ⟨v2, hv2, n2⟩ := B_fl hu hs x p (i + 1) (by omega)
    rw [show ((i + 1 : ℕ) : ℤ) = (i : ℤ) + 1 by push_cast; ring] at hv2
    have d1 : (c - a == 0) = false := by
      rw [Fl.beq_false_iff, Fl.sub_val, Fl.zero_val]
      have := hm (show i < i + (p + 1) by omega)
      rw [← ha', ← hc'] at this
      exact rnd_ne_zero (by linarith) (by linarith)
    have d2 : (d - e == 0) = false := by
      rw [Fl.beq_false_iff, Fl.sub_val, Fl.zero_val]
      have := hm (show i + 1 < i + (p + 1) + 1 by omega)
      rw [← hd', ← he'] at this
      exact rnd_ne_zero (by linarith) (by linarith)
    refine ⟨(x - a) / (c - a) * v1 + (d - x) / (d - e) * v2, ?_, ?_⟩
    · simp only [B, ha, hc, hd, he, hv1, hv2, ok_bind, pyDiv, d1, d2, Bool.false_eq_true, if_false, pure_eq_ok]
    · have hE : (0 : ℝ) ≤ (1 + 6 * R.u) ^ p - 1 := by
        have := one_le_pow₀ (n := p) (show (1 : ℝ) ≤ 1 + 6 * R.u by linarith)
        linarith
      have t1 : 0 ≤ (x.val - a.val) / (c.val - a.val) * b (ext (u.map Fl.val)) p i x.val := by
        by_cases h : ext (u.map Fl.val) i ≤ x.val ∧ x.val < ext (u.map Fl.val) (i + p + 1)
        · refine mul_nonneg (div_nonneg (by rw [ha']; linarith [h.1]) ?_) (b_nonneg hm x.val p i)
          rw [ha', hc']; exact sub_nonneg.mpr (hm (by omega)).le
        · rw [b_support hm x.val p i h, mul_zero]
      have t2 : 0 ≤ (d.val - x.val) / (d.val - e.val) * b (ext (u.map Fl.val)) p (i + 1) x.val := by
        by_cases h : ext (u.map Fl.val) (i + 1) ≤ x.val ∧ x.val < ext (u.map Fl.val) (i + 1 + p + 1)
        · refine mul_nonneg (div_nonneg ?_ ?_) (b_nonneg hm x.val p (i + 1))
          · rw [hd', show i + (p + 1) + 1 = i + 1 + p + 1 by omega]; linarith [h.2]
          · rw [hd', he']; exact sub_nonneg.mpr (hm (by omega)).le
        · rw [b_support hm x.val p (i + 1) h, mul_zero]
      have := step_near hu hE (ratio_near hu x a c a) (ratio_near hu d x d e) n1 n2 t1 t2
      rw [b, ← ha', ← hc', ← hd', ← he', pow_succ]
      refine this.mono (le_of_eq ?_)
      ring

end Interp.BSplines
