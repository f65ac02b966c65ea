import Verif.Props.Hermite
import Verif.Proofs.HermiteRounding

/-!
# Hermite splines in rounded arithmetic: C123

The numbers are computed with rounding rule `R` (`Verif/Spec/Rounding.lean`); comparisons are exact.
-/

namespace Interp.Props
open Interp.Hermite Interp.Spec Interp.Codegen

variable {R : Rounding} {x y yp : List (Fl R)}

theorem hermite_fl (hu : R.u ≤ 1 / 1000) (h : HermiteData x y yp) {P M : ℝ} (hP : ∀ v ∈ y, |v.val| ≤ P)
    (hM : ∀ j, j + 1 < x.length →
      |(yp.getD j 0).val| * ((x.getD (j + 1) 0).val - (x.getD j 0).val) ≤ M ∧
      |(yp.getD (j + 1) 0).val| * ((x.getD (j + 1) 0).val - (x.getD j 0).val) ≤ M) (t : Fl R) :
    ∃ (v : Fl R) (w : ℝ), hermiteInterpolation t x y yp = .ok v ∧
      hermiteInterpolation t.val (x.map Fl.val) (y.map Fl.val) (yp.map Fl.val) = .ok w ∧
      |v.val - w| ≤ R.u * (120 * P + 70 * M) := by
  have hx := h.two
  have hyl := h.values
  have hd := data_val h
  have hl : (x.map Fl.val).length = x.length := List.length_map _
  have hu0 := Rounding.u_nonneg R
  have hy : ∀ j < x.length, |(y.getD j 0).val| ≤ P := by
    intro j hj
    have e : y.getD j 0 = y[j]'(by omega) := by
      rw [List.getD_eq_getElem?_getD, List.getElem?_eq_getElem (by omega)]; rfl
    rw [e]; exact hP _ (List.getElem_mem _)
  have P0 : 0 ≤ P := (abs_nonneg _).trans (hy 0 (by omega))
  have M0 : 0 ≤ M := by
    have hlt := x_lt hd (i := 0) (j := 1) (by omega) (by omega)
    rw [← getD_val, ← getD_val] at hlt
    exact (mul_nonneg (abs_nonneg _) (by simpa using hlt.le)).trans (hM 0 (by omega)).1
  have zero : ∀ a : ℝ, |a - a| ≤ R.u * (120 * P + 70 * M) := fun a => by
    rw [sub_self, abs_zero]; positivity
  by_cases h1 : t.val ≤ (x.getD 0 0).val
  · refine ⟨_, _, left_fl h h1, hermite_outside_left hd (by rwa [← getD_val]), ?_⟩
    rw [← getD_val]; exact zero _
  by_cases h2 : (x.getD (x.length - 1) 0).val ≤ t.val
  · refine ⟨_, _, right_fl h h2, hermite_outside_right hd (by rwa [← getD_val, hl]), ?_⟩
    rw [← getD_val, hl]; exact zero _
  -- inside
  have hcell : ∃ j, j + 1 < x.length ∧ (x.getD j 0).val < t.val ∧ t.val ≤ (x.getD (j + 1) 0).val := by
    by_contra hc
    push Not at hc
    have : ∀ j, j < x.length → (x.getD j 0).val < t.val := by
      intro j
      induction j with
      | zero => intro _; exact not_le.1 h1
      | succ j ih => intro hj; exact hc j hj (ih (by omega))
    exact h2 (this (x.length - 1) (by omega)).le
  obtain ⟨j, hj, a1, a2⟩ := hcell
  have hlt := x_lt hd (i := j) (j := j + 1) (by omega) (by omega)
  rw [← getD_val, ← getD_val] at hlt
  obtain ⟨v, hv, hb⟩ := interp_close hu hlt a1.le a2 (hy j (by omega)) (hy (j + 1) hj) (hM j hj).1 (hM j hj).2
  refine ⟨v, _, (inside_fl h hj a1 a2 (not_le.1 h2)).trans hv,
    hermite_open hd (j := j) (by omega) (by rwa [← getD_val]) (by rwa [← getD_val]) (by rw [← getD_val, hl]; exact not_le.1 h2), ?_⟩
  rw [cellVal]
  simp only [← getD_val]
  exact hb

/-- C123: for data with strictly increasing knots, `hermite` computed with rounding returns a number wherever it is
evaluated, and the number differs from the one computed in exact arithmetic by at most `u (120 P + 70 M)`, where `P`
bounds the values and `M` the tangents times the widths of the neighbouring cells.  The bound depends neither on the
number of knots nor on how close they are. -/
theorem C123_hermite (R : Rounding) (hu : R.u ≤ 1 / 1000) {x y yp : List (Fl R)} (h : HermiteData x y yp) {P M : ℝ}
    (hP : ∀ v ∈ y, |v.val| ≤ P)
    (hM : ∀ j (hj : j + 1 < x.length),
      |(yp[j]'(by rw [h.tangents]; omega)).val| * (x[j + 1].val - x[j].val) ≤ M ∧
      |(yp[j + 1]'(by rw [h.tangents]; omega)).val| * (x[j + 1].val - x[j].val) ≤ M)
    (t : Fl R) (out : Option (NdArray (Fl R))) (out' : Option (NdArray ℝ)) :
    ∃ (v : Fl R) (w : ℝ), hermite (.scalar t) x y yp out = .ok (.scalar v) ∧
      hermite (.scalar t.val) (x.map Fl.val) (y.map Fl.val) (yp.map Fl.val) out' = .ok (.scalar w) ∧
      |v.val - w| ≤ R.u * (120 * P + 70 * M) := by
  have hM' : ∀ j, j + 1 < x.length →
      |(yp.getD j 0).val| * ((x.getD (j + 1) 0).val - (x.getD j 0).val) ≤ M ∧
      |(yp.getD (j + 1) 0).val| * ((x.getD (j + 1) 0).val - (x.getD j 0).val) ≤ M := by
    intro j hj
    have ht := h.tangents
    have e : ∀ (l : List (Fl R)) (i : ℕ) (hi : i < l.length), l.getD i 0 = l[i] := fun l i hi => by
      rw [List.getD_eq_getElem?_getD, List.getElem?_eq_getElem hi]; rfl
    rw [e x (j + 1) hj, e x j (by omega), e yp j (by omega), e yp (j + 1) (by omega)]
    exact hM j hj
  obtain ⟨v, w, h1, h2, h3⟩ := hermite_fl hu h hP hM' t
  exact ⟨v, w, by simp only [hermite, h1, ok_bind, pure_eq_ok], by simp only [hermite, h2, ok_bind, pure_eq_ok], h3⟩

/-- C123, the same for the entries of a vector of points. -/
theorem C123_hermite_vector (R : Rounding) (hu : R.u ≤ 1 / 1000) {x y yp : List (Fl R)} (h : HermiteData x y yp)
    {P M : ℝ} (hP : ∀ v ∈ y, |v.val| ≤ P)
    (hM : ∀ j (hj : j + 1 < x.length),
      |(yp[j]'(by rw [h.tangents]; omega)).val| * (x[j + 1].val - x[j].val) ≤ M ∧
      |(yp[j + 1]'(by rw [h.tangents]; omega)).val| * (x[j + 1].val - x[j].val) ≤ M)
    (ts : List (Fl R)) (out : Option (NdArray (Fl R))) (out' : Option (NdArray ℝ)) :
    ∃ (A : NdArray (Fl R)) (B : NdArray ℝ), hermite (.vector ts) x y yp out = .ok (.array A) ∧
      hermite (.vector (ts.map Fl.val)) (x.map Fl.val) (y.map Fl.val) (yp.map Fl.val) out' = .ok (.array B) ∧
      A.shape = [ts.length] ∧ B.shape = [ts.length] ∧
      ∀ i < ts.length, |(A.get [i]).val - B.get [i]| ≤ R.u * (120 * P + 70 * M) := by
  choose V W hV hW hVW using fun t => C123_hermite R hu h hP hM t out out'
  obtain ⟨A, a1, a2⟩ := (C43_hermite_vector (x := x) (y := y) (yp := yp) (out := out) ts
    ⟨[ts.length], fun idx => V (ts.getD (idx.headD 0) 0)⟩).2 ⟨rfl, fun i hi => by
      rw [hV]
      simp [List.getD_eq_getElem?_getD, hi]⟩
  obtain ⟨B, b1, b2⟩ := (C43_hermite_vector (x := x.map Fl.val) (y := y.map Fl.val) (yp := yp.map Fl.val)
    (out := out') (ts.map Fl.val) ⟨[ts.length], fun idx => W (ts.getD (idx.headD 0) 0)⟩).2
      ⟨by simp, fun i hi => by
        have hi' : i < ts.length := by simpa using hi
        rw [List.getElem_map, hW]
        simp [List.getD_eq_getElem?_getD, hi']⟩
  refine ⟨A, B, a1, b1, a2.1, b2.1, fun i hi => ?_⟩
  have hA : A.get [i] = V (ts.getD i 0) := a2.2 [i] (by rw [a2.1]; exact ⟨hi, trivial⟩)
  have hB : B.get [i] = W (ts.getD i 0) := b2.2 [i] (by rw [b2.1]; exact ⟨hi, trivial⟩)
  rw [hA, hB]
  exact hVW _

/-- C123, outside: at and beyond the first and the last knot no rounding is made. -/
theorem C123_outside (R : Rounding) {x y yp : List (Fl R)} (h : HermiteData x y yp) (t : Fl R)
    (out : Option (NdArray (Fl R))) :
    ((∀ v ∈ x, t.val ≤ v.val) → ∃ v, y.head? = some v ∧ hermite (.scalar t) x y yp out = .ok (.scalar v)) ∧
    ((∀ v ∈ x, v.val ≤ t.val) → ∃ v, y.getLast? = some v ∧ hermite (.scalar t) x y yp out = .ok (.scalar v)) := by
  have hx := h.two
  have hy := h.values
  have e : ∀ (l : List (Fl R)) (i : ℕ) (hi : i < l.length), l.getD i 0 = l[i] := fun l i hi => by
    rw [List.getD_eq_getElem?_getD, List.getElem?_eq_getElem hi]; rfl
  refine ⟨fun ht => ?_, fun ht => ?_⟩
  · refine ⟨y[0]'(by omega), by rw [List.head?_eq_getElem?, List.getElem?_eq_getElem (by omega)], ?_⟩
    have := left_fl h (t := t) (by rw [e x 0 (by omega)]; exact ht _ (List.getElem_mem _))
    rw [hermite, this, e y 0 (by omega)]; rfl
  · refine ⟨y[x.length - 1]'(by omega), by
      rw [List.getLast?_eq_getElem?, List.getElem?_eq_getElem (by omega)]; simp only [hy], ?_⟩
    have := right_fl h (t := t) (by rw [e x (x.length - 1) (by omega)]; exact ht _ (List.getElem_mem _))
    rw [hermite, this, e y (x.length - 1) (by omega)]; rfl

/-- Data with two knots, in doubles. -/
example : ∃ (v : Fl (.ofDigits 52)) (w : ℝ),
    hermite (K := Fl (.ofDigits 52)) (.scalar ⟨1 / 3⟩) [⟨0⟩, ⟨1⟩] [⟨2⟩, ⟨3⟩] [⟨1⟩, ⟨1⟩] none = .ok (.scalar v) ∧
    hermite (.scalar (1 / 3)) [0, 1] [2, 3] [1, 1] none = .ok (.scalar w) ∧ |v.val - w| ≤ 2⁻¹ ^ 43 := by
  have hu : (Rounding.ofDigits 52).u = (2 : ℝ) ^ (-((52 : ℤ) + 1)) := rfl
  have h : HermiteData (F := Fl (.ofDigits 52)) [⟨0⟩, ⟨1⟩] [⟨2⟩, ⟨3⟩] [⟨1⟩, ⟨1⟩] :=
    ⟨by simp, by simp [Fl.lt_iff], rfl, rfl⟩
  have hm : ∀ j (hj : j + 1 < [(⟨0⟩ : Fl (.ofDigits 52)), ⟨1⟩].length), j = 0 := fun j hj => by simpa using hj
  obtain ⟨v, w, h1, h2, h3⟩ := C123_hermite (.ofDigits 52) (by rw [hu]; norm_num) h (P := 3) (M := 1)
    (by simp; norm_num) (fun j hj => by obtain rfl := hm j hj; simp) ⟨1 / 3⟩ none none
  refine ⟨v, w, h1, h2, h3.trans ?_⟩
  rw [hu]; norm_num

end Interp.Props
