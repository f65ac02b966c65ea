import Verif.Props.SourceHermite
import Verif.Props.SourceFilter
import Verif.Props.Hermite
import Verif.Props.HermiteError

/-!
# The function that the text of `hermite` computes: C121

The statements mention the text of `hermite.py`, the nodes, the values and the slopes only.
-/

set_option linter.unusedSectionVars false

namespace Interp.Props
open Interp Interp.Spec Interp.Spec.PySrc
open Interp.Hermite (hermite)

section
variable {F : Type} [Field F] [LinearOrder F] [IsStrictOrderedRing F] [FloorRing F] [Interp.Smolyak.Trig F]

/-- Executing the text of `hermite(x0, x, y, yp)`, whatever else is in memory, returns `H x0` for a number `x0`, and for a vector a new array
with `H` of every entry; nothing else is changed. -/
def HermiteText (x y yp : List F) (H : F → F) : Prop :=
  ∃ P, hermiteFile = some P ∧ ∀ (h : Heap F) (rx ry rp : ℕ), HasVec h rx x → HasVec h ry y → HasVec h rp yp → ∀ n ≥ 5,
    (∀ t, callName P n "hermite" [.flt t, .arr rx [none], .arr ry [none], .arr rp [none]] h = .ok (.flt (H t), h)) ∧
    ∀ (rv : ℕ) (v : List F), HasVec h rv v → ∃ A,
      callName P n "hermite" [.arr rv [none], .arr rx [none], .arr ry [none], .arr rp [none]] h = .ok (.arr h.length [none], h ++ [A]) ∧
      A.shape = [v.length] ∧ ∀ i t, v[i]? = some t → A.get [i] = H t

theorem hermiteText_of {x y yp : List F} {H : F → F} (hH : ∀ t, hermite (.scalar t) x y yp none = .ok (.scalar (H t))) : HermiteText x y yp H := by
  obtain ⟨P, hP, H1⟩ := C108_hermite_scalar (K := F) litLaws_field
  obtain ⟨P', hP', H2⟩ := C108_hermite_vector (K := F) litLaws_field
  obtain rfl : P = P' := by rw [hP] at hP'; exact Option.some.inj hP'
  refine ⟨P, hP, fun h rx ry rp hx hy hp n hn => ⟨fun t => ?_, fun rv v hv => ?_⟩⟩
  · rw [H1 n hn t h rx ry rp x y yp hx hy hp, hH]
    rfl
  · obtain ⟨A', e, s, g⟩ := (C43_hermite_vector (x := x) (y := y) (yp := yp) (out := none) v ⟨[v.length], fun idx => H (v.getD (idx.headD 0) 0)⟩).mpr
      ⟨rfl, fun i hi => by rw [hH]; simp [hi]⟩
    refine ⟨A', ?_, s, fun i t hi => ?_⟩
    · rw [H2 n hn h rv rx ry rp v x y yp hv hx hy hp, e]
      rfl
    · obtain ⟨hl, rfl⟩ := List.getElem?_eq_some_iff.mp hi
      rw [g [i] (by rw [s]; simp [InShape, hl])]
      simp [hl]

/-- A vector on the heap. -/
def vecAt (l : List F) : NdArray F := ⟨[l.length], fun idx => l.getD (idx.headD 0) 0⟩

theorem vecAt_isVec (l : List F) : IsVec (vecAt l) l := ⟨rfl, fun i hi => by simp [vecAt, hi]⟩

/-- C121. The text determines the function. -/
theorem C121_unique {x y yp : List F} {H H' : F → F} (h : HermiteText x y yp H) (h' : HermiteText x y yp H') : H = H' := by
  obtain ⟨P, hP, h1⟩ := h
  obtain ⟨P', hP', h2⟩ := h'
  obtain rfl : P = P' := by rw [hP] at hP'; exact Option.some.inj hP'
  funext t
  have e1 := (h1 [vecAt x, vecAt y, vecAt yp] 0 1 2 ⟨_, rfl, vecAt_isVec _⟩ ⟨_, rfl, vecAt_isVec _⟩ ⟨_, rfl, vecAt_isVec _⟩ 5 le_rfl).1 t
  have e2 := (h2 [vecAt x, vecAt y, vecAt yp] 0 1 2 ⟨_, rfl, vecAt_isVec _⟩ ⟨_, rfl, vecAt_isVec _⟩ ⟨_, rfl, vecAt_isVec _⟩ 5 le_rfl).1 t
  rw [e1] at e2
  simpa using e2

theorem hermiteText_exists {x y yp : List F} (h : HermiteData x y yp) :
    ∃ H, HermiteText x y yp H ∧ ∀ t, hermite (.scalar t) x y yp none = .ok (.scalar (H t)) := by
  choose H hH using fun t => hermite_total h t
  have : ∀ t, hermite (.scalar t) x y yp none = .ok (.scalar (H t)) := fun t => by simp only [hermite, hH, ok_bind, pure_eq_ok]
  exact ⟨H, hermiteText_of this, this⟩

/-- C121. For increasing nodes, at least two, and as many values and slopes, the text computes a function of the point. -/
theorem C121_total {x y yp : List F} (h : HermiteData x y yp) : ∃ H, HermiteText x y yp H := by
  obtain ⟨H, h1, -⟩ := hermiteText_exists h
  exact ⟨H, h1⟩

theorem hermiteText_model {x y yp : List F} (h : HermiteData x y yp) {H : F → F} (hH : HermiteText x y yp H) (t : F) :
    hermite (.scalar t) x y yp none = .ok (.scalar (H t)) := by
  obtain ⟨H', h1, h2⟩ := hermiteText_exists h
  rw [C121_unique hH h1]
  exact h2 t

/-- C121. At the nodes the function has the given values; before the first node and after the last one it is constant. -/
theorem C121_values {x y yp : List F} (h : HermiteData x y yp) {H : F → F} (hH : HermiteText x y yp H) :
    (∀ (j : ℕ) (t v : F), x[j]? = some t → y[j]? = some v → H t = v) ∧
    (∀ t v, (∀ s ∈ x, t ≤ s) → y.head? = some v → H t = v) ∧ ∀ t v, (∀ s ∈ x, s ≤ t) → y.getLast? = some v → H t = v := by
  refine ⟨fun j t v ht hv => ?_, fun t v ht hv => ?_, fun t v ht hv => ?_⟩
  · obtain ⟨hj, rfl⟩ := List.getElem?_eq_some_iff.mp ht
    obtain ⟨hj', rfl⟩ := List.getElem?_eq_some_iff.mp hv
    have := C40_hermite_nodes h none j hj
    rw [hermiteText_model h hH] at this
    simpa using this
  · obtain ⟨w, hw, e⟩ := (C40_hermite_outside h none t).1 ht
    rw [hermiteText_model h hH] at e
    rw [hv] at hw
    cases hw
    simpa using e
  · obtain ⟨w, hw, e⟩ := (C40_hermite_outside h none t).2 ht
    rw [hermiteText_model h hH] at e
    rw [hv] at hw
    cases hw
    simpa using e

/-- C121. Cubic polynomials with their slopes are reproduced between the first node and the last one. -/
theorem C121_cubic {x y yp : List F} (h : HermiteData x y yp) {H : F → F} (hH : HermiteText x y yp H) (c0 c1 c2 c3 : F)
    (hy : y = x.map fun s => c0 + c1 * s + c2 * s ^ 2 + c3 * s ^ 3) (hyp : yp = x.map fun s => c1 + 2 * c2 * s + 3 * c3 * s ^ 2)
    (t : F) (h1 : ∃ v ∈ x, v ≤ t) (h2 : ∃ v ∈ x, t ≤ v) : H t = c0 + c1 * t + c2 * t ^ 2 + c3 * t ^ 3 := by
  have := C42_hermite_cubic h none c0 c1 c2 c3 (fun j hj => by simp [hy]) (fun j hj => by simp [hyp]) t h1 h2
  rw [hermiteText_model h hH] at this
  simpa using this

end

section real
variable {x y yp : List ℝ} {H : ℝ → ℝ}

/-- C121. The function has the given slopes at the nodes, one-sided at the ends. -/
theorem C121_slopes (h : HermiteData x y yp) (hH : HermiteText x y yp H) (a b : ℝ) (ha : x.head? = some a) (hb : x.getLast? = some b) (j : ℕ) (t m : ℝ)
    (ht : x[j]? = some t) (hm : yp[j]? = some m) :
    HasDerivWithinAt H m (Set.Icc a b) t ∧ (0 < j → j + 1 < x.length → HasDerivAt H m t) := by
  obtain ⟨H', e, h1, h2, h3⟩ := C41_hermite_slopes h
  obtain rfl : H = H' := by
    funext t
    have := hermiteText_model h hH t
    rw [e] at this
    simpa using this.symm
  obtain ⟨hj, rfl⟩ := List.getElem?_eq_some_iff.mp ht
  obtain ⟨hj', rfl⟩ := List.getElem?_eq_some_iff.mp hm
  have h0 : 0 < x.length := by omega
  obtain rfl : x[0] = a := by
    rw [List.head?_eq_getElem?] at ha
    exact (List.getElem?_eq_some_iff.mp ha).2
  obtain rfl : x[x.length - 1] = b := by
    rw [List.getLast?_eq_getElem?] at hb
    exact (List.getElem?_eq_some_iff.mp hb).2
  refine ⟨?_, fun a b => h1 j b a⟩
  by_cases j0 : j = 0
  · subst j0
    exact h2 h0
  · by_cases j1 : j + 1 < x.length
    · exact (h1 j j1 (by omega)).hasDerivWithinAt
    · obtain rfl : j = x.length - 1 := by omega
      exact h3 h0

/-- C121. The function is continuous, and continuously differentiable between the first node and the last one. -/
theorem C121_smooth (h : HermiteData x y yp) (hH : HermiteText x y yp H) : Continuous H ∧
    ∀ a b, x.head? = some a → x.getLast? = some b → ∃ H', ContinuousOn H' (Set.Icc a b) ∧ ∀ t ∈ Set.Icc a b, HasDerivWithinAt H (H' t) (Set.Icc a b) t := by
  obtain ⟨G, G', e, h1, h2⟩ := C100_hermite_smooth h none
  obtain rfl : H = G := by
    funext t
    have := hermiteText_model h hH t
    rw [e] at this
    simpa using this.symm
  exact ⟨h1, fun a b ha hb => ⟨G', (h2 a b ha hb).cont, (h2 a b ha hb).first⟩⟩

/-- C121. The error for the values and the slopes of a function with a bounded fourth derivative. -/
theorem C121_error (h : HermiteData x y yp) (hH : HermiteText x y yp H) {a b M δ : ℝ} (ha : x.head? = some a)
    (hb : x.getLast? = some b) {f f1 f2 f3 f4 : ℝ → ℝ} (hf : Four a b f f1 f2 f3 f4) (hM : ∀ t ∈ Set.Icc a b, |f4 t| ≤ M)
    (hy : y = x.map f) (hyp : yp = x.map f1) (hδ : ∀ j (hj : j + 1 < x.length), x[j + 1] - x[j] ≤ δ) (t : ℝ) (ht : t ∈ Set.Icc a b) :
    |H t - f t| ≤ M * δ ^ 4 / 384 := by
  obtain ⟨v, e, hv⟩ := C100_hermite_error h none ha hb hf hM hy hyp hδ t ht
  rw [hermiteText_model h hH] at e
  obtain rfl : H t = v := by simpa using e
  exact hv

/-- C121. If the slopes are nonnegative and at most three times the secant slopes of both neighbouring intervals, the function is monotone. -/
theorem C121_monotone (h : HermiteData x y yp) (hH : HermiteText x y yp H) (hp : ∀ m ∈ yp, 0 ≤ m)
    (hm : ∀ j (hj : j + 1 < x.length),
      yp[j]'(by rw [h.tangents]; omega) * (x[j + 1] - x[j]) ≤ 3 * (y[j + 1]'(by rw [h.values]; omega) - y[j]'(by rw [h.values]; omega)) ∧
      yp[j + 1]'(by rw [h.tangents]; omega) * (x[j + 1] - x[j])
        ≤ 3 * (y[j + 1]'(by rw [h.values]; omega) - y[j]'(by rw [h.values]; omega))) : Monotone H := by
  obtain ⟨G, e, hG⟩ := C101_hermite_monotone h none hp hm
  obtain rfl : H = G := by
    funext t
    have := hermiteText_model h hH t
    rw [e] at this
    simpa using this.symm
  exact hG

end real

/-- The hypotheses can be met: three nodes. -/
example : ∃ H, HermiteText [(0 : ℚ), 1, 3] [0, 2, 4] [1, 0, 1] H ∧ H 1 = 2 ∧ H 7 = 4 := by
  have h : HermiteData [(0 : ℚ), 1, 3] [0, 2, 4] [1, 0, 1] := ⟨by simp, by norm_num, rfl, rfl⟩
  obtain ⟨H, hH⟩ := C121_total h
  exact ⟨H, hH, (C121_values h hH).1 1 1 2 rfl rfl, (C121_values h hH).2.2 7 4 (by norm_num) rfl⟩

end Interp.Props
