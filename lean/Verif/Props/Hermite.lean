import Verif.Proofs.Hermite
import Verif.Proofs.Loops
import Verif.Proofs.FilterLine
import Mathlib.Analysis.Calculus.Deriv.Add
import Mathlib.Analysis.Calculus.Deriv.Pow
import Mathlib.Analysis.Calculus.Deriv.Comp
import Mathlib.Analysis.Calculus.Deriv.Mul
import Mathlib.Data.Rat.Floor

/-!
# Hermite splines: C40, C41, C42, C43
-/

set_option linter.unusedSectionVars false
set_option linter.unusedSimpArgs false

namespace Interp.Props
open Interp.Hermite Interp.Spec Interp.Codegen
open Interp.Filter (pyFor_range)

section exact
variable {F : Type} [Field F] [LinearOrder F] [IsStrictOrderedRing F] [FloorRing F]
variable {x y yp : List F}

/-- C40, at the nodes. -/
theorem C40_hermite_nodes (h : HermiteData x y yp) (out : Option (NdArray F)) (j : ℕ)
    (hj : j < x.length) :
    hermite (.scalar x[j]) x y yp out = .ok (.scalar (y[j]'(by rw [h.values]; exact hj))) := by
  have := hermite_node h hj
  rw [getD_of_lt x j hj, getD_of_lt y j (by rw [h.values]; exact hj)] at this
  simp only [hermite, this, ok_bind, pure_eq_ok]

/-- C40, outside the grid. -/
theorem C40_hermite_outside (h : HermiteData x y yp) (out : Option (NdArray F)) (t : F) :
    ((∀ v ∈ x, t ≤ v) → ∃ v, y.head? = some v ∧
      hermite (.scalar t) x y yp out = .ok (.scalar v)) ∧
    ((∀ v ∈ x, v ≤ t) → ∃ v, y.getLast? = some v ∧
      hermite (.scalar t) x y yp out = .ok (.scalar v)) := by
  have h2 := h.two
  have hy := h.values
  constructor
  · intro ht
    refine ⟨y.getD 0 0, ?_, ?_⟩
    · cases y with
      | nil => simp at hy; omega
      | cons v l => simp
    · simp only [hermite]
      rw [hermite_outside_left h (by
        rw [getD_of_lt x 0 (by omega)]; exact ht _ (List.getElem_mem _))]
      rfl
  · intro ht
    refine ⟨y.getD (x.length - 1) 0, ?_, ?_⟩
    · rw [List.getLast?_eq_getElem?, hy, getD_of_lt y _ (by omega),
        List.getElem?_eq_getElem (by omega)]
    · simp only [hermite]
      rw [hermite_outside_right h (by
        rw [getD_of_lt x _ (by omega)]; exact ht _ (List.getElem_mem _))]
      rfl

/-- The interpolant is defined everywhere. -/
theorem hermite_total (h : HermiteData x y yp) (t : F) :
    ∃ v, hermiteInterpolation t x y yp = .ok v := by
  by_cases h1 : t ≤ x.getD 0 0
  · exact ⟨_, hermite_outside_left h h1⟩
  · by_cases h2 : x.getD (x.length - 1) 0 ≤ t
    · exact ⟨_, hermite_outside_right h h2⟩
    · obtain ⟨j, hj, h3, h4⟩ := exists_cell h (not_le.mp h1).le (not_le.mp h2).le
      exact ⟨_, hermite_closed h hj h3 h4⟩

/-- C42. -/
theorem C42_hermite_cubic (h : HermiteData x y yp) (out : Option (NdArray F)) (c0 c1 c2 c3 : F)
    (hy : ∀ j (hj : j < x.length), y[j]'(by rw [h.values]; exact hj)
      = c0 + c1 * x[j] + c2 * x[j] ^ 2 + c3 * x[j] ^ 3)
    (hyp : ∀ j (hj : j < x.length), yp[j]'(by rw [h.tangents]; exact hj)
      = c1 + 2 * c2 * x[j] + 3 * c3 * x[j] ^ 2)
    (t : F) (h1 : ∃ v ∈ x, v ≤ t) (h2 : ∃ v ∈ x, t ≤ v) :
    hermite (.scalar t) x y yp out = .ok (.scalar (c0 + c1 * t + c2 * t ^ 2 + c3 * t ^ 3)) := by
  have hlo : x.getD 0 0 ≤ t := by
    obtain ⟨v, hv, hvt⟩ := h1
    obtain ⟨i, hi, rfl⟩ := List.mem_iff_getElem.mp hv
    rw [← getD_of_lt x i hi] at hvt
    exact (x_le h (Nat.zero_le i) hi).trans hvt
  have hhi : t ≤ x.getD (x.length - 1) 0 := by
    obtain ⟨v, hv, hvt⟩ := h2
    obtain ⟨i, hi, rfl⟩ := List.mem_iff_getElem.mp hv
    rw [← getD_of_lt x i hi] at hvt
    exact hvt.trans (x_le h (by omega) (by omega))
  obtain ⟨j, hj, h3, h4⟩ := exists_cell h hlo hhi
  have e1 : ∀ i, i < x.length → y.getD i 0 = cubic c0 c1 c2 c3 (x.getD i 0) := by
    intro i hi
    rw [getD_of_lt y i (by rw [h.values]; exact hi), getD_of_lt x i hi, hy i hi]; rfl
  have e2 : ∀ i, i < x.length → yp.getD i 0 = cubic' c1 c2 c3 (x.getD i 0) := by
    intro i hi
    rw [getD_of_lt yp i (by rw [h.tangents]; exact hi), getD_of_lt x i hi, hyp i hi]; rfl
  simp only [hermite]
  rw [hermite_closed h hj h3 h4, cellVal, e1 j (by omega), e1 (j + 1) hj, e2 j (by omega),
    e2 (j + 1) hj, herm_cubic (x_lt h (by omega) hj)]
  rfl

end exact

/-! ### Slopes -/

theorem hasDerivAt_herm (xk xkn pk pkn mk mkn t : ℝ) :
    HasDerivAt (herm xk xkn pk pkn mk mkn)
      (let s := (t - xk) / (xkn - xk)
       (pk * (6 * s ^ 2 - 6 * s) + mk * (xkn - xk) * (3 * s ^ 2 - 4 * s + 1)
         + pkn * (-6 * s ^ 2 + 6 * s) + mkn * (xkn - xk) * (3 * s ^ 2 - 2 * s)) / (xkn - xk)) t := by
  have hs : HasDerivAt (fun t : ℝ => (t - xk) / (xkn - xk)) (1 / (xkn - xk)) t :=
    ((hasDerivAt_id t).sub_const xk).div_const (xkn - xk)
  have h3 := hs.pow 3
  have h2 := hs.pow 2
  have := (((((h3.const_mul 2).sub (h2.const_mul 3)).add_const 1).const_mul pk).add
    (((h3.sub (h2.const_mul 2)).add hs).const_mul (mk * (xkn - xk)))).add
    (((h3.const_mul (-2)).add (h2.const_mul 3)).const_mul pkn) |>.add
    ((h3.sub h2).const_mul (mkn * (xkn - xk)))
  refine this.congr_deriv ?_
  simp only [Nat.cast_ofNat, Nat.reduceSub, pow_one]
  ring

theorem hasDerivAt_herm_left {xk xkn pk pkn mk mkn : ℝ} (h : xk < xkn) :
    HasDerivAt (herm xk xkn pk pkn mk mkn) mk xk := by
  have h0 : xkn - xk ≠ 0 := sub_ne_zero.mpr (ne_of_gt h)
  refine (hasDerivAt_herm xk xkn pk pkn mk mkn xk).congr_deriv ?_
  simp [h0]

theorem hasDerivAt_herm_right {xk xkn pk pkn mk mkn : ℝ} (h : xk < xkn) :
    HasDerivAt (herm xk xkn pk pkn mk mkn) mkn xkn := by
  have h0 : xkn - xk ≠ 0 := sub_ne_zero.mpr (ne_of_gt h)
  refine (hasDerivAt_herm xk xkn pk pkn mk mkn xkn).congr_deriv ?_
  simp only [div_self h0]
  field_simp
  ring

/-- C41. The interpolant `H` has the prescribed derivative at interior nodes, and one-sided
derivatives from inside at the two end nodes. -/
theorem C41_hermite_slopes {x y yp : List ℝ} (h : HermiteData x y yp) :
    ∃ H : ℝ → ℝ, (∀ t out, hermite (.scalar t) x y yp out = .ok (.scalar (H t))) ∧
      (∀ j (hj : j + 1 < x.length), 0 < j →
        HasDerivAt H (yp[j]'(by rw [h.tangents]; omega)) x[j]) ∧
      (∀ h0 : 0 < x.length, HasDerivWithinAt H (yp[0]'(by rw [h.tangents]; exact h0))
        (Set.Icc x[0] x[x.length - 1]) x[0]) ∧
      (∀ h0 : 0 < x.length, HasDerivWithinAt H (yp[x.length - 1]'(by rw [h.tangents]; omega))
        (Set.Icc x[0] x[x.length - 1]) x[x.length - 1]) := by
  choose H hH using fun t => hermite_total h t
  have hcell : ∀ j, j + 1 < x.length → Set.EqOn H (cellVal x y yp j)
      (Set.Icc (x.getD j 0) (x.getD (j + 1) 0)) := by
    intro j hj t ht
    have := hermite_closed h hj ht.1 ht.2
    rw [hH] at this
    injection this
  have hright : ∀ j, j + 1 < x.length → HasDerivWithinAt H (yp.getD j 0)
      (Set.Icc (x.getD j 0) (x.getD (j + 1) 0)) (x.getD j 0) := by
    intro j hj
    have hlt := x_lt h (i := j) (j := j + 1) (by omega) hj
    exact (hasDerivAt_herm_left hlt).hasDerivWithinAt.congr (fun t ht => hcell j hj ht)
      (hcell j hj ⟨le_rfl, hlt.le⟩)
  have hleft : ∀ j, j + 1 < x.length → HasDerivWithinAt H (yp.getD (j + 1) 0)
      (Set.Icc (x.getD j 0) (x.getD (j + 1) 0)) (x.getD (j + 1) 0) := by
    intro j hj
    have hlt := x_lt h (i := j) (j := j + 1) (by omega) hj
    exact (hasDerivAt_herm_right hlt).hasDerivWithinAt.congr (fun t ht => hcell j hj ht)
      (hcell j hj ⟨hlt.le, le_rfl⟩)
  have h2 := h.two
  refine ⟨H, fun t out => by simp only [hermite, hH, ok_bind, pure_eq_ok], ?_, ?_, ?_⟩
  · intro j hj hp
    obtain ⟨i, rfl⟩ : ∃ i, j = i + 1 := ⟨j - 1, by omega⟩
    have hlt1 := x_lt h (i := i) (j := i + 1) (by omega) (by omega)
    have hlt2 := x_lt h (i := i + 1) (j := i + 2) (by omega) (by omega)
    have := (hleft i (by omega)).union (hright (i + 1) hj)
    rw [Set.Icc_union_Icc_eq_Icc hlt1.le hlt2.le] at this
    rw [← getD_of_lt x (i + 1) (by omega), ← getD_of_lt yp (i + 1) (by rw [h.tangents]; omega)]
    exact this.hasDerivAt (Icc_mem_nhds hlt1 hlt2)
  · intro h0
    have := hright 0 (by omega)
    have hlt := x_lt h (i := 0) (j := 1) (by omega) (by omega)
    rw [← getD_of_lt x 0 h0, ← getD_of_lt yp 0 (by rw [h.tangents]; exact h0)]
    refine this.mono_of_mem_nhdsWithin ?_
    exact Filter.mem_of_superset (Icc_mem_nhdsGE hlt |> fun hh => nhdsWithin_mono _ (fun t ht => ht.1) hh)
      (fun t ht => ht)
  · intro h0
    have := hleft (x.length - 2) (by omega)
    rw [show x.length - 2 + 1 = x.length - 1 by omega] at this
    have hlt := x_lt h (i := x.length - 2) (j := x.length - 1) (by omega) (by omega)
    rw [← getD_of_lt x (x.length - 1) (by omega),
      ← getD_of_lt yp (x.length - 1) (by rw [h.tangents]; omega)]
    refine this.mono_of_mem_nhdsWithin ?_
    exact nhdsWithin_mono _ (fun t ht => ht.2) (Icc_mem_nhdsLE hlt)

/-! ### Calls on arrays -/

section anyArith
variable {K : Type} [Add K] [Sub K] [Mul K] [Div K] [Neg K] [Zero K] [One K] [NatCast K]
  [LT K] [DecidableLT K] [LE K] [DecidableLE K] [BEq K]
variable {x y yp : List K} {out : Option (NdArray K)}

/-- C43, in any arithmetic: a call on a vector succeeds iff the calls on its entries do, and then
entry `i` of the result is the result for entry `i`. -/
theorem C43_hermite_vector (vs : List K) (A : NdArray K) :
    (∃ A', hermite (.vector vs) x y yp out = .ok (.array A') ∧ A'.Same A) ↔
    A.shape = [vs.length] ∧ ∀ i (hi : i < vs.length),
      hermite (.scalar vs[i]) x y yp out = .ok (.scalar (A.get [i])) := by
  -- if every entry succeeds
  have key : ∀ r : ℕ → K, (∀ i (hi : i < vs.length),
      hermiteInterpolation vs[i] x y yp = .ok (r i)) →
      ∃ A', hermiteInterpolationVect vs x y yp = .ok A' ∧ A'.shape = [vs.length] ∧
        ∀ i < vs.length, A'.get [i] = r i := by
    intro r hr
    obtain ⟨A', e, s, f⟩ := pyFor_range vs.length (fun i (out : NdArray K) => do
      let x0 ← listRead vs (i : ℤ)
      let v ← hermiteInterpolation x0 x y yp
      out.write [(i : ℤ)] v)
      (fun k A' => A'.shape = [vs.length] ∧ ∀ i < k, A'.get [i] = r i)
      (.zeros [vs.length]) ⟨rfl, fun i hi => by omega⟩ (by
        intro k hk A1 ⟨s1, f1⟩
        have e1 : listRead vs (k : ℤ) = .ok vs[k] := by
          have := listRead_of_lt vs (k : ℤ) (by omega) (by omega)
          simpa using this
        have e2 : A1.write [(k : ℤ)] (r k)
            = .ok { A1 with get := fun j => if j = [k] then r k else A1.get j } :=
          A1.write_ok [k] (r k) (by rw [s1]; exact ⟨hk, trivial⟩)
        simp only [e1, ok_bind, hr k hk, e2]
        refine ⟨_, rfl, s1, fun i hi => ?_⟩
        by_cases hik : i = k
        · subst hik; simp
        · simp only [List.cons.injEq, hik, and_true, if_false]
          exact f1 i (by omega))
    exact ⟨A', e, s, f⟩
  constructor
  · rintro ⟨A', h, hsame⟩
    simp only [hermite] at h
    obtain ⟨A1, h1, h2⟩ := bind_ok_elim h
    simp only [pure_eq_ok, Except.ok.injEq, Ret.array.injEq] at h2
    subst h2
    have hr : ∀ i : ℕ, ∃ v, ∀ (hi : i < vs.length), hermiteInterpolation vs[i] x y yp = .ok v := by
      intro i
      by_cases hi : i < vs.length
      · obtain ⟨s1, s2, h3⟩ := pyFor_ok_elim _ _ h1 i (List.mem_range.mpr hi)
        have e1 : listRead vs (i : ℤ) = .ok vs[i] := by
          have := listRead_of_lt vs (i : ℤ) (by omega) (by omega)
          simpa using this
        rw [e1, ok_bind] at h3
        obtain ⟨v, h4, -⟩ := bind_ok_elim h3
        exact ⟨v, fun _ => h4⟩
      · exact ⟨0, fun h => absurd h hi⟩
    choose r hr using hr
    obtain ⟨A2, e, s, f⟩ := key r hr
    rw [e] at h1
    injection h1 with h1
    subst h1
    refine ⟨by rw [← hsame.1, s], fun i hi => ?_⟩
    simp only [hermite, hr i hi, ok_bind, pure_eq_ok]
    rw [← f i hi, hsame.2 [i] (by rw [s]; exact ⟨hi, trivial⟩)]
  · rintro ⟨hs, hv⟩
    have hr : ∀ i (hi : i < vs.length), hermiteInterpolation vs[i] x y yp = .ok (A.get [i]) := by
      intro i hi
      have := hv i hi
      simp only [hermite] at this
      obtain ⟨v, h1, h2⟩ := bind_ok_elim this
      simp only [pure_eq_ok, Except.ok.injEq, Ret.scalar.injEq] at h2
      rw [h1, h2]
    obtain ⟨A', e, s, f⟩ := key (fun i => A.get [i]) hr
    refine ⟨A', by simp only [hermite, e, ok_bind, pure_eq_ok], by rw [s, hs], ?_⟩
    intro idx hi
    rw [s] at hi
    obtain ⟨i, r, rfl, h1, h2⟩ := inShape_cons_iff.1 hi
    rw [inShape_nil_iff] at h2
    subst h2
    exact f i h1

/-- C43: the call on a matrix with at least one column is the call on its first column. -/
theorem C43_hermite_matrix (c : ℕ) (rows : List (K × List K)) :
    hermite (.matrix (c + 1) (rows.map fun r => r.1 :: r.2)) x y yp out
      = hermite (.vector (rows.map Prod.fst)) x y yp out := by
  have : (rows.map fun r => r.1 :: r.2).mapM (fun r => listRead r 0)
      = .ok (rows.map Prod.fst) := by
    induction rows with
    | nil => rfl
    | cons r rows ih =>
      rw [List.map_cons, List.mapM_cons, ih]
      have e : listRead (r.1 :: r.2) 0 = .ok r.1 := by
        rw [listRead_of_lt _ 0 le_rfl (by simp)]; simp
      simp [e]
  simp only [hermite, this, ok_bind]

end anyArith

/-! ### The hypotheses are satisfiable -/

example : HermiteData (F := ℚ) [0, 1, 3] [5, -1, 2] [1, 0, 7] :=
  ⟨by simp, by simp, rfl, rfl⟩

/-- The value at the middle node is `-1`. -/
example := C40_hermite_nodes (F := ℚ) (x := [0, 1, 3]) (y := [5, -1, 2]) (yp := [1, 0, 7])
  ⟨by simp, by simp, rfl, rfl⟩ none 1 (by simp)

end Interp.Props
