import Verif.Proofs.CompleteRounding

/-!
# Complete polynomials in rounded arithmetic: C122

The numbers are computed with rounding rule `R` (`Verif/Spec/Rounding.lean`): every product is the exact product
times `1 + e` with `|e| ≤ u`.  In the derivative the power `z[der] ** (c - 1)` is any function which makes at most
one such error for each factor.
-/

set_option linter.unusedSectionVars false

namespace Interp.Props
open Interp.Spec Interp.CompletePoly Interp.Codegen

variable {R : Rounding}

/-- The power by repeated multiplication. -/
noncomputable def flPow (x : Fl R) : ℕ → Fl R
  | 0 => 1
  | 1 => x
  | n + 2 => flPow x (n + 1) * x

theorem flPow_near (x : Fl R) : ∀ n : ℕ, Near (grow R n) (x.val ^ n) (flPow x n).val
  | 0 => by rw [pow_zero]; exact near_exact (1 : Fl R)
  | 1 => by rw [pow_one]; exact (near_exact x).mono (grow_mono (Nat.zero_le _))
  | n + 2 => by
    have := near_mul (flPow_near x (n + 1)) (near_exact x)
    rw [pow_succ _ (n + 1)]
    exact this

theorem entry_near {n d : ℕ} (z : ℕ → Fl R) {r : ℕ} {e : List ℕ} (he : (expos n d)[r]? = some e) :
    ∃ l, (rows n d)[r]? = some l ∧
      |(mono z l).val - monomialAt e ((List.range n).map fun i => (z i).val)|
        ≤ ((1 + R.u) ^ (e.sum - 1) - 1) * |monomialAt e ((List.range n).map fun i => (z i).val)| := by
  rw [expos, List.getElem?_map, Option.map_eq_some_iff] at he
  obtain ⟨l, hl, rfl⟩ := he
  have hm := ((mem_rows n d l).mp (List.mem_of_getElem? hl)).2.2
  refine ⟨l, hl, ?_⟩
  rw [← mono_expo n _ l hm, sum_expo n l hm]
  exact near_mono z l

/-- C122: in rounded arithmetic every entry of `complete_polynomial(z, d)` is the monomial up to a relative error of
`(1 + u)^(k - 1) - 1`, where `k` is the degree of the monomial: the constant and the variables themselves are exact,
and a monomial which is zero is computed as zero. The list `E` contains every exponent of total degree at most `d`
exactly once. -/
theorem C122_complete_polynomial (R : Rounding) (n d : ℕ) (hd : d ≤ 5) : ∃ E : List (List ℕ),
    E.Nodup ∧ (∀ e, e ∈ E ↔ e.length = n ∧ e.sum ≤ d) ∧
    ∀ z : NdArray (Fl R),
      (z.shape = [n] → ∃ A, completePolynomial z d = .ok A ∧ A.shape = [E.length] ∧
        ∀ (r : ℕ) e, E[r]? = some e →
          |(A.get [r]).val - monomialAt e (vecOf (exactArray z))|
            ≤ ((1 + R.u) ^ (e.sum - 1) - 1) * |monomialAt e (vecOf (exactArray z))|) ∧
      ∀ nobs, z.shape = [n, nobs] → ∃ A, completePolynomial z d = .ok A ∧ A.shape = [E.length, nobs] ∧
        ∀ (r : ℕ) e, E[r]? = some e → ∀ k < nobs,
          |(A.get [r, k]).val - monomialAt e (colOf (exactArray z) k)|
            ≤ ((1 + R.u) ^ (e.sum - 1) - 1) * |monomialAt e (colOf (exactArray z) k)| := by
  haveI : Pow (Fl R) ℕ := ⟨fun x n => flPow x n⟩
  refine ⟨expos n d, nodup_expos n d, mem_expos n d, fun z => ⟨fun hz => ?_, fun nobs hz => ?_⟩⟩
  · obtain ⟨A, h1, h2⟩ := cp_vec z n d hz hd
    refine ⟨A, h1, by rw [h2.1, length_expos], fun r e he => ?_⟩
    obtain ⟨l, hl, h⟩ := entry_near (fun i => z.get [i]) he
    rw [h2.2 r l hl [] trivial]
    have e1 : vecOf (exactArray z) = (List.range n).map fun i => (z.get [i]).val := by
      rw [vecOf, exactArray, hz]; rfl
    rw [e1]; exact h
  · obtain ⟨A, h1, h2⟩ := cp_mat z n nobs d hz hd
    refine ⟨A, h1, by rw [h2.1, length_expos], fun r e he k hk => ?_⟩
    obtain ⟨l, hl, h⟩ := entry_near (fun i => z.get [i, k]) he
    rw [h2.2 r l hl [k] ⟨hk, trivial⟩]
    have e1 : colOf (exactArray z) k = (List.range n).map fun i => (z.get [i, k]).val := by
      rw [colOf, exactArray, hz]; rfl
    rw [e1]; exact h

/-- C122 for doubles: every entry has a relative error below `2^-50`. -/
theorem C122_doubles (n d : ℕ) (hd : d ≤ 5) : ∃ E : List (List ℕ),
    E.Nodup ∧ (∀ e, e ∈ E ↔ e.length = n ∧ e.sum ≤ d) ∧
    ∀ z : NdArray (Fl (.ofDigits 52)),
      (z.shape = [n] → ∃ A, completePolynomial z d = .ok A ∧ A.shape = [E.length] ∧
        ∀ (r : ℕ) e, E[r]? = some e →
          |(A.get [r]).val - monomialAt e (vecOf (exactArray z))| ≤ 2⁻¹ ^ 50 * |monomialAt e (vecOf (exactArray z))|) ∧
      ∀ nobs, z.shape = [n, nobs] → ∃ A, completePolynomial z d = .ok A ∧ A.shape = [E.length, nobs] ∧
        ∀ (r : ℕ) e, E[r]? = some e → ∀ k < nobs,
          |(A.get [r, k]).val - monomialAt e (colOf (exactArray z) k)|
            ≤ 2⁻¹ ^ 50 * |monomialAt e (colOf (exactArray z) k)| := by
  obtain ⟨E, h1, h2, h3⟩ := C122_complete_polynomial (.ofDigits 52) n d hd
  have hb : ∀ e ∈ E, (1 + (Rounding.ofDigits 52).u) ^ (e.sum - 1) - 1 ≤ (2⁻¹ : ℝ) ^ 50 := by
    intro e he
    have hs : e.sum - 1 ≤ 4 := by have := ((h2 e).1 he).2; omega
    refine (grow_mono hs).trans ?_
    have : (Rounding.ofDigits 52).u = (2 : ℝ) ^ (-((52 : ℤ) + 1)) := rfl
    rw [grow, this]
    norm_num
  refine ⟨E, h1, h2, fun z => ⟨fun hz => ?_, fun nobs hz => ?_⟩⟩
  · obtain ⟨A, a1, a2, a3⟩ := (h3 z).1 hz
    refine ⟨A, a1, a2, fun r e he => (a3 r e he).trans ?_⟩
    exact mul_le_mul_of_nonneg_right (hb e (List.mem_of_getElem? he)) (abs_nonneg _)
  · obtain ⟨A, a1, a2, a3⟩ := (h3 z).2 nobs hz
    refine ⟨A, a1, a2, fun r e he k hk => (a3 r e he k hk).trans ?_⟩
    exact mul_le_mul_of_nonneg_right (hb e (List.mem_of_getElem? he)) (abs_nonneg _)

theorem rows_length_le {n d r : ℕ} {l : List ℕ} (h : (rows n d)[r]? = some l) : l.length ≤ d :=
  ((mem_rows n d l).mp (List.mem_of_getElem? h)).1

/-- C122, derivative: every entry of `complete_polynomial_der(z, d, der)` is the entry computed in exact arithmetic
(the partial derivative of the monomial by C49) up to a relative error of `(1 + u)^(2 d) - 1`. -/
theorem C122_derivative (R : Rounding) [Pow (Fl R) ℕ]
    (hpow : ∀ (x : Fl R) (n : ℕ), |(x ^ n).val - x.val ^ n| ≤ ((1 + R.u) ^ n - 1) * |x.val ^ n|)
    (n d der : ℕ) (hd : d ≤ 5) (hder : der < n) (z : NdArray (Fl R)) :
    (z.shape = [n] → ∃ A B, completePolynomialDer z d der = .ok A ∧
      completePolynomialDer (exactArray z) d der = .ok B ∧ ∃ N, A.shape = [N] ∧ B.shape = [N] ∧
      ∀ r < N, |(A.get [r]).val - B.get [r]| ≤ ((1 + R.u) ^ (2 * d) - 1) * |B.get [r]|) ∧
    ∀ nobs, z.shape = [n, nobs] → ∃ A B, completePolynomialDer z d der = .ok A ∧
      completePolynomialDer (exactArray z) d der = .ok B ∧ ∃ N, A.shape = [N, nobs] ∧ B.shape = [N, nobs] ∧
      ∀ r < N, ∀ k < nobs, |(A.get [r, k]).val - B.get [r, k]| ≤ ((1 + R.u) ^ (2 * d) - 1) * |B.get [r, k]| := by
  refine ⟨fun hz => ?_, fun nobs hz => ?_⟩
  · obtain ⟨A, a1, a2⟩ := cpd_vec z n d der hz hd hder
    obtain ⟨B, b1, b2⟩ := cpd_vec (exactArray z) n d der hz hd hder
    refine ⟨A, B, a1, b1, _, a2.1, b2.1, fun r hr => ?_⟩
    have hl := List.getElem?_eq_getElem hr
    rw [a2.2 r _ hl [] trivial, b2.2 r _ hl [] trivial]
    exact (near_dmono hpow (fun i => z.get [i]) der _).mono
      (grow_mono (by have := rows_length_le hl; omega))
  · obtain ⟨A, a1, a2⟩ := cpd_mat z n nobs d der hz hd hder
    obtain ⟨B, b1, b2⟩ := cpd_mat (exactArray z) n nobs d der hz hd hder
    refine ⟨A, B, a1, b1, _, a2.1, b2.1, fun r hr k hk => ?_⟩
    have hl := List.getElem?_eq_getElem hr
    rw [a2.2 r _ hl [k] ⟨hk, trivial⟩, b2.2 r _ hl [k] ⟨hk, trivial⟩]
    exact (near_dmono hpow (fun i => z.get [i, k]) der _).mono
      (grow_mono (by have := rows_length_le hl; omega))

/-- The hypothesis on the power holds for repeated multiplication. -/
example (R : Rounding) : letI : Pow (Fl R) ℕ := ⟨fun x n => flPow x n⟩
    ∀ (x : Fl R) (n : ℕ), |(x ^ n).val - x.val ^ n| ≤ ((1 + R.u) ^ n - 1) * |x.val ^ n| :=
  fun x n => flPow_near x n

/-- Two variables and degree 2, in doubles. -/
example : ∃ A, completePolynomial (K := Fl (.ofDigits 52)) ⟨[2], fun _ => 1⟩ (2 : ℕ) = .ok A := by
  obtain ⟨E, -, -, h⟩ := C122_doubles 2 2 (by norm_num)
  obtain ⟨A, h1, -⟩ := (h ⟨[2], fun _ => 1⟩).1 rfl
  exact ⟨A, h1⟩

end Interp.Props
