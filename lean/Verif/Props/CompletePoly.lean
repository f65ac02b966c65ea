import Verif.Proofs.CompletePoly
import Verif.Spec.Monomials
import Mathlib.Algebra.BigOperators.Group.List.Lemmas
import Mathlib.Algebra.BigOperators.Ring.List
import Mathlib.Analysis.Calculus.Deriv.Pow
import Mathlib.Analysis.Calculus.Deriv.Mul
import Mathlib.Data.Real.Basic

/-!
# Complete polynomials: C47, C48, C49, C50, C51

C47, C50 and C51 hold in any arithmetic, C48 in any commutative semiring, C49 over the reals.
-/

set_option linter.unusedSectionVars false
set_option linter.unusedSimpArgs false

namespace Interp.Props
open Interp.Spec Interp.CompletePoly

/-! ### C47 -/

/-- C47: `n_complete(n, d)` is the binomial coefficient. -/
theorem C47_n_complete (n d : ℕ) : nComplete n d = ((n + d).choose d : ℤ) := nComplete_eq n d

example : nComplete 3 2 = 10 := by
  have := C47_n_complete 3 2
  simpa [Nat.choose] using this

section any
variable {K : Type} [Mul K] [Zero K] [One K] [NatCast K] [Pow K ℕ]

theorem cp_vec (z : NdArray K) (n d : ℕ) (hz : z.shape = [n]) (hd : d ≤ 5) :
    ∃ A, completePolynomial z d = .ok A ∧ Filled n d [] (fun _ l => mono (fun i => z.get [i]) l) A := by
  obtain ⟨A, h1, h2⟩ := implVec_ok z (NdArray.zeros [(nComplete n d).toNat]) n d hz hd
    (by rw [nComplete_rows]; rfl)
  refine ⟨A, ?_, h2⟩
  rw [← h1]
  have a1 : ¬ ¬ ((d : ℤ) ≥ 0) := by omega
  have a2 : ¬ ((d : ℤ) > 5) := by omega
  simp only [completePolynomial, a1, a2, if_false, hz]

theorem cp_mat (z : NdArray K) (n nobs d : ℕ) (hz : z.shape = [n, nobs]) (hd : d ≤ 5) :
    ∃ A, completePolynomial z d = .ok A ∧
      Filled n d [nobs] (fun tail l => mono (fun i => z.get (i :: tail)) l) A := by
  obtain ⟨A, h1, h2⟩ := implMat_ok z (NdArray.zeros [(nComplete n d).toNat, nobs]) n nobs d hz hd
    (by rw [nComplete_rows]; rfl)
  refine ⟨A, ?_, h2⟩
  rw [← h1]
  have a1 : ¬ ¬ ((d : ℤ) ≥ 0) := by omega
  have a2 : ¬ ((d : ℤ) > 5) := by omega
  simp only [completePolynomial, a1, a2, if_false, hz]

theorem cpd_vec (z : NdArray K) (n d der : ℕ) (hz : z.shape = [n]) (hd : d ≤ 5) (hder : der < n) :
    ∃ A, completePolynomialDer z d der = .ok A ∧
      Filled n d [] (fun _ l => dmono (fun i => z.get [i]) der l) A := by
  obtain ⟨A, h1, h2⟩ := derImplVec_ok z (NdArray.zeros [(nComplete n d).toNat]) n d der hz hd hder
    (by rw [nComplete_rows]; rfl)
  refine ⟨A, ?_, h2⟩
  rw [← h1]
  have a1 : ¬ ¬ ((d : ℤ) ≥ 0) := by omega
  have a2 : ¬ ((d : ℤ) > 5) := by omega
  have a3 : ¬ ¬ ((der : ℤ) ≥ 0) := by omega
  have a4 : ¬ ¬ ((der : ℤ) < n) := by omega
  simp only [completePolynomialDer, a1, a2, a3, a4, if_false, hz]
  rfl

theorem cpd_mat (z : NdArray K) (n nobs d der : ℕ) (hz : z.shape = [n, nobs]) (hd : d ≤ 5)
    (hder : der < n) :
    ∃ A, completePolynomialDer z d der = .ok A ∧
      Filled n d [nobs] (fun tail l => dmono (fun i => z.get (i :: tail)) der l) A := by
  obtain ⟨A, h1, h2⟩ := derImplMat_ok z (NdArray.zeros [(nComplete n d).toNat, nobs]) n nobs d der
    hz hd hder (by rw [nComplete_rows]; rfl)
  refine ⟨A, ?_, h2⟩
  rw [← h1]
  have a1 : ¬ ¬ ((d : ℤ) ≥ 0) := by omega
  have a2 : ¬ ((d : ℤ) > 5) := by omega
  have a3 : ¬ ¬ ((der : ℤ) ≥ 0) := by omega
  have a4 : ¬ ¬ ((der : ℤ) < n) := by omega
  simp only [completePolynomialDer, a1, a2, a3, a4, if_false, hz]
  rfl

/-! ### C51 -/

theorem cp_error (z : NdArray K) (d : ℤ) (h : d < 0 ∨ 5 < d) :
    completePolynomial z d = .error (if d < 0 then .assertion else .value) := by
  rcases lt_or_ge d 0 with h1 | h1
  · have a1 : ¬ (d ≥ 0) := by omega
    simp only [completePolynomial, a1, not_false_eq_true, if_true, h1]; rfl
  · have a1 : ¬ ¬ (d ≥ 0) := by omega
    have a2 : d > 5 := by omega
    have a3 : ¬ d < 0 := by omega
    simp only [completePolynomial, a1, a2, if_false, if_true, a3]; rfl

theorem cpd_error (z : NdArray K) (n : ℕ) (t : List ℕ) (hz : z.shape = n :: t) (ht : t.length ≤ 1)
    (d der : ℤ) (h : d < 0 ∨ 5 < d ∨ der < 0 ∨ n ≤ der) :
    completePolynomialDer z d der
      = .error (if d < 0 ∨ der < 0 ∨ d ≤ 5 then .assertion else .value) := by
  by_cases h1 : d < 0
  · have a1 : ¬ (d ≥ 0) := by omega
    simp only [completePolynomialDer, a1, not_false_eq_true, if_true, h1, true_or]; rfl
  have a1 : ¬ ¬ (d ≥ 0) := by omega
  by_cases h2 : der < 0
  · have a2 : ¬ (der ≥ 0) := by omega
    simp only [completePolynomialDer, a1, a2, not_false_eq_true, if_true, if_false, h2, true_or, or_true]
    rfl
  have a2 : ¬ ¬ (der ≥ 0) := by omega
  by_cases h3 : d > 5
  · have a3 : ¬ d ≤ 5 := by omega
    simp only [completePolynomialDer, a1, a2, h3, h1, h2, a3, if_true, if_false, or_self]; rfl
  have a3 : d ≤ 5 := by omega
  have a4 : ¬ (der < n) := by omega
  rcases t with _ | ⟨m, _ | ⟨m', t⟩⟩
  · simp only [completePolynomialDer, a1, a2, h3, a3, if_true, if_false, or_true, hz, a4,
      not_false_eq_true]; rfl
  · simp only [completePolynomialDer, a1, a2, h3, a3, if_true, if_false, or_true, hz, a4,
      not_false_eq_true]; rfl
  · simp at ht

/-- C51: for a vector or a matrix, `complete_polynomial` returns a value exactly for the degrees
`0, …, 5`, and raises otherwise. -/
theorem C51_degrees (z : NdArray K) (n : ℕ) (t : List ℕ) (hz : z.shape = n :: t) (ht : t.length ≤ 1)
    (d : ℤ) :
    (0 ≤ d ∧ d ≤ 5 → ∃ A, completePolynomial z d = .ok A) ∧
    (d < 0 → completePolynomial z d = .error .assertion) ∧
    (5 < d → completePolynomial z d = .error .value) := by
  refine ⟨fun h => ?_, fun h => ?_, fun h => ?_⟩
  · obtain ⟨k, rfl⟩ : ∃ k : ℕ, d = k := ⟨d.toNat, by omega⟩
    rcases t with _ | ⟨m, _ | ⟨m', t⟩⟩
    · obtain ⟨A, h1, _⟩ := cp_vec z n k hz (by omega); exact ⟨A, h1⟩
    · obtain ⟨A, h1, _⟩ := cp_mat z n m k hz (by omega); exact ⟨A, h1⟩
    · simp at ht
  · rw [cp_error z d (Or.inl h), if_pos h]
  · rw [cp_error z d (Or.inr h), if_neg (by omega)]

/-- C51, derivative: `complete_polynomial_der` returns a value exactly for the degrees `0, …, 5` and
the derivative indices `0, …, n - 1`. -/
theorem C51_degrees_der (z : NdArray K) (n : ℕ) (t : List ℕ) (hz : z.shape = n :: t)
    (ht : t.length ≤ 1) (d der : ℤ) :
    ((0 ≤ d ∧ d ≤ 5) ∧ 0 ≤ der ∧ der < n → ∃ A, completePolynomialDer z d der = .ok A) ∧
    (d < 0 ∨ 5 < d ∨ der < 0 ∨ n ≤ der → ∃ e, (e = .assertion ∨ e = .value) ∧
      completePolynomialDer z d der = .error e) := by
  refine ⟨fun h => ?_, fun h => ?_⟩
  · obtain ⟨k, rfl⟩ : ∃ k : ℕ, d = k := ⟨d.toNat, by omega⟩
    obtain ⟨i, rfl⟩ : ∃ k : ℕ, der = k := ⟨der.toNat, by omega⟩
    rcases t with _ | ⟨m, _ | ⟨m', t⟩⟩
    · obtain ⟨A, h1, _⟩ := cpd_vec z n k i hz (by omega) (by omega); exact ⟨A, h1⟩
    · obtain ⟨A, h1, _⟩ := cpd_mat z n m k i hz (by omega) (by omega); exact ⟨A, h1⟩
    · simp at ht
  · rw [cpd_error z n t hz ht d der h]
    split
    · exact ⟨_, Or.inl rfl, rfl⟩
    · exact ⟨_, Or.inr rfl, rfl⟩

/-! ### C50 -/

theorem filled_col {n d nobs : ℕ} {val : (ℕ → K) → List ℕ → K} (z : NdArray K) {A B : NdArray K}
    {k : ℕ} (hk : k < nobs)
    (hA : Filled n d [nobs] (fun tail l => val (fun i => z.get (i :: tail)) l) A)
    (hB : Filled n d [] (fun _ l => val (fun i => (colArr z k).get [i]) l) B) :
    ∃ N, A.shape = [N, nobs] ∧ B.shape = [N] ∧ ∀ r < N, A.get [r, k] = B.get [r] := by
  refine ⟨_, hA.1, hB.1, fun r hr => ?_⟩
  have hl := List.getElem?_eq_getElem hr
  rw [hA.2 r _ hl [k] ⟨hk, trivial⟩, hB.2 r _ hl [] trivial]
  rfl

/-- C50: in any arithmetic, column `k` of the matrix call is the vector call on column `k`; and if
one raises, so does the other. -/
theorem C50_vector_matrix (z : NdArray K) (n nobs : ℕ) (hz : z.shape = [n, nobs]) (d : ℤ) :
    (∃ A, completePolynomial z d = .ok A ∧ ∀ k < nobs, ∃ B, completePolynomial (colArr z k) d = .ok B ∧
      ∃ N, A.shape = [N, nobs] ∧ B.shape = [N] ∧ ∀ r < N, A.get [r, k] = B.get [r]) ∨
    ∃ e, completePolynomial z d = .error e ∧ ∀ k, completePolynomial (colArr z k) d = .error e := by
  by_cases h : d < 0 ∨ 5 < d
  · exact Or.inr ⟨_, cp_error z d h, fun k => cp_error _ d h⟩
  · left
    obtain ⟨m, rfl⟩ : ∃ m : ℕ, d = m := ⟨d.toNat, by omega⟩
    obtain ⟨A, h1, h2⟩ := cp_mat z n nobs m hz (by omega)
    refine ⟨A, h1, fun k hk => ?_⟩
    obtain ⟨B, h3, h4⟩ := cp_vec (colArr z k) n m (by simp [colArr, hz]) (by omega)
    exact ⟨B, h3, filled_col (val := fun z l => mono z l) z hk h2 h4⟩

/-- C50, derivative. -/
theorem C50_vector_matrix_der (z : NdArray K) (n nobs : ℕ) (hz : z.shape = [n, nobs]) (d der : ℤ) :
    (∃ A, completePolynomialDer z d der = .ok A ∧ ∀ k < nobs,
      ∃ B, completePolynomialDer (colArr z k) d der = .ok B ∧
      ∃ N, A.shape = [N, nobs] ∧ B.shape = [N] ∧ ∀ r < N, A.get [r, k] = B.get [r]) ∨
    ∃ e, completePolynomialDer z d der = .error e ∧
      ∀ k, completePolynomialDer (colArr z k) d der = .error e := by
  by_cases h : d < 0 ∨ 5 < d ∨ der < 0 ∨ n ≤ der
  · exact Or.inr ⟨_, cpd_error z n [nobs] hz (by simp) d der h, fun k =>
      cpd_error (colArr z k) n [] (by simp [colArr, hz]) (by simp) d der h⟩
  · left
    obtain ⟨m, rfl⟩ : ∃ m : ℕ, d = m := ⟨d.toNat, by omega⟩
    obtain ⟨i, rfl⟩ : ∃ m : ℕ, der = m := ⟨der.toNat, by omega⟩
    obtain ⟨A, h1, h2⟩ := cpd_mat z n nobs m i hz (by omega) (by omega)
    refine ⟨A, h1, fun k hk => ?_⟩
    obtain ⟨B, h3, h4⟩ := cpd_vec (colArr z k) n m i (by simp [colArr, hz]) (by omega) (by omega)
    exact ⟨B, h3, filled_col (val := fun z l => dmono z i l) z hk h2 h4⟩

end any

/-! ### C48 -/

section semiring
variable {F : Type} [CommSemiring F]

theorem mono_prod (z : ℕ → F) (l : List ℕ) : mono z l = (l.map z).prod := by
  cases l with
  | nil => rfl
  | cons i l =>
    rw [mono, List.map_cons, List.prod_cons]
    generalize z i = a
    induction l generalizing a with
    | nil => simp
    | cons j l ih => rw [List.foldl_cons, ih, List.map_cons, List.prod_cons, mul_assoc]

/-- Exponents of the monomial stored in the row `l`. -/
def expo (n : ℕ) (l : List ℕ) : List ℕ := (List.range n).map fun i => l.count i

theorem mono_expo (n : ℕ) (z : ℕ → F) (l : List ℕ) (hl : ∀ i ∈ l, i < n) :
    mono z l = monomialAt (expo n l) ((List.range n).map z) := by
  rw [mono_prod, monomialAt, expo, List.zipWith_map, List.zipWith_self]
  induction l with
  | nil => simp
  | cons i l ih =>
    rw [List.map_cons, List.prod_cons, ih fun j hj => hl j (by simp [hj])]
    have hi := hl i (by simp)
    clear ih hl
    induction n with
    | zero => omega
    | succ n ih =>
      rw [List.range_succ, List.map_append, List.prod_append, List.map_append, List.prod_append]
      simp only [List.map_cons, List.map_nil, List.prod_cons, List.prod_nil, mul_one]
      by_cases h : i = n
      · subst h
        rw [List.count_cons_self, pow_succ]
        have : (List.range i).map (fun j => z j ^ List.count j (i :: l))
            = (List.range i).map (fun j => z j ^ List.count j l) := by
          apply List.map_congr_left
          intro j hj
          rw [List.mem_range] at hj
          rw [List.count_cons_of_ne (by omega)]
        rw [this]; ring
      · rw [List.count_cons_of_ne h, ← ih (by omega)]; ring

end semiring

theorem sum_expo (n : ℕ) (l : List ℕ) (hl : ∀ i ∈ l, i < n) : (expo n l).sum = l.length := by
  induction l with
  | nil => simp [expo]
  | cons i l ih =>
    rw [List.length_cons, ← ih fun j hj => hl j (by simp [hj])]
    have hi := hl i (by simp)
    clear ih hl
    induction n with
    | zero => omega
    | succ n ih =>
      simp only [expo, List.range_succ, List.map_append, List.sum_append, List.map_cons,
        List.map_nil, List.sum_cons, List.sum_nil, add_zero] at ih ⊢
      by_cases h : i = n
      · subst h
        rw [List.count_cons_self]
        have : (List.range i).map (fun j => List.count j (i :: l))
            = (List.range i).map (fun j => List.count j l) := by
          apply List.map_congr_left
          intro j hj
          rw [List.mem_range] at hj
          rw [List.count_cons_of_ne (by omega)]
        rw [this]; omega
      · rw [List.count_cons_of_ne h, ih (by omega)]; omega

theorem expo_inj (n : ℕ) (l l' : List ℕ) (hl : l.Pairwise (· ≤ ·) ∧ ∀ i ∈ l, i < n)
    (hl' : l'.Pairwise (· ≤ ·) ∧ ∀ i ∈ l', i < n) (h : expo n l = expo n l') : l = l' := by
  refine List.Perm.eq_of_pairwise (le := (· ≤ ·)) (fun a b _ _ h1 h2 => le_antisymm h1 h2) hl.1 hl'.1 ?_
  rw [List.perm_iff_count]
  intro i
  by_cases hi : i < n
  · have := congrArg (fun e => e.getD i 0) h
    simpa [expo, List.getD_eq_getElem?_getD, hi] using this
  · rw [List.count_eq_zero_of_not_mem fun hm => hi (hl.2 i hm),
      List.count_eq_zero_of_not_mem fun hm => hi (hl'.2 i hm)]

theorem expo_surj (n : ℕ) (e : List ℕ) (he : e.length = n) :
    ∃ l : List ℕ, (l.Pairwise (· ≤ ·) ∧ ∀ i ∈ l, i < n) ∧ expo n l = e := by
  refine ⟨(List.range n).flatMap fun i => List.replicate (e.getD i 0) i, ⟨?_, ?_⟩, ?_⟩
  · rw [List.pairwise_flatMap]
    refine ⟨fun i _ => List.pairwise_replicate.mpr (Or.inr le_rfl), ?_⟩
    refine List.Pairwise.imp ?_ List.pairwise_lt_range
    intro a b hab x hx y hy
    rw [List.mem_replicate] at hx hy
    rw [hx.2, hy.2]; exact hab.le
  · intro i hi
    rw [List.mem_flatMap] at hi
    obtain ⟨j, hj, h⟩ := hi
    rw [List.mem_replicate] at h
    rw [h.2]; exact List.mem_range.mp hj
  · refine List.ext_getElem (by simp [expo, he]) fun i h1 h2 => ?_
    have hi : i < n := by simpa [expo] using h1
    simp only [expo, List.getElem_map, List.getElem_range, List.count_flatMap, Function.comp_def,
      List.count_replicate]
    have : ∀ m, ((List.range m).map fun j => if (j == i) = true then e.getD j 0 else 0).sum
        = if i < m then e.getD i 0 else 0 := by
      intro m
      induction m with
      | zero => simp
      | succ m ih =>
        rw [List.range_succ, List.map_append, List.sum_append, ih]
        simp only [List.map_cons, List.map_nil, List.sum_cons, List.sum_nil, add_zero, beq_iff_eq]
        by_cases h : m = i
        · subst h; simp
        · by_cases h' : i < m
          · simp [h, h', Nat.lt_succ_of_lt h']
          · have : ¬ i < m + 1 := by omega
            simp [h, h', this]
    rw [this n, if_pos hi, List.getD_eq_getElem _ _ (by omega)]

/-- The exponents of the rows. -/
def expos (n d : ℕ) : List (List ℕ) := (rows n d).map (expo n)

theorem mem_expos (n d : ℕ) (e : List ℕ) : e ∈ expos n d ↔ e.length = n ∧ e.sum ≤ d := by
  rw [expos, List.mem_map]
  constructor
  · rintro ⟨l, hl, rfl⟩
    rw [mem_rows] at hl
    exact ⟨by simp [expo], by rw [sum_expo n l hl.2.2]; exact hl.1⟩
  · rintro ⟨h1, h2⟩
    obtain ⟨l, hl, rfl⟩ := expo_surj n e h1
    exact ⟨l, (mem_rows n d l).mpr ⟨by rwa [sum_expo n l hl.2] at h2, hl⟩, rfl⟩

theorem nodup_expos (n d : ℕ) : (expos n d).Nodup := by
  refine List.Nodup.map_on ?_ (nodup_rows n d)
  intro l hl l' hl' h
  rw [mem_rows] at hl hl'
  exact expo_inj n l l' hl.2 hl'.2 h

theorem length_expos (n d : ℕ) : (expos n d).length = (rows n d).length := by simp [expos]

theorem filled_expos {F : Type} [CommSemiring F] {n d : ℕ} {t : List ℕ} {z : List ℕ → ℕ → F}
    {A : NdArray F} (h : Filled n d t (fun tail l => mono (z tail) l) A) :
    A.shape = (expos n d).length :: t ∧ ∀ (r : ℕ) (e : List ℕ), (expos n d)[r]? = some e →
      ∀ tail, InShape t tail → A.get (r :: tail) = monomialAt e ((List.range n).map (z tail)) := by
  refine ⟨by rw [h.1, length_expos], fun r e he tail ht => ?_⟩
  rw [expos, List.getElem?_map, Option.map_eq_some_iff] at he
  obtain ⟨l, hl, rfl⟩ := he
  rw [h.2 r l hl tail ht]
  exact mono_expo n _ l ((mem_rows n d l).mp (List.mem_of_getElem? hl)).2.2

/-- C48: for all numbers of variables and degrees up to 5 there is a list of exponents, containing
every exponent of total degree at most `d` exactly once, of length `n_complete(n, d)`, such that the
rows of `complete_polynomial(z, d)` are the values of these monomials, for vectors and matrices. -/
theorem C48_monomials (n d : ℕ) (hd : d ≤ 5) : ∃ E : List (List ℕ),
    E.Nodup ∧ (∀ e, e ∈ E ↔ e.length = n ∧ e.sum ≤ d) ∧ (E.length : ℤ) = nComplete n d ∧
    ∀ (F : Type) [CommSemiring F] (z : NdArray F),
      (z.shape = [n] → ∃ A, completePolynomial z d = .ok A ∧ A.shape = [E.length] ∧
        ∀ (r : ℕ) e, E[r]? = some e → A.get [r] = monomialAt e (vecOf z)) ∧
      ∀ nobs, z.shape = [n, nobs] → ∃ A, completePolynomial z d = .ok A ∧
        A.shape = [E.length, nobs] ∧
        ∀ (r : ℕ) e, E[r]? = some e → ∀ k < nobs, A.get [r, k] = monomialAt e (colOf z k) := by
  refine ⟨expos n d, nodup_expos n d, mem_expos n d, ?_, fun F _ z => ⟨fun hz => ?_, fun nobs hz => ?_⟩⟩
  · rw [length_expos, length_rows, nComplete_eq]
  · obtain ⟨A, h1, h2⟩ := cp_vec z n d hz hd
    have h3 := filled_expos (z := fun _ i => z.get [i]) h2
    refine ⟨A, h1, h3.1, fun r e he => ?_⟩
    rw [h3.2 r e he [] trivial, vecOf, hz]; rfl
  · obtain ⟨A, h1, h2⟩ := cp_mat z n nobs d hz hd
    have h3 := filled_expos (z := fun tail i => z.get (i :: tail)) h2
    refine ⟨A, h1, h3.1, fun r e he k hk => ?_⟩
    rw [h3.2 r e he [k] ⟨hk, trivial⟩, colOf, hz]; rfl

/-! ### C49 -/

theorem foldl_mul {F : Type} [CommSemiring F] (a : F) (l : List F) :
    l.foldl (· * ·) a = a * l.prod := by
  induction l generalizing a with
  | nil => simp
  | cons b l ih => rw [List.foldl_cons, ih, List.prod_cons, mul_assoc]

theorem dentry_eq {F : Type} [CommSemiring F] (z : ℕ → F) (der : ℕ) : ∀ (l : List ℕ) (c : ℕ) (ts : List F),
    dentry z der c ts l = ((c + l.count der : ℕ) : F) * ts.prod *
      ((l.filter (· ≠ der)).map z).prod * z der ^ (c + l.count der - 1)
  | [], c, ts => by
    simp only [dentry, dval, List.count_nil, add_zero, List.filter_nil, List.map_nil,
      List.prod_nil, mul_one]
    split
    · rw [foldl_mul]
    · have : c = 0 := by omega
      subst this; simp
  | i :: l, c, ts => by
    rw [dentry, dentry_eq z der l]
    by_cases h : i = der
    · subst h
      simp only [stepP, if_pos, List.prod_append, List.prod_cons, List.prod_nil, mul_one,
        List.count_cons_self, ne_eq, not_true_eq_false, decide_false, Bool.false_eq_true,
        not_false_eq_true, List.filter_cons_of_neg]
      rw [show c + 1 + List.count i l = c + (List.count i l + 1) by omega]
    · rw [show stepP z der i c = (c, z i) from if_neg h]
      simp only [List.prod_append, List.prod_cons, List.prod_nil, mul_one,
        List.count_cons_of_ne h, ne_eq, h, not_false_eq_true, decide_true, List.filter_cons_of_pos,
        List.map_cons]
      ring

theorem dmono_eq {F : Type} [CommSemiring F] (z : ℕ → F) (der : ℕ) (l : List ℕ) :
    dmono z der l = ((l.count der : ℕ) : F) * ((l.filter (· ≠ der)).map z).prod *
      z der ^ (l.count der - 1) := by
  rcases l with _ | ⟨i, _ | ⟨j, l⟩⟩
  · simp [dmono]
  · by_cases h : i = der
    · subst h; simp [dmono]
    · simp [dmono, h]
  · rw [dmono, dentry_eq]; simp

theorem mono_split {F : Type} [CommSemiring F] (z : ℕ → F) (der : ℕ) (l : List ℕ) :
    mono z l = ((l.filter (· ≠ der)).map z).prod * z der ^ l.count der := by
  rw [mono_prod]
  induction l with
  | nil => simp
  | cons i l ih =>
    rw [List.map_cons, List.prod_cons, ih]
    by_cases h : i = der
    · subst h
      simp [pow_succ]; ring
    · simp [h, List.count_cons_of_ne h]; ring

theorem mono_deriv (z : ℕ → ℝ) (der : ℕ) (l : List ℕ) :
    HasDerivAt (fun t => mono (fun i => if i = der then t else z i) l) (dmono z der l) (z der) := by
  have e : (fun t => mono (fun i => if i = der then t else z i) l)
      = fun t => ((l.filter (· ≠ der)).map z).prod * t ^ l.count der := by
    funext t
    rw [mono_split _ der]
    simp only [if_true]
    congr 2
    apply List.map_congr_left
    intro i hi
    rw [List.mem_filter] at hi
    have : i ≠ der := by simpa using hi.2
    rw [if_neg this]
  rw [e, dmono_eq]
  have := (hasDerivAt_pow (l.count der) (z der)).const_mul ((l.filter (· ≠ der)).map z).prod
  refine this.congr_deriv ?_
  ring

/-- C49, vectors: row `r` of `complete_polynomial_der(z, d, i)` is the derivative of row `r` of
`complete_polynomial(z, d)` when `z[i]` varies. -/
theorem C49_derivative_vec (z : NdArray ℝ) (n d i : ℕ) (hz : z.shape = [n]) (hd : d ≤ 5) (hi : i < n) :
    ∃ (D : NdArray ℝ) (P : ℝ → NdArray ℝ) (N : ℕ), completePolynomialDer z d i = .ok D ∧
      (∀ t, completePolynomial (setAt z [i] t) d = .ok (P t)) ∧
      (N : ℤ) = nComplete n d ∧ D.shape = [N] ∧ (∀ t, (P t).shape = [N]) ∧
      ∀ r < N, HasDerivAt (fun t => (P t).get [r]) (D.get [r]) (z.get [i]) := by
  obtain ⟨D, h1, h2⟩ := cpd_vec z n d i hz hd hi
  have h3 : ∀ t, ∃ A, completePolynomial (setAt z [i] t) d = .ok A ∧
      Filled n d [] (fun _ l => mono (fun j => (setAt z [i] t).get [j]) l) A :=
    fun t => cp_vec (setAt z [i] t) n d hz hd
  choose P h4 h5 using h3
  refine ⟨D, P, (rows n d).length, h1, h4, ?_, h2.1, fun t => (h5 t).1, fun r hr => ?_⟩
  · rw [nComplete_eq, length_rows]
  · have hl := List.getElem?_eq_getElem hr
    have e : (fun t => (P t).get [r])
        = fun t => mono (fun j => if j = i then t else z.get [j]) (rows n d)[r] := by
      funext t
      rw [(h5 t).2 r _ hl [] trivial]
      refine congrArg (fun q => mono q (rows n d)[r]) ?_
      funext j
      simp [setAt]
    rw [e, h2.2 r _ hl [] trivial]
    exact mono_deriv (fun j => z.get [j]) i _

/-- C49, matrices: entry `[r, k]` of the derivative is the derivative of entry `[r, k]` of the basis
when `z[i, k]` varies. -/
theorem C49_derivative_mat (z : NdArray ℝ) (n nobs d i : ℕ) (hz : z.shape = [n, nobs]) (hd : d ≤ 5)
    (hi : i < n) :
    ∃ (D : NdArray ℝ) (P : ℕ → ℝ → NdArray ℝ) (N : ℕ), completePolynomialDer z d i = .ok D ∧
      (∀ k t, completePolynomial (setAt z [i, k] t) d = .ok (P k t)) ∧
      (N : ℤ) = nComplete n d ∧ D.shape = [N, nobs] ∧ (∀ k t, (P k t).shape = [N, nobs]) ∧
      ∀ r < N, ∀ k < nobs, HasDerivAt (fun t => (P k t).get [r, k]) (D.get [r, k]) (z.get [i, k]) := by
  obtain ⟨D, h1, h2⟩ := cpd_mat z n nobs d i hz hd hi
  have h3 : ∀ k t, ∃ A, completePolynomial (setAt z [i, k] t) d = .ok A ∧
      Filled n d [nobs] (fun tail l => mono (fun j => (setAt z [i, k] t).get (j :: tail)) l) A :=
    fun k t => cp_mat (setAt z [i, k] t) n nobs d hz hd
  choose P h4 h5 using h3
  refine ⟨D, P, (rows n d).length, h1, h4, ?_, h2.1, fun k t => (h5 k t).1, fun r hr k hk => ?_⟩
  · rw [nComplete_eq, length_rows]
  · have hl := List.getElem?_eq_getElem hr
    have e : (fun t => (P k t).get [r, k])
        = fun t => mono (fun j => if j = i then t else z.get [j, k]) (rows n d)[r] := by
      funext t
      rw [(h5 k t).2 r _ hl [k] ⟨hk, trivial⟩]
      refine congrArg (fun q => mono q (rows n d)[r]) ?_
      funext j
      simp [setAt]
    rw [e, h2.2 r _ hl [k] ⟨hk, trivial⟩]
    exact mono_deriv (fun j => z.get [j, k]) i _

section examples

/-- Two variables, degree 3: ten monomials. -/
example : nComplete 2 3 = 10 := by
  have := C47_n_complete 2 3
  simpa [Nat.choose] using this

example := C48_monomials 2 3 (by norm_num)
example := C49_derivative_vec ⟨[3], fun idx => (idx.headD 0 : ℝ) + 1⟩ 3 5 1 rfl (by norm_num) (by norm_num)
example := C49_derivative_mat ⟨[3, 4], fun idx => (idx.headD 0 : ℝ) + 1⟩ 3 4 5 1 rfl (by norm_num)
  (by norm_num)
example := C50_vector_matrix (K := ℕ) ⟨[3, 4], fun idx => idx.headD 0 + 1⟩ 3 4 rfl 2
example := C51_degrees (K := ℕ) ⟨[3, 4], fun idx => idx.headD 0 + 1⟩ 3 [4] rfl (by simp) 6

end examples

end Interp.Props
