import Verif.Proofs.SrcCompleteTop
import Verif.Props.CompletePoly
import Verif.Props.SourceFilter

/-!
# What the source text of `complete_poly.py` computes: C111
-/

set_option linter.unusedSectionVars false

namespace Interp.Props
open Interp Interp.Spec.PySrc Interp.CompletePoly

section
variable {K : Type} [Add K] [Sub K] [Mul K] [Div K] [Neg K] [Zero K] [One K] [NatCast K] [IntCast K]
  [LT K] [DecidableLT K] [LE K] [DecidableLE K] [BEq K] [IntFloor K] [Interp.Smolyak.Trig K] [Pow K ℕ]

/-- The texts of `complete_poly.py` L39-590 as a program. -/
def completeFile : Option Prog :=
  load [nCompleteText, completePolynomialText, implVecText, implMatText, completePolynomialDerText, derImplVecText, derImplMatText] [] []

/-- C111. `n_complete(n, d)`. -/
theorem C111_n_complete : ∃ P, completeFile = some P ∧ ∀ k ≥ 2, ∀ (n d : ℤ) (h : Heap K),
    callName P k "n_complete" [.int n, .int d] h = .ok (.int (nComplete n d), h) := by
  refine ⟨_, complete_load, fun k hk n d h => ?_⟩
  obtain ⟨k, rfl⟩ : ∃ m, k = m + 2 := ⟨k - 2, by omega⟩
  rw [callName, cglob_n, pure_bind, callN_fn, nComplete_run _ (complete_range k)]
  rfl

/-- C111. `complete_polynomial(z, d)`, for an array with any number of dimensions: the result is a new array with the entries of the
model, or the same exception is raised; no other array is changed. -/
theorem C111_complete_polynomial (L : LitLaws K) : ∃ P, completeFile = some P ∧
    ∀ n ≥ 3, ∀ (z : NdArray K) (h : Heap K) (r : ℕ), h[r]? = some z → ∀ d : ℤ,
      Shows (completePolynomial z d) (callName P n "complete_polynomial" [.arr r (whole z.shape.length), .int d] h)
        (fun A v h' => v = .arr h.length (whole z.shape.length) ∧ h' = h ++ [A]) := by
  refine ⟨_, complete_load, fun n hn z h r hz d => ?_⟩
  obtain ⟨n, rfl⟩ : ∃ m, n = m + 3 := ⟨n - 3, by omega⟩
  rw [callName, cglob_p, pure_bind]
  exact shows_of_sim ((polynomial_run L n hz d).mono fun A o e => by rw [e]; exact ⟨rfl, rfl⟩)

/-- C111. `complete_polynomial_der(z, d, der)`, where `x ** n` with an integer is the product. -/
theorem C111_complete_polynomial_der (L : LitLaws K) (hpow : ∀ (x : K) (n : ℕ), fpow x n = x ^ n) : ∃ P, completeFile = some P ∧
    ∀ n ≥ 3, ∀ (z : NdArray K) (h : Heap K) (r : ℕ), h[r]? = some z → ∀ d der : ℤ,
      Shows (completePolynomialDer z d der)
        (callName P n "complete_polynomial_der" [.arr r (whole z.shape.length), .int d, .int der] h)
        (fun A v h' => v = .arr h.length (whole z.shape.length) ∧ h' = h ++ [A]) := by
  refine ⟨_, complete_load, fun n hn z h r hz d der => ?_⟩
  obtain ⟨n, rfl⟩ : ∃ m, n = m + 3 := ⟨n - 3, by omega⟩
  rw [callName, cglob_pd, pure_bind]
  exact shows_of_sim ((polynomialDer_run L hpow n hz d der).mono fun A o e => by rw [e]; exact ⟨rfl, rfl⟩)

end

theorem fpow_pow {F : Type} [Field F] (x : F) : ∀ n : ℕ, fpow x n = x ^ n
  | 0 => by simp [fpow]
  | 1 => by simp [fpow]
  | n + 2 => by rw [fpow, fpow_pow x (n + 1), pow_succ _ (n + 1)]; simp

/-- The call returns a new array with these entries and changes no other array. -/
def Gives {K : Type} (h : Heap K) (y : Py (Val K × Heap K)) (A : NdArray K) : Prop :=
  y = .ok (.arr h.length (whole A.shape.length), h ++ [A])

theorem gives_of_shows {K : Type} {x : Py (NdArray K)} {h : Heap K} {y : Py (Val K × Heap K)} {m : ℕ} {A : NdArray K}
    (H : Shows x y (fun A v h' => v = .arr h.length (whole m) ∧ h' = h ++ [A])) (hx : x = .ok A) (hm : A.shape.length = m) :
    Gives h y A := by
  subst hx
  rcases y with e | ⟨v, h'⟩
  · exact H.elim
  · rw [Gives, hm, H.1, H.2]

section exact
variable {F : Type} [Field F] [LinearOrder F] [IsStrictOrderedRing F] [FloorRing F] [Interp.Smolyak.Trig F]

/-- C111. The text computes all monomials: for every number of variables and every degree up to 5 there is a list that contains every
exponent of total degree at most `d` once, and row number `r` of the array that the text returns is monomial number `r`. -/
theorem C111_monomials (n d : ℕ) (hd : d ≤ 5) : ∃ (P : Prog) (E : List (List ℕ)), completeFile = some P ∧
    E.Nodup ∧ (∀ e : List ℕ, e ∈ E ↔ e.length = n ∧ e.sum ≤ d) ∧ E.length = (n + d).choose d ∧
    ∀ k ≥ 3, ∀ (z : NdArray F) (h : Heap F) (r : ℕ), h[r]? = some z →
      (z.shape = [n] → ∃ A, Gives h (callName P k "complete_polynomial" [.arr r [none], .int d] h) A ∧ A.shape = [E.length] ∧
        ∀ (i : ℕ) e, E[i]? = some e → A.get [i] = Spec.monomialAt e (Spec.vecOf z)) ∧
      ∀ nobs, z.shape = [n, nobs] →
        ∃ A, Gives h (callName P k "complete_polynomial" [.arr r [none, none], .int d] h) A ∧ A.shape = [E.length, nobs] ∧
        ∀ (i : ℕ) e, E[i]? = some e → ∀ j < nobs, A.get [i, j] = Spec.monomialAt e (Spec.colOf z j) := by
  obtain ⟨P, hP, H⟩ := C111_complete_polynomial (K := F) litLaws_field
  obtain ⟨E, h1, h2, h3, h4⟩ := C48_monomials n d hd
  refine ⟨P, E, hP, h1, h2, ?_, fun k hk z h r hr => ⟨fun hz => ?_, fun nobs hz => ?_⟩⟩
  · rw [nComplete_eq] at h3; exact_mod_cast h3
  · obtain ⟨A, a1, a2, a3⟩ := (h4 F z).1 hz
    have := H k hk z h r hr d
    rw [hz] at this
    exact ⟨A, gives_of_shows this a1 (by rw [a2]; rfl), a2, a3⟩
  · obtain ⟨A, a1, a2, a3⟩ := (h4 F z).2 nobs hz
    have := H k hk z h r hr d
    rw [hz] at this
    exact ⟨A, gives_of_shows this a1 (by rw [a2]; rfl), a2, a3⟩

end exact

/-- C111. The text of `complete_polynomial_der` computes the derivatives of what the text of `complete_polynomial` computes, for
vectors. -/
theorem C111_derivative_vec (n d i : ℕ) (hd : d ≤ 5) (hi : i < n) : ∃ P, completeFile = some P ∧
    ∀ k ≥ 3, ∀ (z : NdArray ℝ), z.shape = [n] → ∀ (h : Heap ℝ) (r : ℕ), h[r]? = some z →
      ∃ (D : NdArray ℝ) (Q : ℝ → NdArray ℝ) (N : ℕ),
        Gives h (callName P k "complete_polynomial_der" [.arr r [none], .int d, .int i] h) D ∧
        (∀ t, Gives (h.set r (Spec.setAt z [i] t))
          (callName P k "complete_polynomial" [.arr r [none], .int d] (h.set r (Spec.setAt z [i] t))) (Q t)) ∧
        N = (n + d).choose d ∧ D.shape = [N] ∧ (∀ t, (Q t).shape = [N]) ∧
        ∀ j < N, HasDerivAt (fun t => (Q t).get [j]) (D.get [j]) (z.get [i]) := by
  obtain ⟨P, hP, H⟩ := C111_complete_polynomial (K := ℝ) litLaws_field
  obtain ⟨P', hP', H'⟩ := C111_complete_polynomial_der (K := ℝ) litLaws_field fpow_pow
  obtain rfl : P = P' := Option.some.inj (hP.symm.trans hP')
  refine ⟨P, hP, fun k hk z hz h r hr => ?_⟩
  obtain ⟨D, Q, N, a1, a2, a3, a4, a5, a6⟩ := C49_derivative_vec z n d i hz hd hi
  have hlen : r < h.length := by
    by_contra hc
    rw [List.getElem?_eq_none (by omega)] at hr
    cases hr
  refine ⟨D, Q, N, ?_, fun t => ?_, ?_, a4, a5, a6⟩
  · have := H' k hk z h r hr d i
    rw [hz] at this
    exact gives_of_shows this a1 (by rw [a4]; rfl)
  · have := H k hk (Spec.setAt z [i] t) (h.set r (Spec.setAt z [i] t)) r (by rw [List.getElem?_set_self hlen]) d
    rw [show (Spec.setAt z [i] t).shape = [n] from hz] at this
    exact gives_of_shows this (a2 t) (by rw [a5]; rfl)
  · rw [nComplete_eq] at a3; exact_mod_cast a3

/-- C111. The same for matrices. -/
theorem C111_derivative_mat (n nobs d i : ℕ) (hd : d ≤ 5) (hi : i < n) : ∃ P, completeFile = some P ∧
    ∀ k ≥ 3, ∀ (z : NdArray ℝ), z.shape = [n, nobs] → ∀ (h : Heap ℝ) (r : ℕ), h[r]? = some z →
      ∃ (D : NdArray ℝ) (Q : ℕ → ℝ → NdArray ℝ) (N : ℕ),
        Gives h (callName P k "complete_polynomial_der" [.arr r [none, none], .int d, .int i] h) D ∧
        (∀ c t, Gives (h.set r (Spec.setAt z [i, c] t))
          (callName P k "complete_polynomial" [.arr r [none, none], .int d] (h.set r (Spec.setAt z [i, c] t))) (Q c t)) ∧
        N = (n + d).choose d ∧ D.shape = [N, nobs] ∧ (∀ c t, (Q c t).shape = [N, nobs]) ∧
        ∀ j < N, ∀ c < nobs, HasDerivAt (fun t => (Q c t).get [j, c]) (D.get [j, c]) (z.get [i, c]) := by
  obtain ⟨P, hP, H⟩ := C111_complete_polynomial (K := ℝ) litLaws_field
  obtain ⟨P', hP', H'⟩ := C111_complete_polynomial_der (K := ℝ) litLaws_field fpow_pow
  obtain rfl : P = P' := Option.some.inj (hP.symm.trans hP')
  refine ⟨P, hP, fun k hk z hz h r hr => ?_⟩
  obtain ⟨D, Q, N, a1, a2, a3, a4, a5, a6⟩ := C49_derivative_mat z n nobs d i hz hd hi
  have hlen : r < h.length := by
    by_contra hc
    rw [List.getElem?_eq_none (by omega)] at hr
    cases hr
  refine ⟨D, Q, N, ?_, fun c t => ?_, ?_, a4, a5, a6⟩
  · have := H' k hk z h r hr d i
    rw [hz] at this
    exact gives_of_shows this a1 (by rw [a4]; rfl)
  · have := H k hk (Spec.setAt z [i, c] t) (h.set r (Spec.setAt z [i, c] t)) r (by rw [List.getElem?_set_self hlen]) d
    rw [show (Spec.setAt z [i, c] t).shape = [n, nobs] from hz] at this
    exact gives_of_shows this (a2 c t) (by rw [a5]; rfl)
  · rw [nComplete_eq] at a3; exact_mod_cast a3

/-- The hypotheses can be met: the text returns six monomials of two rational variables up to degree two. -/
example : ∃ P A, completeFile = some P ∧ Gives [demoVec [2, 3]]
    (callName P 3 "complete_polynomial" [.arr 0 [none], .int (2 : ℕ)] [demoVec [2, 3]]) A ∧ A.shape = [6] := by
  obtain ⟨P, E, hP, h1, h2, h3, H⟩ := C111_monomials (F := ℚ) 2 2 (by norm_num)
  obtain ⟨A, a1, a2, _⟩ := (H 3 le_rfl (demoVec [2, 3]) [demoVec [2, 3]] 0 rfl).1 rfl
  exact ⟨P, A, hP, a1, by rw [a2, h3]; rfl⟩

end Interp.Props
