import Verif.Props.CompleteRounding
import Verif.Props.CompleteObject
import Verif.Proofs.SmolRounding
import Verif.Spec.CompleteRounding

/-!
# The class `CompletePolynomial` in rounded arithmetic: C128

`numpy.dot` adds from left to right; the power in the derivative is as in C122.
-/

set_option linter.unusedSectionVars false

namespace Interp.Props
open Interp.Spec Interp.CompletePoly Interp.Codegen

variable {R : Rounding}

/-- The sum of products of `numpy.dot`, when the entries of the matrix have `k` errors. -/
theorem dot_near (p k : ℕ) (f c : ℕ → Fl R) (g : ℕ → ℝ) (h : ∀ r < p, Near (grow R k) (g r) (f r).val) :
    |(((List.range p).map fun r => f r * c r).foldl (· + ·) 0).val - ∑ r ∈ Finset.range p, g r * (c r).val| ≤
      ((1 + R.u) ^ (p + (k + 1)) - 1) * ∑ r ∈ Finset.range p, |g r * (c r).val| := by
  have u0 := Rounding.u_nonneg R
  have := Smolyak.sum_close (fun r => f r * c r) (fun r => g r * (c r).val) (fun r => |g r * (c r).val|)
    (G0 := (1 + R.u) ^ (k + 1)) (List.range p) 0 0 0 ((1 + R.u) ^ (k + 1)) le_rfl (one_le_pow₀ (by linarith))
    (fun r _ => le_rfl) (fun r hr => near_mul (h r (List.mem_range.1 hr)) (near_exact (c r))) (by simp)
    (by simpa using le_of_eq (show |(0 : Fl R).val| = 0 from abs_zero))
  have e : ((List.range p).map fun r => |g r * (c r).val|).sum = ∑ r ∈ Finset.range p, |g r * (c r).val| := by
    rw [List.sum_eq_foldl, foldl_range_sum]
  rw [foldl_range_sum, zero_add, List.length_range, ← pow_add, add_comm (k + 1), e] at this
  exact this

theorem expos_getD {n d r : ℕ} (hr : r < (rows n d).length) : (expos n d).getD r [] = expo n ((rows n d).getD r []) := by
  rw [expos, List.getD_eq_getElem _ _ (by simpa using hr), List.getD_eq_getElem _ _ hr, List.getElem_map]

theorem mono_at {n d r : ℕ} (x : ℕ → ℝ) (hr : r < (rows n d).length) :
    mono x ((rows n d).getD r []) = monomialAt ((expos n d).getD r []) ((List.range n).map x) := by
  rw [expos_getD hr, ← mono_expo n x _ row_lt]

theorem expo_erase {n k : ℕ} (l : List ℕ) : expo n (l.erase k) = (expo n l).set k ((expo n l).getD k 0 - 1) := by
  refine List.ext_getElem (by simp [expo]) fun i h1 h2 => ?_
  have hi : i < n := by simpa [expo] using h1
  rw [List.getElem_set]
  by_cases hk : k = i
  · subst hk
    rw [if_pos rfl, List.getD_eq_getElem _ _ (by simpa [expo] using hi)]
    simp [expo, List.count_erase_self]
  · rw [if_neg hk]
    simp only [expo, List.getElem_map, List.getElem_range]
    rw [List.count_erase_of_ne (Ne.symm hk)]

theorem dmono_at {n d r k : ℕ} (x : ℕ → ℝ) (hk : k < n) (hr : r < (rows n d).length) :
    dmono x k ((rows n d).getD r []) = monomialDerAt ((expos n d).getD r []) k ((List.range n).map x) := by
  rw [expos_getD hr]
  set l := (rows n d).getD r [] with hl
  have hlt : ∀ i ∈ l, i < n := row_lt
  have hc : (expo n l).getD k 0 = l.count k := by
    rw [List.getD_eq_getElem _ _ (by simpa [expo] using hk)]; simp [expo]
  rw [monomialDerAt, ← expo_erase, ← mono_expo n x _ fun i hi => hlt i (List.mem_of_mem_erase hi), hc]
  have hf : (l.erase k).filter (· ≠ k) = l.filter (· ≠ k) := by
    clear hc hlt hl
    induction l with
    | nil => simp
    | cons i l ih =>
      by_cases h : i = k
      · subst h; simp
      · rw [List.erase_cons_tail (by simpa using h), List.filter_cons, List.filter_cons, ih]
  rw [mono_split x k, dmono_eq, hf, List.count_erase_self]
  ring

/-- C128: in rounded arithmetic the value of a `CompletePolynomial` at a point differs from the exact value of the polynomial
with the same coefficients by at most `(1 + u)^(N + max(d, 1)) - 1` times the sum of the absolute values of its terms, where
`N` is the number of coefficients. The list `E` contains every exponent of total degree at most `d` exactly once. -/
theorem C128_call (R : Rounding) (n d : ℕ) (hd : d ≤ 5) : ∃ E : List (List ℕ),
    E.Nodup ∧ (∀ e, e ∈ E ↔ e.length = n ∧ e.sum ≤ d) ∧
    ∀ (o : Obj (Fl R)) (c : NdArray (Fl R)) (t : List ℕ), o.d = d → o.coefs = some c → c.shape = E.length :: t →
      ∀ s : NdArray (Fl R),
      (∀ N, s.shape = [N, n] → ∃ Y, o.call s = .ok Y ∧ Y.shape = N :: t ∧ ∀ i < N, ∀ tail,
        |(Y.get (i :: tail)).val -
            ∑ r ∈ Finset.range E.length, monomialAt (E.getD r []) (exactRow n s i) * (c.get (r :: tail)).val| ≤
          ((1 + R.u) ^ (E.length + max d 1) - 1) *
            ∑ r ∈ Finset.range E.length, |monomialAt (E.getD r []) (exactRow n s i) * (c.get (r :: tail)).val|) ∧
      (s.shape = [n] → ∃ Y, o.call s = .ok Y ∧ Y.shape = t ∧ ∀ tail,
        |(Y.get tail).val -
            ∑ r ∈ Finset.range E.length, monomialAt (E.getD r []) (exactPoint n s) * (c.get (r :: tail)).val| ≤
          ((1 + R.u) ^ (E.length + max d 1) - 1) *
            ∑ r ∈ Finset.range E.length, |monomialAt (E.getD r []) (exactPoint n s) * (c.get (r :: tail)).val|) := by
  haveI : Pow (Fl R) ℕ := ⟨fun x n => flPow x n⟩
  have hE : (expos n d).length = (rows n d).length := by simp [expos]
  have hmx : max d 1 = (d - 1) + 1 := by omega
  refine ⟨expos n d, nodup_expos n d, mem_expos n d, fun o c t ho hc hcs s => ?_⟩
  rw [hE] at hcs ⊢
  rw [hmx]
  have key : ∀ z : ℕ → Fl R, ∀ r < (rows n d).length,
      Near (grow R (d - 1)) (monomialAt ((expos n d).getD r []) ((List.range n).map fun j => (z j).val))
        (mono z ((rows n d).getD r [])).val := by
    intro z r hr
    rw [← mono_at (fun j => (z j).val) hr]
    exact (near_mono z _).mono (grow_mono (by have := row_length (n := n) (d := d) (r := r); omega))
  refine ⟨fun N hs => ?_, fun hs => ?_⟩
  · obtain ⟨A, h1, h2⟩ := cp_mat (transpose s) n N d (by simp [transpose, hs]) hd
    have hdot : o.call s = dot (transpose A) c := by rw [Obj.call, ho, h1, hc]; rfl
    have hA : (transpose A).shape = [N, (rows n d).length] := by simp [transpose, h2.1]
    refine ⟨_, by rw [hdot, dot, hA, hcs]; simp only [if_true]; rfl, rfl, fun i hi tail => ?_⟩
    refine dot_near _ _ _ (fun r => c.get (r :: tail)) _ fun r hr => ?_
    have e : (transpose A).get [i, r] = mono (fun j => s.get [i, j]) ((rows n d).getD r []) := by
      refine (h2.2 r _ (List.getElem?_eq_getElem hr) [i] ⟨hi, trivial⟩).trans ?_
      rw [List.getD_eq_getElem _ _ hr]; rfl
    rw [show [List.headD (i :: tail) 0, r] = [i, r] from rfl, e]
    exact key _ r hr
  · obtain ⟨A, h1, h2⟩ := cp_vec (transpose s) n d (by simp [transpose, hs]) hd
    have hdot : o.call s = dot (transpose A) c := by rw [Obj.call, ho, h1, hc]; rfl
    have hA : (transpose A).shape = [(rows n d).length] := by simp [transpose, h2.1]
    refine ⟨_, by rw [hdot, dot, hA, hcs]; simp only [if_true]; rfl, rfl, fun tail => ?_⟩
    refine dot_near _ _ _ (fun r => c.get (r :: tail)) _ fun r hr => ?_
    have e : (transpose A).get [r] = mono (fun j => s.get [j]) ((rows n d).getD r []) := by
      refine (h2.2 r _ (List.getElem?_eq_getElem hr) [] trivial).trans ?_
      rw [List.getD_eq_getElem _ _ hr]; rfl
    rw [e]
    exact key _ r hr

/-- C128, derivative: the partial derivative computed by `der` differs from the exact one of the polynomial with the same
coefficients by at most `(1 + u)^(N + 2 d + 1) - 1` times the sum of the absolute values of its terms. -/
theorem C128_derivative (R : Rounding) [Pow (Fl R) ℕ]
    (hpow : ∀ (x : Fl R) (n : ℕ), |(x ^ n).val - x.val ^ n| ≤ ((1 + R.u) ^ n - 1) * |x.val ^ n|)
    (n d k : ℕ) (hd : d ≤ 5) (hk : k < n) : ∃ E : List (List ℕ),
    E.Nodup ∧ (∀ e, e ∈ E ↔ e.length = n ∧ e.sum ≤ d) ∧
    ∀ (o : Obj (Fl R)) (c : NdArray (Fl R)) (t : List ℕ), o.d = d → o.coefs = some c → c.shape = E.length :: t →
      ∀ s : NdArray (Fl R),
      (∀ N, s.shape = [N, n] → ∃ Y, o.der s k = .ok Y ∧ Y.shape = N :: t ∧ ∀ i < N, ∀ tail,
        |(Y.get (i :: tail)).val -
            ∑ r ∈ Finset.range E.length, monomialDerAt (E.getD r []) k (exactRow n s i) * (c.get (r :: tail)).val| ≤
          ((1 + R.u) ^ (E.length + (2 * d + 1)) - 1) *
            ∑ r ∈ Finset.range E.length, |monomialDerAt (E.getD r []) k (exactRow n s i) * (c.get (r :: tail)).val|) ∧
      (s.shape = [n] → ∃ Y, o.der s k = .ok Y ∧ Y.shape = t ∧ ∀ tail,
        |(Y.get tail).val -
            ∑ r ∈ Finset.range E.length, monomialDerAt (E.getD r []) k (exactPoint n s) * (c.get (r :: tail)).val| ≤
          ((1 + R.u) ^ (E.length + (2 * d + 1)) - 1) *
            ∑ r ∈ Finset.range E.length, |monomialDerAt (E.getD r []) k (exactPoint n s) * (c.get (r :: tail)).val|) := by
  have hE : (expos n d).length = (rows n d).length := by simp [expos]
  refine ⟨expos n d, nodup_expos n d, mem_expos n d, fun o c t ho hc hcs s => ?_⟩
  rw [hE] at hcs ⊢
  have key : ∀ z : ℕ → Fl R, ∀ r < (rows n d).length,
      Near (grow R (2 * d)) (monomialDerAt ((expos n d).getD r []) k ((List.range n).map fun j => (z j).val))
        (dmono z k ((rows n d).getD r [])).val := by
    intro z r hr
    rw [← dmono_at (fun j => (z j).val) hk hr]
    exact (near_dmono hpow z k _).mono (grow_mono (by have := row_length (n := n) (d := d) (r := r); omega))
  refine ⟨fun N hs => ?_, fun hs => ?_⟩
  · obtain ⟨A, h1, h2⟩ := cpd_mat (transpose s) n N d k (by simp [transpose, hs]) hd hk
    have hdot : o.der s k = dot (transpose A) c := by rw [Obj.der, ho, h1, hc]; rfl
    have hA : (transpose A).shape = [N, (rows n d).length] := by simp [transpose, h2.1]
    refine ⟨_, by rw [hdot, dot, hA, hcs]; simp only [if_true]; rfl, rfl, fun i hi tail => ?_⟩
    refine dot_near _ _ _ (fun r => c.get (r :: tail)) _ fun r hr => ?_
    have e : (transpose A).get [i, r] = dmono (fun j => s.get [i, j]) k ((rows n d).getD r []) := by
      refine (h2.2 r _ (List.getElem?_eq_getElem hr) [i] ⟨hi, trivial⟩).trans ?_
      rw [List.getD_eq_getElem _ _ hr]; rfl
    rw [show [List.headD (i :: tail) 0, r] = [i, r] from rfl, e]
    exact key _ r hr
  · obtain ⟨A, h1, h2⟩ := cpd_vec (transpose s) n d k (by simp [transpose, hs]) hd hk
    have hdot : o.der s k = dot (transpose A) c := by rw [Obj.der, ho, h1, hc]; rfl
    have hA : (transpose A).shape = [(rows n d).length] := by simp [transpose, h2.1]
    refine ⟨_, by rw [hdot, dot, hA, hcs]; simp only [if_true]; rfl, rfl, fun tail => ?_⟩
    refine dot_near _ _ _ (fun r => c.get (r :: tail)) _ fun r hr => ?_
    have e : (transpose A).get [r] = dmono (fun j => s.get [j]) k ((rows n d).getD r []) := by
      refine (h2.2 r _ (List.getElem?_eq_getElem hr) [] trivial).trans ?_
      rw [List.getD_eq_getElem _ _ hr]; rfl
    rw [e]
    exact key _ r hr

/-- Doubles, two variables, degree 2, six coefficients, one point. -/
example : ∃ Y, (⟨2, 2, some ⟨[6], fun _ => 1⟩⟩ : Obj (Fl (.ofDigits 52))).call ⟨[2], fun _ => 1⟩ = .ok Y ∧ Y.shape = [] := by
  obtain ⟨E, h1, h2, h⟩ := C128_call (.ofDigits 52) 2 2 (by norm_num)
  have hl : E.length = 6 := by
    have : E.Perm (expos 2 2) := (List.perm_ext_iff_of_nodup h1 (nodup_expos 2 2)).2 fun e => by rw [h2, mem_expos]
    rw [this.length_eq]; rfl
  obtain ⟨Y, a, b, -⟩ := (h ⟨2, 2, some ⟨[6], fun _ => 1⟩⟩ ⟨[6], fun _ => 1⟩ [] rfl rfl (by rw [hl]) ⟨[2], fun _ => 1⟩).2 rfl
  exact ⟨Y, a, b⟩

end Interp.Props
