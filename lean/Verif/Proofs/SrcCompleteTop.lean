import Verif.Proofs.SrcCompleteDer
import Verif.Proofs.SrcFilter

/-!
# The source texts of `complete_poly.py`: the functions that are called
-/

namespace Interp.Spec.PySrc
open Interp Interp.CompletePoly

set_option linter.unusedSectionVars false

variable {K : Type} [Add K] [Sub K] [Mul K] [Div K] [Neg K] [Zero K] [One K] [NatCast K] [IntCast K]
  [LT K] [DecidableLT K] [LE K] [DecidableLE K] [BEq K] [IntFloor K] [Interp.Smolyak.Trig K] [Pow K ℕ]

/-- The program of `complete_poly.py`. -/
def completeProg : Prog := ⟨[("n_complete", nCompleteFun), ("complete_polynomial", completePolynomialFun),
  ("_complete_poly_impl_vec", implVecFun), ("_complete_poly_impl", implMatFun), ("complete_polynomial_der", completePolynomialDerFun),
  ("_complete_poly_der_impl_vec", derImplVecFun), ("_complete_poly_der_impl", derImplMatFun)], [], [], .nil⟩

theorem complete_load : load [nCompleteText, completePolynomialText, implVecText, implMatText, completePolynomialDerText, derImplVecText,
    derImplMatText] [] [] = some completeProg := by
  simp [load, nComplete_parse, completePolynomial_parse, implVec_parse, implMat_parse, completePolynomialDer_parse, derImplVec_parse,
    derImplMat_parse]
  rfl

theorem cglob_n : (globalOf completeProg "n_complete" : M K _) = pure (.fn nCompleteFun) := by simp [globalOf, find, completeProg]
theorem cglob_p : (globalOf completeProg "complete_polynomial" : M K _) = pure (.fn completePolynomialFun) := by
  simp [globalOf, find, completeProg]
theorem cglob_v : (globalOf completeProg "_complete_poly_impl_vec" : M K _) = pure (.fn implVecFun) := by simp [globalOf, find, completeProg]
theorem cglob_m : (globalOf completeProg "_complete_poly_impl" : M K _) = pure (.fn implMatFun) := by simp [globalOf, find, completeProg]
theorem cglob_pd : (globalOf completeProg "complete_polynomial_der" : M K _) = pure (.fn completePolynomialDerFun) := by
  simp [globalOf, find, completeProg]
theorem cglob_dv : (globalOf completeProg "_complete_poly_der_impl_vec" : M K _) = pure (.fn derImplVecFun) := by
  simp [globalOf, find, completeProg]
theorem cglob_dm : (globalOf completeProg "_complete_poly_der_impl" : M K _) = pure (.fn derImplMatFun) := by
  simp [globalOf, find, completeProg]
theorem cglob_np : (globalOf completeProg "np" : M K _) = pure .np := by
  simp [globalOf, find, completeProg]; rfl

theorem complete_range (n : ℕ) : HasRange (world completeProg (n + 1) : World K) :=
  ⟨by simp [world, globalOf, find, completeProg]; rfl, fun args => rfl⟩

theorem nComplete_nat (n : ℕ) {d : ℤ} (hd : 0 ≤ d) : nComplete n d = ((nComplete n d).toNat : ℤ) := by
  obtain ⟨d, rfl⟩ := Int.eq_ofNat_of_zero_le hd
  rw [nComplete_eq]
  simp

theorem exec_assertMsg {W : World K} {env : Env K} (e m : Ex) (rest : Block) :
    exec W (.simple (.assert (.cons e m)) rest) env = eval W env e >>= fun v => lift (truth v) >>= fun c =>
      if c then exec W rest env else raise .assertion := by
  simp only [exec, execSimple, bind_assoc_M]
  congr 1; funext v; congr 1; funext c
  cases c <;> rfl

theorem viewShape_whole' (sh : List ℕ) : viewShape (whole sh.length) sh = sh := by
  induction sh with
  | nil => rfl
  | cons n sh ih => exact congrArg (n :: ·) ih

theorem free_whole (d : ℕ) : free (whole d) = d := by
  induction d with
  | zero => rfl
  | succ d ih => rw [whole, List.replicate_succ, free, List.filter_cons]; simp [free, whole] at ih ⊢

theorem size_run {r : ℕ} {pat : List (Option ℤ)} {A : NdArray K} {h : Heap K} (hr : h[r]? = some A) :
    getAttr (.arr r pat : Val K) "size" h = pure (.int ((viewShape pat A.shape).prod : ℕ), h) := by
  simp [getAttr, bind_run, getArr_run hr, pure_run]

theorem asarray_run (r : ℕ) (pat : List (Option ℤ)) : builtin .asarray [(.arr r pat : Val K)] = pure (.arr r pat) := rfl
theorem ndim_run (r : ℕ) (pat : List (Option ℤ)) : builtin .ndim [(.arr r pat : Val K)] = pure (.int (free pat)) := rfl

@[pysrc] theorem np_asarray : getAttr (.np : Val K) "asarray" = pure (.builtin .asarray) := rfl
@[pysrc] theorem np_ndim : getAttr (.np : Val K) "ndim" = pure (.builtin .ndim) := rfl

theorem zeros2_run (a b : ℕ) (h : Heap K) : builtin .zeros [(.tup [.int (a : ℤ), .int (b : ℤ)] : Val K)] h =
    pure (.arr h.length [none, none], h ++ [.zeros [a, b]]) := by
  have e := sizes_ints (K := K) [a, b]
  simp only [List.map_cons, List.map_nil] at e
  simp only [builtin, e]
  rfl

theorem exec_valueError {W : World K} {env : Env K} (m : String) (rest : Block) :
    exec W (.simple (.raise (.call (.name "ValueError") (.cons (.str m) .nil))) rest) env = raise .value := by
  simp only [exec, execSimple]
  rfl

theorem completePolynomial_ok (z : NdArray K) {d : ℤ} (h0 : 0 ≤ d) (h5 : d ≤ 5) : completePolynomial z d = match z.shape with
  | [nvar] => implVec z d (NdArray.zeros [(nComplete nvar d).toNat])
  | [nvar, nobs] => implMat z d (NdArray.zeros [(nComplete nvar d).toNat, nobs])
  | _ => throw .value := by
  simp only [completePolynomial]
  rw [if_neg (by omega), if_neg (by omega)]
  rfl

theorem polynomial_run (L : LitLaws K) (n : ℕ) {h0 : Heap K} {rz : ℕ} {z : NdArray K} (hz : h0[rz]? = some z) (d : ℤ) :
    Sim (completePolynomial z d) (callN completeProg (n + 3) (.fn completePolynomialFun) [.arr rz (whole z.shape.length), .int d] h0)
      (fun A o => o = (.arr h0.length (whole z.shape.length), h0 ++ [A])) := by
  have hW := complete_range (K := K) n
  have hlen : rz < h0.length := by
    by_contra hc
    rw [List.getElem?_eq_none (by omega)] at hz
    cases hz
  rw [callN_fn, runFun]
  pysimp [completePolynomialFun, completePolynomialBody, exec_assertMsg, look, Nat.cast_zero]
  by_cases h0d : 0 ≤ d
  swap
  · simp only [completePolynomial, h0d, not_false_eq_true, decide_false, if_false, Bool.false_eq_true, raise_bind, ge_iff_le, if_true]
    exact rfl
  by_cases h5 : 5 < d
  · simp only [completePolynomial, h0d, h5, gt_iff_lt, Nat.cast_ofNat, decide_true, if_true, exec_valueError, raise_bind, ge_iff_le, not_true_eq_false, if_false]
    exact rfl
  rw [completePolynomial_ok z h0d (by omega)]
  simp only [h0d, h5, decide_true, if_true, decide_false, Nat.cast_ofNat, Bool.false_eq_true, if_false]
  pysimp [cglob_np, look, asarray_run, ndim_run, free_whole, cglob_n, cglob_v, cglob_m]
  rcases hsh : z.shape with _ | ⟨nvar, _ | ⟨nobs, _ | ⟨k, sh⟩⟩⟩
  · rw [if_neg (by simp), bind_assoc_M, step (shape_run hz), hsh]
    simp only [assign, assigns, whole, viewShape, List.map_nil, List.length_nil, List.replicate_zero, raise_bind]
    exact rfl
  · rw [if_pos (by simp), bind_assoc_M, step (size_run hz), hsh]
    simp only [List.length_cons, List.length_nil, whole, List.replicate_succ, List.replicate_zero, viewShape, List.prod_cons, List.prod_nil,
      mul_one]
    rw [bind_assoc_M, callN_fn, step (nComplete_run (world completeProg (n + 1)) hW nvar d h0), nComplete_nat nvar h0d, Int.toNat_natCast,
      bind_assoc_M, step (zeros1_run _ _), bind_assoc_M, callN_fn]
    refine Sim.bind_right (implVec_run L hW (ro := h0.length) (rz := rz) (by simp) (by rw [List.getElem?_append_left hlen, hz]) (by omega) hsh d) ?_
    rintro A _ rfl
    pysimp [look]
    rw [List.set_append_right _ _ (by omega), Nat.sub_self]
    exact rfl
  · rw [if_neg (by simp), bind_assoc_M, step (shape_run hz), hsh]
    simp only [List.length_cons, List.length_nil, whole, List.replicate_succ, List.replicate_zero, viewShape, List.map_cons, List.map_nil]
    pysimp [look]
    rw [callN_fn, step (nComplete_run (world completeProg (n + 1)) hW nvar d h0), nComplete_nat nvar h0d, Int.toNat_natCast, step (zeros2_run _ _ _), callN_fn]
    refine Sim.bind_right (implMat_run L hW (ro := h0.length) (rz := rz) (by simp) (by rw [List.getElem?_append_left hlen, hz]) (by omega) hsh d) ?_
    rintro A _ rfl
    pysimp [look]
    rw [List.set_append_right _ _ (by omega), Nat.sub_self]
    exact rfl
  · rw [if_neg (by simp; omega), bind_assoc_M, step (shape_run hz), hsh]
    simp only [List.length_cons, whole, List.replicate_succ, viewShape, List.map_cons, assign, assigns, pure_bind_M, raise_bind]
    exact rfl

theorem completePolynomialDer_ok (z : NdArray K) {d der : ℤ} (h0 : 0 ≤ d) (hder : 0 ≤ der) (h5 : d ≤ 5) : completePolynomialDer z d der = match z.shape with
  | [nvar] => if ¬ der < nvar then throw .assertion else derImplVec z d der.toNat (NdArray.zeros [(nComplete nvar d).toNat])
  | [nvar, nobs] => if ¬ der < nvar then throw .assertion else derImplMat z d der.toNat (NdArray.zeros [(nComplete nvar d).toNat, nobs])
  | _ => throw .value := by
  simp only [completePolynomialDer]
  rw [if_neg (by omega), if_neg (by omega), if_neg (by omega)]
  rfl

theorem polynomialDer_run (L : LitLaws K) (hpow : ∀ (x : K) (n : ℕ), fpow x n = x ^ n) (n : ℕ) {h0 : Heap K} {rz : ℕ} {z : NdArray K} (hz : h0[rz]? = some z) (d der : ℤ) :
    Sim (completePolynomialDer z d der) (callN completeProg (n + 3) (.fn completePolynomialDerFun) [.arr rz (whole z.shape.length), .int d, .int der] h0)
      (fun A o => o = (.arr h0.length (whole z.shape.length), h0 ++ [A])) := by
  have hW := complete_range (K := K) n
  have hlen : rz < h0.length := by
    by_contra hc
    rw [List.getElem?_eq_none (by omega)] at hz
    cases hz
  rw [callN_fn, runFun]
  pysimp [completePolynomialDerFun, completePolynomialDerBody, exec_assertMsg, look, Nat.cast_zero]
  by_cases h0d : 0 ≤ d
  swap
  · simp only [completePolynomialDer, h0d, not_false_eq_true, decide_false, if_false, Bool.false_eq_true, raise_bind, ge_iff_le, if_true]
    exact rfl
  by_cases h0e : 0 ≤ der
  swap
  · simp only [completePolynomialDer, h0d, h0e, not_false_eq_true, decide_true, not_true_eq_false, decide_false, if_false, Bool.false_eq_true, raise_bind, ge_iff_le, if_true]
    exact rfl
  by_cases h5 : 5 < d
  · simp only [completePolynomialDer, h0d, h0e, h5, gt_iff_lt, Nat.cast_ofNat, decide_true, if_true, exec_valueError, raise_bind, ge_iff_le, not_true_eq_false, if_false]
    exact rfl
  rw [completePolynomialDer_ok z h0d h0e (by omega)]
  simp only [h0d, h0e, h5, decide_true, if_true, decide_false, Nat.cast_ofNat, Bool.false_eq_true, if_false]
  pysimp [cglob_np, look, asarray_run, ndim_run, free_whole, cglob_n, cglob_dv, cglob_dm]
  rcases hsh : z.shape with _ | ⟨nvar, _ | ⟨nobs, _ | ⟨k, sh⟩⟩⟩
  · rw [if_neg (by simp), bind_assoc_M, step (shape_run hz), hsh]
    simp only [assign, assigns, whole, viewShape, List.map_nil, List.length_nil, List.replicate_zero, raise_bind]
    exact rfl
  · rw [if_pos (by simp), bind_assoc_M, step (size_run hz), hsh]
    simp only [List.length_cons, List.length_nil, whole, List.replicate_succ, List.replicate_zero, viewShape, List.prod_cons, List.prod_nil,
      mul_one]
    by_cases hn : der < nvar
    swap
    · rw [if_pos hn]
      pysimp [exec_assertMsg, look, intCmp, hn, decide_false, Bool.false_eq_true]
      exact rfl
    rw [if_neg (by simpa using hn)]
    pysimp [exec_assertMsg, look, intCmp, hn, decide_true, cglob_np, cglob_n, cglob_dv, cglob_dm]
    obtain ⟨e, rfl⟩ := Int.eq_ofNat_of_zero_le h0e
    rw [Int.toNat_natCast]
    rw [callN_fn, step (nComplete_run (world completeProg (n + 1)) hW nvar d h0), nComplete_nat nvar h0d, Int.toNat_natCast,
      step (zeros1_run _ _), callN_fn]
    refine Sim.bind_right (derImplVec_run L hpow hW (ro := h0.length) (rz := rz) (by simp) (by rw [List.getElem?_append_left hlen, hz]) (by omega) hsh d e) ?_
    rintro A _ rfl
    pysimp [look]
    rw [List.set_append_right _ _ (by omega), Nat.sub_self]
    exact rfl
  · rw [if_neg (by simp), bind_assoc_M, step (shape_run hz), hsh]
    simp only [List.length_cons, List.length_nil, whole, List.replicate_succ, List.replicate_zero, viewShape, List.map_cons, List.map_nil]
    pysimp [look]
    by_cases hn : der < nvar
    swap
    · rw [if_pos hn]
      pysimp [exec_assertMsg, look, intCmp, hn, decide_false, Bool.false_eq_true]
      exact rfl
    rw [if_neg (by simpa using hn)]
    pysimp [exec_assertMsg, look, intCmp, hn, decide_true, cglob_np, cglob_n, cglob_dv, cglob_dm]
    obtain ⟨e, rfl⟩ := Int.eq_ofNat_of_zero_le h0e
    rw [Int.toNat_natCast]
    rw [callN_fn, step (nComplete_run (world completeProg (n + 1)) hW nvar d h0), nComplete_nat nvar h0d, Int.toNat_natCast, step (zeros2_run _ _ _), callN_fn]
    refine Sim.bind_right (derImplMat_run L hpow hW (ro := h0.length) (rz := rz) (by simp) (by rw [List.getElem?_append_left hlen, hz]) (by omega) hsh d e) ?_
    rintro A _ rfl
    pysimp [look]
    rw [List.set_append_right _ _ (by omega), Nat.sub_self]
    exact rfl
  · rw [if_neg (by simp; omega), bind_assoc_M, step (shape_run hz), hsh]
    simp only [List.length_cons, whole, List.replicate_succ, viewShape, List.map_cons, assign, assigns, pure_bind_M, raise_bind]
    exact rfl

end Interp.Spec.PySrc
