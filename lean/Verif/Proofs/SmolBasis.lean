import Verif.Model.Smolyak
import Verif.Proofs.FilterLine
import Verif.Proofs.SmolChain
import Mathlib.Data.List.GetD

/-!
# `cheby2n` and `build_B`

In any arithmetic.
-/

set_option linter.unusedSectionVars false
set_option linter.unusedSimpArgs false

namespace Interp.Smolyak
open Interp.CompletePoly (transpose dot rangeN)
open Interp.Filter (pyFor_cons pyFor_nil pyFor_append pyFor_map pyFor_range)

section
variable {K : Type} [Add K] [Sub K] [Mul K] [Div K] [Neg K] [Zero K] [One K] [NatCast K] [IntCast K]
  [LT K] [DecidableLT K] [Trig K]

/-- The three term recursion. -/
def chebRec (kind x : K) : ℕ → K
  | 0 => 1
  | 1 => x * kind
  | k + 2 => ((2 : ℕ) : K) * x * chebRec kind x (k + 1) - chebRec kind x k

theorem setHead_ok {A B : NdArray K} {n k : ℕ} {sh : List ℕ} (hA : A.shape = n :: sh) (hB : B.shape = sh)
    (hk : k < n) : ∃ A', setHead A (k : ℤ) B = .ok A' ∧ A'.shape = n :: sh ∧
      (∀ idx, A'.get (k :: idx) = B.get idx) ∧ ∀ j idx, j ≠ k → A'.get (j :: idx) = A.get (j :: idx) := by
  have hw : wrapIndex n (k : ℤ) = some k := by simp [wrapIndex, hk]
  refine ⟨_, by rw [setHead, hA]; simp only [hw, hB, if_true]; rfl, rfl, ?_, ?_⟩
  · intro idx; simp
  · intro j idx h; simp [h]

theorem getHead_ok {A : NdArray K} {n k : ℕ} {sh : List ℕ} (hA : A.shape = n :: sh) (hk : k < n) :
    getHead A (k : ℤ) = .ok ⟨sh, fun idx => A.get (k :: idx)⟩ := by
  have hw : wrapIndex n (k : ℤ) = some k := by simp [wrapIndex, hk]
  rw [getHead, hA]; simp only [hw]; rfl

theorem cheby2n_ok (x : NdArray K) (n : ℕ) (hn : 1 ≤ n) (kind : K) :
    ∃ T, cheby2n x n kind = .ok T ∧ T.shape = (n + 1) :: x.shape ∧
      ∀ k ≤ n, ∀ idx, T.get (k :: idx) = chebRec kind (x.get idx) k := by
  obtain ⟨R0, e0, s0, g0, o0⟩ := setHead_ok (A := NdArray.zeros ((n + 1) :: x.shape))
    (B := ⟨x.shape, fun _ => (1 : K)⟩) (k := 0) rfl rfl (by omega : 0 < n + 1)
  obtain ⟨R1, e1, s1, g1, o1⟩ := setHead_ok (A := R0) (B := ⟨x.shape, fun idx => x.get idx * kind⟩)
    (k := 1) s0 rfl (by omega)
  have hr : rangeN 2 (n + 1) = (List.range (n - 1)).map (· + 2) := by
    rw [rangeN, show n + 1 - 2 = n - 1 by omega, List.range'_eq_map_range]
    exact List.map_congr_left fun a _ => Nat.add_comm _ _
  obtain ⟨T, e, hs, h⟩ := pyFor_range (n - 1) (fun i results => do
      let r1 ← getHead results (((i + 2 : ℕ) : ℤ) - 1)
      let r2 ← getHead results (((i + 2 : ℕ) : ℤ) - 2)
      setHead results ((i + 2 : ℕ) : ℤ)
        ⟨x.shape, fun idx => ((2 : ℕ) : K) * x.get idx * r1.get idx - r2.get idx⟩)
    (fun t A => A.shape = (n + 1) :: x.shape ∧
      ∀ k ≤ t + 1, ∀ idx, A.get (k :: idx) = chebRec kind (x.get idx) k) R1
    ⟨s1, fun k hk idx => by
      rcases k with _ | _ | k
      · rw [o1 0 idx (by omega), g0]; rfl
      · rw [g1]; rfl
      · omega⟩
    (fun i hi A hA => by
      obtain ⟨A', e', s', g', o'⟩ := setHead_ok (A := A)
        (B := ⟨x.shape, fun idx => ((2 : ℕ) : K) * x.get idx * A.get ((i + 1) :: idx) - A.get (i :: idx)⟩)
        (k := i + 2) hA.1 rfl (by omega)
      refine ⟨A', ?_, s', ?_⟩
      · rw [show (((i + 2 : ℕ) : ℤ) - 1) = ((i + 1 : ℕ) : ℤ) by omega,
          show (((i + 2 : ℕ) : ℤ) - 2) = ((i : ℕ) : ℤ) by omega, getHead_ok hA.1 (by omega), ok_bind,
          getHead_ok hA.1 (by omega), ok_bind]
        exact e'
      · intro k hk idx
        rcases Nat.lt_or_ge k (i + 2) with h | h
        · rw [o' k idx (by omega), hA.2 k (by omega)]
        · have : k = i + 2 := by omega
          subst this
          rw [g']
          show ((2 : ℕ) : K) * x.get idx * A.get ((i + 1) :: idx) - A.get (i :: idx) = _
          rw [hA.2 (i + 1) (by omega), hA.2 i (by omega)]
          rfl)
  refine ⟨T, ?_, hs, fun k hk => h k (by omega)⟩
  rw [cheby2n]
  have e0' : setHead (NdArray.zeros ((n + 1) :: x.shape)) 0 ⟨x.shape, fun _ => (1 : K)⟩ = .ok R0 := e0
  have e1' : setHead R0 1 ⟨x.shape, fun idx => x.get idx * kind⟩ = .ok R1 := e1
  rw [e0', ok_bind, e1', ok_bind, hr, pyFor_map]
  exact e

/-- The row numbers of the factors of a basis function. -/
def degs (comb : List ℤ) : List ℕ := comb.map fun c => (c - 1).toNat

theorem factorRows_ok (Ts : NdArray K) (n d npts : ℕ) (hT : Ts.shape = [n, d, npts]) (comb : List ℤ)
    (hl : comb.length = d) (hc : ∀ c ∈ comb, 1 ≤ c ∧ c ≤ n) : factorRows Ts d comb = .ok (degs comb) := by
  rw [factorRows, mapM_ok _ (fun i => (comb.getD i 0 - 1).toNat)]
  · congr 1
    rw [degs]
    apply List.ext_getElem
    · simp [hl]
    · intro i h1 h2
      simp at h1 h2
      simp [List.getD, h2]
  · intro i hi
    have hi' : i < comb.length := by rw [hl]; exact List.mem_range.mp hi
    have hp : pyGet comb (i : ℤ) = .ok (comb.getD i 0) := by
      simp [pyGet, wrapIndex, hi', List.getD]
    have hm : comb.getD i 0 ∈ comb := by
      simp [List.getD, hi']
    have hb := hc _ hm
    have hw : wrapIndex (Ts.shape.getD 0 0) (comb.getD i 0 - 1) = some (comb.getD i 0 - 1).toNat := by
      rw [hT, wrapIndex, if_pos]
      simp only [List.getD_cons_zero]
      omega
    rw [hp, ok_bind, hw]
    simp only []
    rw [if_pos (by rw [hT]; simpa [hl] using hi')]
    rfl

/-- A row of a matrix. -/
def rowOf (A : NdArray K) (d r : ℕ) : List K := (List.range d).map fun i => A.get [r, i]

/-- Value of a basis function, as `build_B` computes it. -/
def basisVal (comb : List ℤ) (x : List K) : K :=
  reduceMul (List.zipWith (fun c t => chebRec 1 t (c - 1).toNat) comb x)

/-- Derivative of a Chebyshev polynomial, as `build_B` computes it. -/
def dChebRec (x : K) (k : ℕ) : K := (if k = 0 then 0 else chebRec ((2 : ℕ) : K) x (k - 1)) * ((k : ℕ) : K)

/-- Derivative of a basis function with respect to the variable number `i`, as `build_B` computes
it. -/
def basisDer (comb : List ℤ) (x : List K) (i : ℕ) : K :=
  reduceMul ((List.zipWith (fun c t => ((c - 1).toNat, t)) comb x).mapIdx fun k p =>
    if i ≠ k then chebRec 1 p.2 p.1 else dChebRec p.2 p.1)

theorem mapIdx_zip {α β γ : Type} (f : ℕ → α → γ) (g : α → β → γ) (l : List α) (x : ℕ → β) (d : ℕ)
    (hl : l.length = d) (h : ∀ i a, a ∈ l → i < d → f i a = g a (x i)) :
    l.mapIdx f = List.zipWith g l ((List.range d).map x) := by
  apply List.ext_getElem
  · simp [hl]
  · intro i h1 h2
    simp only [List.length_mapIdx] at h1
    simp only [List.getElem_mapIdx, List.getElem_zipWith, List.getElem_map, List.getElem_range]
    exact h i _ (List.getElem_mem h1) (by omega)

variable (d M npts : ℕ) (mu : Mu) (pts : NdArray K) (pinds : List (List ℤ))

theorem matB_get (T : NdArray K) (n : ℕ)
    (hlen : ∀ p ∈ pinds, p.length = d) (hbd : ∀ p ∈ pinds, ∀ c ∈ p, 1 ≤ c ∧ c ≤ (n : ℤ))
    (hg : ∀ k ≤ n, ∀ idx, T.get (k :: idx) = chebRec 1 ((transpose pts).get idx) k)
    (r j : ℕ) (hj : j < pinds.length) :
    (matB T npts (pinds.map degs)).get [r, j] = basisVal (pinds.getD j []) (rowOf pts d r) := by
  have hm : pinds.getD j [] ∈ pinds := by
    simp [List.getD, hj]
  have h1 : (pinds.map degs).getD j [] = degs (pinds.getD j []) := by
    simp [List.getD, hj]
  show reduceMul (((pinds.map degs).getD j []).mapIdx fun i k => T.get [k, i, r]) = _
  rw [h1, basisVal, rowOf, degs, mapIdx_zip _ (fun k t => chebRec 1 t k) _ (fun i => pts.get [r, i]) d
    (by rw [List.length_map, hlen _ hm])]
  · congr 1
    rw [List.zipWith_map_left]
  · intro i k hk _
    rw [List.mem_map] at hk
    obtain ⟨c, hc, rfl⟩ := hk
    have := hbd _ hm c hc
    rw [hg _ (by omega)]
    rfl

theorem buildB_ok (hd : 1 ≤ d) (hM : muMax mu = .ok (M : ℤ)) (hpts : pts.shape = [npts, d])
    (hlen : ∀ p ∈ pinds, p.length = d) (hbd : ∀ p ∈ pinds, ∀ c ∈ p, 1 ≤ c ∧ c ≤ (mSize (M + 1) : ℤ)) :
    ∃ B, buildB d mu pts (some pinds) = .ok B ∧ B.shape = [npts, pinds.length] ∧
      ∀ r j, j < pinds.length → B.get [r, j] = basisVal (pinds.getD j []) (rowOf pts d r) := by
  have hms : 1 ≤ mSize (M + 1) := lt_of_le_of_lt (Nat.zero_le _) (mSize_lt M)
  obtain ⟨T, e, s, g⟩ := cheby2n_ok (transpose pts) (mSize (M + 1)) hms (1 : K)
  have hs : T.shape = [mSize (M + 1) + 1, d, npts] := by rw [s]; simp [transpose, hpts]
  refine ⟨matB T npts (pinds.map degs), ?_, by simp [matB], ?_⟩
  · rw [buildB]
    have hmi : mI ((M : ℤ) + 1) = .ok (mSize (M + 1) : ℤ) := by exact_mod_cast mI_ok (M + 1)
    have hdims : dims2 pts = .ok (npts, d) := by rw [dims2, hpts]; rfl
    simp only [pindsOr, pure_eq_ok, ok_bind, hM, hmi, hdims, Int.toNat_natCast, e]
    rw [checkReduce, if_neg (by omega), pure_eq_ok, ok_bind,
      mapM_ok _ degs _ fun p hp => factorRows_ok T _ d npts hs p (hlen p hp) fun c hc => ?_]
    · rfl
    · have := hbd p hp c hc
      omega
  · exact fun r j => matB_get d npts pts pinds T _ hlen hbd g r j

theorem buildBDeriv_ok (hd : 1 ≤ d) (hM : muMax mu = .ok (M : ℤ)) (hpts : pts.shape = [npts, d])
    (hlen : ∀ p ∈ pinds, p.length = d) (hbd : ∀ p ∈ pinds, ∀ c ∈ p, 1 ≤ c ∧ c ≤ (mSize (M + 1) : ℤ)) :
    ∃ B D, buildB d mu pts (some pinds) = .ok B ∧ buildBDeriv d mu pts (some pinds) = .ok (B, D) ∧
      B.shape = [npts, pinds.length] ∧
      (∀ r j, j < pinds.length → B.get [r, j] = basisVal (pinds.getD j []) (rowOf pts d r)) ∧
      D.shape = [pinds.length, d, npts] ∧
      ∀ j i r, j < pinds.length → D.get [j, i, r] = basisDer (pinds.getD j []) (rowOf pts d r) i := by
  have hms : 1 ≤ mSize (M + 1) := lt_of_le_of_lt (Nat.zero_le _) (mSize_lt M)
  obtain ⟨T, e, s, g⟩ := cheby2n_ok (transpose pts) (mSize (M + 1)) hms (1 : K)
  obtain ⟨U, eU, sU, gU⟩ := cheby2n_ok (transpose pts) (mSize (M + 1)) hms ((2 : ℕ) : K)
  have hs : T.shape = [mSize (M + 1) + 1, d, npts] := by rw [s]; simp [transpose, hpts]
  have hmi : mI ((M : ℤ) + 1) = .ok (mSize (M + 1) : ℤ) := by exact_mod_cast mI_ok (M + 1)
  have hdims : dims2 pts = .ok (npts, d) := by rw [dims2, hpts]; rfl
  have hrows : pinds.mapM (factorRows T d) = .ok (pinds.map degs) := by
    refine mapM_ok _ degs _ fun p hp => factorRows_ok T _ d npts hs p (hlen p hp) fun c hc => ?_
    have := hbd p hp c hc
    omega
  have hurows : pinds.mapM (factorRows (scaledUs U (mSize (M + 1)) d npts) d) = .ok (pinds.map degs) := by
    refine mapM_ok _ degs _ fun p hp => factorRows_ok _ (mSize (M + 1) + 2) d npts rfl p (hlen p hp)
      fun c hc => ?_
    have := hbd p hp c hc
    omega
  refine ⟨matB T npts (pinds.map degs), matDerB T (scaledUs U (mSize (M + 1)) d npts) d npts
    (pinds.map degs) (pinds.map degs), ?_, ?_, by simp [matB],
    fun r j => matB_get d npts pts pinds T _ hlen hbd g r j, by simp [matDerB], ?_⟩
  · rw [buildB]
    simp only [pindsOr, pure_eq_ok, ok_bind, hM, hmi, hdims, Int.toNat_natCast, e]
    rw [checkReduce, if_neg (by omega), pure_eq_ok, ok_bind, hrows, ok_bind]
  · rw [buildBDeriv]
    simp only [pindsOr, pure_eq_ok, ok_bind, hM, hmi, hdims, Int.toNat_natCast, e, eU]
    rw [checkReduce, if_neg (by omega), pure_eq_ok, ok_bind, hrows]
    simp only [ok_bind, ne_eq, not_true_eq_false, if_false, hurows]
  · intro j i r hj
    have hm : pinds.getD j [] ∈ pinds := by simp [List.getD, hj]
    have h1 : (pinds.map degs).getD j [] = degs (pinds.getD j []) := by simp [List.getD, hj]
    show reduceMul (((pinds.map degs).getD j []).mapIdx fun k c => if i ≠ k then T.get [c, k, r]
      else (scaledUs U (mSize (M + 1)) d npts).get [((pinds.map degs).getD j []).getD k 0, k, r]) = _
    rw [h1, basisDer, rowOf]
    congr 1
    apply List.ext_getElem
    · simp only [degs, List.length_mapIdx, List.length_map, List.length_zipWith, List.length_range, hlen _ hm, min_self]
    · intro k h1 h2
      simp only [List.length_mapIdx, degs, List.length_map] at h1
      have hc := hbd _ hm _ (List.getElem_mem h1)
      have hk : k < d := by rw [← hlen _ hm]; exact h1
      simp only [List.getElem_mapIdx, List.getElem_zipWith, List.getElem_map, List.getElem_range, degs]
      have hgd : (List.map (fun c : ℤ => (c - 1).toNat) (pinds.getD j [])).getD k 0
          = ((pinds.getD j [])[k] - 1).toNat := by
        rw [List.getD_eq_getElem _ _ (by simpa using h1), List.getElem_map]
      rw [hgd]
      by_cases hik : i = k
      · simp only [hik, ne_eq, not_true_eq_false, if_false]
        simp only [scaledUs, dChebRec, List.headD_cons, List.tail_cons]
        by_cases h0 : ((pinds.getD j [])[k] - 1).toNat = 0
        · simp only [h0, if_true]
        · simp only [h0, if_false]
          rw [gU _ (by omega)]; rfl
      · simp only [ne_eq, hik, not_false_eq_true, if_true]
        rw [g _ (by omega)]
        rfl

end

end Interp.Smolyak
