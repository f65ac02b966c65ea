import Verif.Model.Chebyvalto
import Verif.Proofs.SmolBasis
import Verif.Proofs.SmolPoly
import Verif.Proofs.SmolGrad

/-!
# `chebyvalto`: C82
-/

set_option linter.unusedSectionVars false

namespace Interp.Props
open Interp.Smolyak
open Interp.CompletePoly (rangeN)
open Interp.Filter (pyFor_map pyFor_range)

section
variable {K : Type} [Add K] [Sub K] [Mul K] [Div K] [Neg K] [Zero K] [One K] [NatCast K] [IntCast K]
  [LT K] [DecidableLT K] [Trig K]

/-- The block of columns number `q` (of width `col`) of the matrix `A` is the matrix `B`. -/
def BlockIs (A : NdArray K) (row col q : ℕ) (B : ℕ → ℕ → K) : Prop :=
  ∀ r < row, ∀ c < col, A.get [r, col * q + c] = B r c

theorem sliceBounds_block {col N q : ℕ} (h : col * (q + 1) ≤ N) :
    sliceBounds N (col * q) (col * (q + 1)) = (col * q, col * (q + 1)) := by
  have : col * q ≤ col * (q + 1) := Nat.mul_le_mul_left _ (Nat.le_succ _)
  rw [sliceBounds, Nat.min_eq_left (this.trans h), Nat.min_eq_left h, Nat.max_eq_right this]

theorem getCols_block {A : NdArray K} {row col N q : ℕ} {B : ℕ → ℕ → K} (hA : A.shape = [row, N])
    (h : col * (q + 1) ≤ N) (hB : BlockIs A row col q B) :
    (getCols A (col * q) (col * (q + 1))).shape = [row, col] ∧
      ∀ r < row, ∀ c < col, (getCols A (col * q) (col * (q + 1))).get [r, c] = B r c := by
  have e : sliceBounds (A.shape.getD 1 0) (col * q) (col * (q + 1)) = (col * q, col * (q + 1)) := by
    rw [hA]; exact sliceBounds_block h
  refine ⟨?_, fun r hr c hc => ?_⟩
  · simp only [getCols, e]
    simp [hA, Nat.mul_succ]
  · simp only [getCols, e]
    exact hB r hr c hc

theorem matOp_ok (f : K → K → K) {A B : NdArray K} {row col : ℕ} (hA : A.shape = [row, col])
    (hB : B.shape = [row, col]) : ∃ D, matOp f A B = .ok D ∧ D.shape = [row, col] ∧
      ∀ r < row, ∀ c < col, D.get [r, c] = f (A.get [r, c]) (B.get [r, c]) := by
  refine ⟨_, by simp only [matOp, hA, hB]; simp; rfl, ?_, fun r _ c hc => ?_⟩
  · simp
  · by_cases h1 : col = 1
    · have : c = 0 := by omega
      simp [h1, this]
    · simp [h1]

theorem setCols_block {A D : NdArray K} {row col N q : ℕ} (hA : A.shape = [row, N])
    (h : col * (q + 1) ≤ N) (hD : D.shape = [row, col]) :
    ∃ A', setCols A (col * q) (col * (q + 1)) D = .ok A' ∧ A'.shape = [row, N] ∧
      BlockIs A' row col q (fun r c => D.get [r, c]) ∧
      ∀ q' ≠ q, ∀ B, BlockIs A row col q' B → BlockIs A' row col q' B := by
  have e : sliceBounds (A.shape.getD 1 0) (col * q) (col * (q + 1)) = (col * q, col * (q + 1)) := by
    rw [hA]; exact sliceBounds_block h
  refine ⟨_, by simp only [setCols, e, hD]; simp [Nat.mul_succ]; rfl, by simp [hA], ?_, ?_⟩
  · intro r hr c hc
    have : col * q + c < col * q + col := by omega
    by_cases h1 : col = 1
    · have h0 : c = 0 := by omega
      subst h1
      subst h0
      simp
    · simp [h1, hc]
  · intro q' hq B hB r hr c hc
    have hne : ¬ (col * q ≤ col * q' + c ∧ col * q' + c < col * q + col) := by
      rintro ⟨h1, h2⟩
      apply hq
      have a1 : col * q < col * (q' + 1) := by rw [Nat.mul_succ]; omega
      have a2 : col * q' < col * (q + 1) := by rw [Nat.mul_succ]; omega
      have := Nat.lt_of_mul_lt_mul_left a1
      have := Nat.lt_of_mul_lt_mul_left a2
      omega
    rw [← hB r hr c hc]
    exact if_neg hne

/-- In any arithmetic: block `q` of the result contains term `q + 1` of the three term recursion. -/
theorem chebyvalto_ok (x : NdArray K) (row col n : ℕ) (hx : x.shape = [row, col]) (hn : 3 ≤ n) (kind : K) :
    ∃ A, chebyvalto x n kind = .ok A ∧ A.shape = [row, col * (n - 1)] ∧
      ∀ q < n - 1, BlockIs A row col q (fun r c => chebRec kind (x.get [r, c]) (q + 1)) := by
  have hN : ((col : ℤ) * ((n : ℤ) - 1)) = ((col * (n - 1) : ℕ) : ℤ) := by
    push_cast [Nat.cast_sub (show 1 ≤ n by omega)]; ring
  have hle : ∀ q, q < n - 1 → col * (q + 1) ≤ col * (n - 1) := fun q hq => Nat.mul_le_mul_left _ (by omega)
  obtain ⟨A1, e1, s1, b1, -⟩ := setCols_block (A := NdArray.zeros [row, col * (n - 1)])
    (D := ⟨[row, col], fun idx => x.get idx * kind⟩) (row := row) (q := 0) rfl (hle 0 (by omega)) rfl
  obtain ⟨gs1, gg1⟩ := getCols_block s1 (hle 0 (by omega)) b1
  obtain ⟨T1, e2, s2, b2⟩ := matOp_ok (· * ·)
    (A := ⟨[row, col], fun idx => ((2 : ℕ) : K) * x.get idx⟩) rfl gs1
  obtain ⟨T2, e3, s3, b3⟩ := matOp_ok (· - ·) (B := ⟨[row, col], fun _ => (1 : K)⟩) s2 rfl
  obtain ⟨A2, e4, s4, b4, o4⟩ := setCols_block (q := 1) s1 (hle 1 (by omega)) s3
  have hr : rangeN 3 n = (List.range (n - 3)).map (· + 3) := by
    rw [rangeN, List.range'_eq_map_range]
    exact List.map_congr_left fun a _ => Nat.add_comm _ _
  obtain ⟨A, e, hs, hb⟩ := pyFor_range (n - 3) (fun i ret => do
      let t ← matOp (· * ·) (⟨[row, col], fun idx => ((2 : ℕ) : K) * x.get idx⟩ : NdArray K)
        (getCols ret (col * (i + 3 - 2)) (col * (i + 3 - 1)))
      let t ← matOp (· - ·) t (getCols ret (col * (i + 3 - 3)) (col * (i + 3 - 2)))
      setCols ret (col * (i + 3 - 1)) (col * (i + 3)) t)
    (fun t A => A.shape = [row, col * (n - 1)] ∧
      ∀ q < t + 2, BlockIs A row col q (fun r c => chebRec kind (x.get [r, c]) (q + 1))) A2
    ⟨s4, fun q hq => by
      rcases q with _ | _ | q
      · exact o4 0 (by omega) _ b1
      · intro r hrr c hc
        refine (b4 r hrr c hc).trans ?_
        simp only []
        rw [b3 r hrr c hc, b2 r hrr c hc, gg1 r hrr c hc]
        rfl
      · omega⟩
    (fun i hi A ⟨hs, hb⟩ => by
      obtain ⟨u1, u2⟩ := getCols_block hs (hle (i + 1) (by omega)) (hb (i + 1) (by omega))
      obtain ⟨v1, v2⟩ := getCols_block hs (hle i (by omega)) (hb i (by omega))
      obtain ⟨P, f1, p1, p2⟩ := matOp_ok (· * ·)
        (A := ⟨[row, col], fun idx => ((2 : ℕ) : K) * x.get idx⟩) rfl u1
      obtain ⟨Q, f2, q1, q2⟩ := matOp_ok (· - ·) p1 v1
      obtain ⟨A', f3, w1, w2, w3⟩ := setCols_block (q := i + 2) hs (hle (i + 2) (by omega)) q1
      refine ⟨A', ?_, w1, fun q hq => ?_⟩
      · rw [show i + 3 - 2 = i + 1 by omega, show i + 3 - 1 = i + 1 + 1 by omega,
          show i + 3 - 3 = i by omega, f1, ok_bind, f2, ok_bind]
        exact f3
      · rcases Nat.lt_or_ge q (i + 2) with h | h
        · exact w3 q (by omega) _ (hb q h)
        · have : q = i + 2 := by omega
          subst this
          intro r hrr c hc
          refine (w2 r hrr c hc).trans ?_
          simp only []
          rw [q2 r hrr c hc, p2 r hrr c hc, u2 r hrr c hc, v2 r hrr c hc]
          rfl)
  refine ⟨A, ?_, hs, fun q hq => hb q (by omega)⟩
  rw [Nat.mul_zero, Nat.zero_add, Nat.mul_one] at e1 e2
  have e4' : setCols A1 col (2 * col) T2 = .ok A2 := by
    rw [← e4]; congr 1 <;> ring
  simp only [chebyvalto, hx, hN, Int.toNat_natCast, hr, pyFor_map]
  rw [if_neg (by omega), e1, ok_bind, e2, ok_bind, e3, ok_bind, e4', ok_bind]
  exact e

end

/-- C82. For `n >= 3`, `chebyvalto(x, n)` places side by side the polynomials `T_1, ..., T_{n-1}` at the
entries of `x`, and `U_1, ..., U_{n-1}` with `kind=2`.  Missing: the documentation announces
`T_n` as the last one (see `C82_last_missing_fails`), and smaller `n`. -/
theorem C82_chebyvalto_partial (x : NdArray ℝ) (row col n : ℕ) (hx : x.shape = [row, col]) (hn : 3 ≤ n) :
    (∃ A, chebyvalto x n 1 = .ok A ∧ A.shape = [row, col * (n - 1)] ∧
      ∀ k, 1 ≤ k → k ≤ n - 1 → ∀ r < row, ∀ c < col,
        A.get [r, col * (k - 1) + c] = (Polynomial.Chebyshev.T ℝ k).eval (x.get [r, c])) ∧
    ∃ A, chebyvalto x n 2 = .ok A ∧ A.shape = [row, col * (n - 1)] ∧
      ∀ k, 1 ≤ k → k ≤ n - 1 → ∀ r < row, ∀ c < col,
        A.get [r, col * (k - 1) + c] = (Polynomial.Chebyshev.U ℝ k).eval (x.get [r, c]) := by
  constructor
  · obtain ⟨A, e, s, b⟩ := chebyvalto_ok x row col n hx hn 1
    refine ⟨A, e, s, fun k h1 h2 r hr c hc => ?_⟩
    obtain ⟨q, rfl⟩ : ∃ q, k = q + 1 := ⟨k - 1, by omega⟩
    rw [Nat.add_sub_cancel, b q (by omega) r hr c hc]
    exact chebRec_T _ _
  · obtain ⟨A, e, s, b⟩ := chebyvalto_ok x row col n hx hn ((2 : ℕ) : ℝ)
    refine ⟨A, by simpa using e, s, fun k h1 h2 r hr c hc => ?_⟩
    obtain ⟨q, rfl⟩ : ∃ q, k = q + 1 := ⟨k - 1, by omega⟩
    rw [Nat.add_sub_cancel, b q (by omega) r hr c hc]
    exact chebRec_U _ _

/-- C82 fails: there is never a block for `T_n`; for `n = 2` and two columns or more the call
raises `ValueError`. -/
theorem C82_last_missing_fails (x : NdArray ℝ) (row col : ℕ) (hx : x.shape = [row, col]) (hc : 2 ≤ col) :
    (∀ n : ℕ, 3 ≤ n → ∃ A, chebyvalto x n 1 = .ok A ∧ A.shape ≠ [row, col * n]) ∧
      chebyvalto x 2 1 = .error .value := by
  constructor
  · intro n hn
    obtain ⟨A, e, s, -⟩ := chebyvalto_ok x row col n hx hn 1
    refine ⟨A, e, ?_⟩
    rw [s]
    intro h
    have h' : col * (n - 1) = col * n := by simpa using h
    have := Nat.eq_of_mul_eq_mul_left (by omega) h'
    omega
  · have hb : sliceBounds col col (2 * col) = (col, col) := by
      simp [sliceBounds]
    have hneg : ¬ ((col : ℤ) * (2 - 1) < 0) := by omega
    have hN : ((col : ℤ) * (2 - 1)).toNat = col := by omega
    obtain ⟨A1, e1, s1, b1, -⟩ := setCols_block (A := NdArray.zeros [row, col])
      (D := ⟨[row, col], fun idx => x.get idx * 1⟩) (row := row) (q := 0) rfl (by omega) rfl
    obtain ⟨gs1, gg1⟩ := getCols_block s1 (by omega) b1
    obtain ⟨T1, e2, s2, -⟩ := matOp_ok (· * ·)
      (A := ⟨[row, col], fun idx => ((2 : ℕ) : ℝ) * x.get idx⟩) rfl gs1
    obtain ⟨T2, e3, s3, -⟩ := matOp_ok (· - ·) (B := ⟨[row, col], fun _ => (1 : ℝ)⟩) s2 rfl
    have e4 : setCols A1 col (2 * col) T2 = .error .value := by
      simp only [setCols, s1, s3]
      simp only [List.getD_cons_succ, List.getD_cons_zero, hb]
      rw [if_neg (by omega)]
      rfl
    rw [Nat.mul_zero, Nat.zero_add, Nat.mul_one] at e1 e2
    simp only [chebyvalto, hx, hN]
    rw [if_neg hneg, e1, ok_bind, e2, ok_bind, e3, ok_bind, e4]
    rfl

/-- C82 applied. -/
example : ∃ A, chebyvalto (⟨[1, 2], fun idx => if idx.getD 1 0 = 0 then 2 else 3⟩ : NdArray ℝ) 3 1 = .ok A ∧
    A.get [0, 2] = 7 ∧ A.get [0, 3] = 17 := by
  obtain ⟨⟨A, e, -, h⟩, -⟩ := C82_chebyvalto_partial
    (⟨[1, 2], fun idx => if idx.getD 1 0 = 0 then 2 else 3⟩ : NdArray ℝ) 1 2 3 rfl le_rfl
  refine ⟨A, e, ?_, ?_⟩
  · have := h 2 (by norm_num) (by norm_num) 0 (by norm_num) 0 (by norm_num)
    norm_num [Polynomial.Chebyshev.T_two] at this
    exact this
  · have := h 2 (by norm_num) (by norm_num) 0 (by norm_num) 1 (by norm_num)
    norm_num [Polynomial.Chebyshev.T_two] at this
    exact this

end Interp.Props
