import Verif.Proofs.SrcBSplines
import Verif.Props.BSplines
import Verif.Props.SourceFilter

/-!
# What the source text of `basis_splines.py` computes: C110
-/

namespace Interp.Props
open Interp Interp.Spec.PySrc Interp.BSplines

section
variable {K : Type} [Add K] [Sub K] [Mul K] [Div K] [Neg K] [Zero K] [One K] [NatCast K] [IntCast K]
  [LT K] [DecidableLT K] [LE K] [DecidableLE K] [BEq K] [IntFloor K] [Interp.Smolyak.Trig K]

/-- The texts of `basis_splines.py` L1-14 as a program. -/
def bsplinesFile : Option Prog := load [b0Text, bText] [] []

/-- C110. `B0(u, i, x)`. -/
theorem C110_B0 (L : LitLaws K) : ∃ P, bsplinesFile = some P ∧ ∀ n ≥ 1, ∀ (u : List K) (i : ℤ) (x : K) (h : Heap K),
    callName P n "B0" [.list (u.map .flt), .int i, .flt x] h = (B0 u i x).map fun v => (.flt v, h) := by
  refine ⟨_, bsplines_load, fun n hn u i x h => ?_⟩
  obtain ⟨n, rfl⟩ : ∃ m, n = m + 1 := ⟨n - 1, by omega⟩
  rw [callName, glob_B0, pure_bind, callN_fn, b0_run L, lift_run]
  rcases B0 u i x <;> rfl

/-- C110. `B(p, u, i, x)`: the same result, the same exception; `p + 2` nested calls suffice. -/
theorem C110_B (L : LitLaws K) : ∃ P, bsplinesFile = some P ∧ ∀ (p : ℕ), ∀ n ≥ p + 2, ∀ (u : List K) (i : ℤ) (x : K) (h : Heap K),
    callName P n "B" [.int (p : ℤ), .list (u.map .flt), .int i, .flt x] h = (B p u i x).map fun v => (.flt v, h) := by
  refine ⟨_, bsplines_load, fun p n hn u i x h => ?_⟩
  obtain ⟨n, rfl⟩ : ∃ m, n = m + p + 2 := ⟨n - p - 2, by omega⟩
  rw [callName, glob_B, pure_bind, callN_fn, b_run L, lift_run]
  rcases B p u i x <;> rfl

/-- C110. `B(p, u, i, x)` with a negative degree: no number of nested calls gives a result. -/
theorem C110_B_negative_degree (L : LitLaws K) : ∃ P, bsplinesFile = some P ∧
    ∀ (n : ℕ) (p : ℤ), p < 0 → ∀ (u : List K) (i : ℤ) (x : K) (h : Heap K),
      ∃ e, callName P n "B" [.int p, .list (u.map .flt), .int i, .flt x] h = .error e := by
  refine ⟨_, bsplines_load, fun n p hp u i x h => ?_⟩
  rw [callName, glob_B, pure_bind]
  exact b_negative L n p hp u i x h

end

section
variable {F : Type} [Field F] [LinearOrder F] [IsStrictOrderedRing F] [FloorRing F] [Interp.Smolyak.Trig F]

/-- C110. The text gives basis functions: in exact arithmetic and for increasing knots the results are non-negative, zero outside of
the knots that the function uses, and add up to one between the knots number `p` and `m`. -/
theorem C110_B_basis : ∃ P, bsplinesFile = some P ∧ ∀ (p m : ℕ) (u : List F) (hu : u.Pairwise (· < ·))
    (hm : u.length = m + p + 1) (x : F), ∀ n ≥ p + 2, ∀ h : Heap F, ∃ v : ℕ → F,
      (∀ i < m, callName P n "B" [.int (p : ℤ), .list (u.map .flt), .int (i : ℤ), .flt x] h = .ok (.flt (v i), h)) ∧
      (∀ i (_ : i < m), 0 ≤ v i ∧ (x < u[i] ∨ u[i + p + 1] ≤ x → v i = 0)) ∧
      (u[p] ≤ x → x < u[m] → ∑ i ∈ Finset.range m, v i = 1) := by
  obtain ⟨P, hP, H⟩ := C110_B (K := F) litLaws_field
  refine ⟨P, hP, fun p m u hu hm x n hn h => ?_⟩
  have hv : ∀ i : ℕ, ∃ v : F, i < m → B p u i x = .ok v := fun i => by
    by_cases hi : i < m
    · obtain ⟨v, h1, _⟩ := C44_bspline_nonneg_support p u hu i (by omega) x
      exact ⟨v, fun _ => h1⟩
    · exact ⟨0, fun h => absurd h hi⟩
  choose v hv using hv
  refine ⟨v, fun i hi => ?_, fun i hi => ?_, fun h1 h2 => ?_⟩
  · exact (H p n hn u i x h).trans (congrArg (Except.map fun v => (Val.flt v, h)) (hv i hi))
  · obtain ⟨w, e1, e2, e3⟩ := C44_bspline_nonneg_support p u hu i (by omega) x
    obtain rfl : w = v i := Except.ok.inj (e1.symm.trans (hv i hi))
    exact ⟨e2, e3⟩
  · obtain ⟨w, e1, e2⟩ := C45_bspline_partition p m u hu hm x h1 h2
    rw [← e2]
    refine Finset.sum_congr rfl fun i hi => ?_
    exact Except.ok.inj ((hv i (Finset.mem_range.mp hi)).symm.trans (e1 i (Finset.mem_range.mp hi)))

end

/-- The hypotheses can be met: the quadratic B-spline in the middle of its knots. -/
example : ∃ P, bsplinesFile = some P ∧
    callName P 4 "B" [.int 2, .list (([0, 1, 2, 3] : List ℚ).map .flt), .int 0, .flt (3 / 2 : ℚ)] [] = .ok (.flt (3 / 4), []) := by
  obtain ⟨P, hP, H⟩ := C110_B litLaws_rat
  refine ⟨P, hP, ?_⟩
  rw [show (2 : ℤ) = ((2 : ℕ) : ℤ) from rfl, H 2 4 le_rfl]
  have : B 2 ([0, 1, 2, 3] : List ℚ) 0 (3 / 2) = .ok (3 / 4) := by
    norm_num [B, B0, pyIndex, wrapIndex, pyDiv, show Int.toNat 2 = 2 from rfl, show Int.toNat 3 = 3 from rfl]
  rw [this]
  rfl

end Interp.Props
