import Verif.Model.Arrays
import Verif.Proofs.ExceptLemmas
import Mathlib.Algebra.BigOperators.Group.List.Basic
import Mathlib.Tactic.Ring

/-! Row-major positions. -/

namespace Interp

theorem ravel_lt : ∀ {sh idx : List ℕ}, InShape sh idx → ravel sh idx < sh.prod
  | [], [], _ => by simp [ravel]
  | [], _ :: _, h => h.elim
  | _ :: _, [], h => h.elim
  | n :: sh, i :: idx, h => by
    have ih := ravel_lt h.2
    have h1 : i + 1 ≤ n := h.1
    rw [ravel, List.prod_cons]
    calc i * sh.prod + ravel sh idx < i * sh.prod + sh.prod := by omega
      _ = (i + 1) * sh.prod := by ring
      _ ≤ n * sh.prod := Nat.mul_le_mul_right _ h1

theorem unravel_ravel : ∀ {sh idx : List ℕ}, InShape sh idx → unravel sh (ravel sh idx) = idx
  | [], [], _ => rfl
  | [], _ :: _, h => h.elim
  | _ :: _, [], h => h.elim
  | n :: sh, i :: idx, h => by
    have hlt := ravel_lt h.2
    have hpos : 0 < sh.prod := by omega
    rw [ravel, unravel]
    have e1 : (i * sh.prod + ravel sh idx) / sh.prod = i := by
      rw [Nat.mul_comm, Nat.mul_add_div hpos, Nat.div_eq_of_lt hlt]; omega
    have e2 : (i * sh.prod + ravel sh idx) % sh.prod = ravel sh idx := by
      rw [Nat.mul_comm, Nat.mul_add_mod, Nat.mod_eq_of_lt hlt]
    rw [e1, e2, unravel_ravel h.2]

theorem unravel_inShape : ∀ {sh : List ℕ} {r : ℕ}, r < sh.prod → InShape sh (unravel sh r)
  | [], _, _ => trivial
  | n :: sh, r, h => by
    rw [List.prod_cons] at h
    have hpos : 0 < sh.prod := by
      rcases Nat.eq_zero_or_pos sh.prod with h0 | h0
      · rw [h0] at h; omega
      · exact h0
    exact ⟨(Nat.div_lt_iff_lt_mul hpos).mpr h, unravel_inShape (Nat.mod_lt _ hpos)⟩

theorem ravel_unravel : ∀ {sh : List ℕ} {r : ℕ}, r < sh.prod → ravel sh (unravel sh r) = r
  | [], r, h => by simp at h; simp [ravel, h]
  | n :: sh, r, h => by
    rw [List.prod_cons] at h
    have hpos : 0 < sh.prod := by
      rcases Nat.eq_zero_or_pos sh.prod with h0 | h0
      · rw [h0] at h; omega
      · exact h0
    rw [unravel, ravel, ravel_unravel (Nat.mod_lt _ hpos)]
    rw [Nat.mul_comm]
    exact Nat.div_add_mod r sh.prod

/-- Reshaping to the same shape changes nothing. -/
theorem reshape_same {K : Type} (A : NdArray K) : ∃ B, A.reshape A.shape = .ok B ∧ B.Same A := by
  refine ⟨⟨A.shape, fun idx => A.get (unravel A.shape (ravel A.shape idx))⟩,
    by rw [NdArray.reshape, if_pos rfl]; rfl, rfl, ?_⟩
  intro idx hidx
  show A.get _ = A.get idx
  rw [unravel_ravel hidx]

theorem NdArray.Same.symm {K : Type} {A B : NdArray K} (h : A.Same B) : B.Same A :=
  ⟨h.1.symm, fun idx hi => (h.2 idx (h.1 ▸ hi)).symm⟩

theorem NdArray.Same.trans {K : Type} {A B C : NdArray K} (h : A.Same B) (h' : B.Same C) :
    A.Same C :=
  ⟨h.1.trans h'.1, fun idx hi => (h.2 idx hi).trans (h'.2 idx (h.1 ▸ hi))⟩

end Interp
