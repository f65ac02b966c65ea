import Verif.Proofs.LinearMulti
import Mathlib.Algebra.BigOperators.Fin
import Mathlib.Data.Fintype.BigOperators
import Mathlib.Algebra.BigOperators.Ring.Finset

/-! The tensor sum as a sum over all offsets; renumbering the axes. -/

set_option linter.unusedSectionVars false

namespace Interp.Codegen
open Interp.Ref Interp.Spec

variable {F : Type} [Field F] [LinearOrder F] [IsStrictOrderedRing F] [FloorRing F]

/-- Number of weights along one axis. -/
def nWeights (k : ℕ) : ℕ := if k = 1 then 2 else 4

theorem nWeights_spec (k l : ℕ) (g : GridDim F) (x : F) : (weights k l g x).length = nWeights k := by
  rw [weights, nWeights]; split_ifs <;> simp

theorem sum_mapIdx (w : List F) (e : ℕ → F) :
    (w.mapIdx fun j t => t * e j).sum = ∑ j : Fin w.length, w[j] * e j := by
  induction w generalizing e with
  | nil => simp
  | cons a w ih =>
    rw [List.mapIdx_cons, List.sum_cons]
    show _ = ∑ j : Fin (w.length + 1), (a :: w)[j] * e j
    rw [Fin.sum_univ_succ, ih fun j => e (j + 1)]
    rfl

theorem evalAt_ofFn (k : ℕ) : ∀ {d : ℕ} (G : Fin d → GridDim F) (oo : Fin d → ℕ) (x : Fin d → F)
    (c : List ℕ → F),
    evalAt k (List.ofFn G) (List.ofFn oo) (List.ofFn x) c
      = ∑ J : Fin d → Fin (nWeights k),
          (∏ i, (weights k (oo i) (G i) (x i)).getD (J i) 0) *
            c (List.ofFn fun i => (cell (G i) (x i)).toNat + J i)
  | 0, G, oo, x, c => by simp [evalAt]
  | d + 1, G, oo, x, c => by
    rw [List.ofFn_succ, List.ofFn_succ (f := oo), List.ofFn_succ (f := x), evalAt, sumL_eq_sum,
      sum_mapIdx (e := fun j => evalAt k (List.ofFn fun i => G (Fin.succ i)) (List.ofFn fun i => oo (Fin.succ i))
        (List.ofFn fun i => x (Fin.succ i)) (fun r => c (((cell (G 0) (x 0)).toNat + j) :: r)))]
    rw [← (Fin.consEquiv fun _ : Fin (d + 1) => Fin (nWeights k)).sum_comp, Fintype.sum_prod_type]
    have hl := nWeights_spec k (oo 0) (G 0) (x 0)
    rw [← (finCongr hl).symm.sum_comp]
    apply Finset.sum_congr rfl
    intro j _
    rw [evalAt_ofFn k (fun i => G (Fin.succ i)) (fun i => oo (Fin.succ i)) (fun i => x (Fin.succ i)),
      Finset.mul_sum]
    apply Finset.sum_congr rfl
    intro J _
    rw [Fin.prod_univ_succ, List.ofFn_succ]
    have e1 : (weights k (oo 0) (G 0) (x 0))[((finCongr hl).symm j : Fin _)]
        = (weights k (oo 0) (G 0) (x 0)).getD j 0 := by
      rw [getD_of_lt _ _ (by rw [hl]; exact j.2)]
      rfl
    rw [e1]
    simp [Fin.consEquiv, mul_assoc]

/-- Renumbering the axes. -/
theorem evalAt_perm (k : ℕ) {d : ℕ} (σ : Equiv.Perm (Fin d)) (G : Fin d → GridDim F) (oo : Fin d → ℕ)
    (x : Fin d → F) (c c' : List ℕ → F)
    (h : ∀ idx : Fin d → ℕ, (∀ i, idx i < (cell (G i) (x i)).toNat + nWeights k) →
      c' (List.ofFn (idx ∘ σ)) = c (List.ofFn idx)) :
    evalAt k (List.ofFn (G ∘ σ)) (List.ofFn (oo ∘ σ)) (List.ofFn (x ∘ σ)) c'
      = evalAt k (List.ofFn G) (List.ofFn oo) (List.ofFn x) c := by
  rw [evalAt_ofFn, evalAt_ofFn, ← (Equiv.arrowCongr σ.symm (Equiv.refl (Fin (nWeights k)))).sum_comp]
  apply Finset.sum_congr rfl
  intro J _
  congr 1
  · exact Equiv.prod_comp σ (fun i => (weights k (oo i) (G i) (x i)).getD (J i) 0)
  · have := h (fun i => (cell (G i) (x i)).toNat + J i) (fun i => by have := (J i).2; omega)
    exact this

end Interp.Codegen
