import Verif.Model.Basic
import Mathlib.Data.List.Nodup
import Mathlib.Tactic.Common

/-! All the multi-indices of a shape. -/

namespace Interp.Spec

/-- All multi-indices of a shape, in row-major order. -/
def allIdx : List ℕ → List (List ℕ)
  | [] => [[]]
  | n :: sh => (List.range n).flatMap fun i => (allIdx sh).map (i :: ·)

theorem mem_allIdx : ∀ (sh idx : List ℕ), idx ∈ allIdx sh ↔ InShape sh idx
  | [], [] => by simp [allIdx, InShape]
  | [], _ :: _ => by simp [allIdx, InShape]
  | n :: sh, [] => by simp [allIdx, InShape]
  | n :: sh, i :: idx => by simp [allIdx, InShape, mem_allIdx sh idx]

theorem nodup_allIdx : ∀ (sh : List ℕ), (allIdx sh).Nodup
  | [] => by simp [allIdx]
  | n :: sh => by
    rw [allIdx, List.nodup_flatMap]
    refine ⟨fun i _ => (nodup_allIdx sh).map (fun a b h => by simpa using h), ?_⟩
    refine List.Pairwise.imp (R := (· ≠ ·)) ?_ List.nodup_range
    intro a b hab
    simp only [Function.onFun, List.disjoint_left, List.mem_map, not_exists, not_and]
    rintro x ⟨y, _, rfl⟩ z _ h
    simp only [List.cons.injEq] at h
    exact hab h.1.symm

end Interp.Spec
