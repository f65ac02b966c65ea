import Verif.Spec.Family
import Verif.Proofs.Expand

/-! The family of functions computed by a spline, in closed form. -/

set_option linter.unusedSectionVars false

namespace Interp.Codegen
open Interp.Ref Interp.Spec

variable {F : Type} [Field F] [LinearOrder F] [IsStrictOrderedRing F] [FloorRing F]

variable {k : ℕ} {G : List (GridDim F)} {C : NdArray F} {vec : Bool} {m : ℕ}

/-- The closed form of the family. -/
def fam (k : ℕ) (G : List (GridDim F)) (C : NdArray F) (oo : List ℕ) (x : List F)
    (comp : List ℕ) : F :=
  evalAt k G oo x (fun r => C.get (r ++ comp))

theorem evalMode_linear (k : ℕ) (G : List (GridDim F)) (oo : List ℕ) (x : List F)
    (c : List ℕ → F) : evalMode k "linear" G oo x c = evalAt k G oo x c := rfl

theorem fam_spec (h : Request k G C vec m none) : SplineFamily k G C vec m (fam k G C) where
  value x hx := by
    refine (h.good.returns "linear" x hx).congr fun tail ht => ?_
    rw [rowEntry_plain k _ G C vec m _ tail ht]
    rfl
  deriv os x hx hne hos := by
    have h' : Request k G C vec m (some os) :=
      ⟨h.grid, h.shape, h.degree, fun os' e => by
        obtain rfl : os = os' := Option.some.inj e
        exact ⟨hne, hos⟩⟩
    refine (h'.good.returns "linear" x hx).congr fun tail ht => ?_
    obtain ⟨comp, j, rfl, hc, hj⟩ := inShape_tail_orders vec m os tail ht
    rw [rowEntry_order k _ G C vec m os x comp j hc]
    simp [fam, evalMode_linear]

end Interp.Codegen
