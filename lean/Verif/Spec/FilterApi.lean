import Verif.Spec.Natural
import Verif.Spec.Api
import Verif.Model.Filter

/-!
# Observable behaviour of filtering

`FilterOutcome G D vec m C`: `C` holds the coefficients after one of the ways of filtering the data
`D` on grid `G` — allocating or in place (whatever the array contained), through `filter_cubic` or
through `prefilter(..., k=3)`.
-/

namespace Interp.Spec
open Interp.Codegen Interp.Filter

inductive FilterOutcome {K : Type} [Add K] [Sub K] [Mul K] [Div K] [Neg K] [Zero K] [One K]
    [NatCast K] [IntCast K] [LT K] [DecidableLT K] [BEq K]
    (G : List (GridDim K)) (D : NdArray K) (vec : Bool) (m : ℕ) (C : NdArray K) : Prop
  | alloc (h : filterCubic G D = .ok C)
  | inplace (B : NdArray K) (hB : B.shape = coefsShape G vec m) (h : filterInto G D B = .ok C)
  | prefilter (h : prefilter G D none 3 = .ok ⟨some C, none⟩)
  | prefilterOut (B : NdArray K) (hB : B.shape = coefsShape G vec m)
      (h : Filter.prefilter G D (some B) 3 = .ok ⟨none, some C⟩)

variable {F : Type} [Field F] [LinearOrder F] [IsStrictOrderedRing F] [FloorRing F]

/-- `C` interpolates the data at the nodes (whatever the way of evaluating) and is natural in every
direction. -/
def IsNaturalInterpolant (G : List (GridDim F)) (D : NdArray F) (vec : Bool) (m : ℕ)
    (C : NdArray F) : Prop :=
  C.shape = coefsShape G vec m ∧
  (∀ idx, InShape (gridShape G) idx →
    Returns 3 G C vec m none "linear" (nodeAt G idx) (fun tail => D.get (idx ++ tail))) ∧
  ∀ comp, InShape (if vec then [m] else []) comp →
    NaturalCoefs (gridShape G) (fun r => C.get (r ++ comp))

omit [IsStrictOrderedRing F] in
/-- Two calls on the same point return the same numbers. -/
theorem Returns.unique {k : ℕ} {G : List (GridDim F)} {C : NdArray F} {vec : Bool} {m : ℕ}
    {orders : Option (List (List ℕ))} {mode : String} {x : List F} {E E' : List ℕ → F}
    (hx : x.length = G.length)
    (h : Returns k G C vec m orders mode x E) (h' : Returns k G C vec m orders mode x E')
    (tail : List ℕ) (ht : InShape (tailShape vec m orders) tail) : E tail = E' tail := by
  obtain ⟨A, h1, _, h3⟩ := h.rows [x] (by simpa using hx)
  obtain ⟨A', h1', _, h3'⟩ := h'.rows [x] (by simpa using hx)
  rw [h1] at h1'
  have : A = A' := by injection h1' with h1'; injection h1' with h1'; injection h1'
  subst this
  rw [← h3 0 rfl tail ht, ← h3' 0 rfl tail ht]

end Interp.Spec
