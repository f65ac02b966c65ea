import Verif.Model.BSplines
import Verif.Spec.Grid

/-! Knots of the cubic splines of the library. -/

namespace Interp.Spec
open Interp.Codegen

variable {F : Type} [Field F] [LinearOrder F] [FloorRing F]

/-- Knots for the cubic splines on a uniform axis: the nodes, and three more on each side with the
same spacing. -/
def knots : GridDim F → List F
  | .uniform a b n => (List.range (n.toNat + 6)).map fun j : ℕ =>
      a + ((j : F) - 3) * ((b - a) / ((n : F) - 1))
  | .array _ => []

/-- `ws` lists the values of the cubic B-splines number `idx` at the coordinates `x`. -/
def BWeights : List (GridDim F) → List F → List ℕ → List F → Prop
  | [], [], [], ws => ws = []
  | g :: G, x :: xs, i :: idx, w :: ws =>
    BSplines.B 3 (knots g) (i : ℤ) x = .ok w ∧ BWeights G xs idx ws
  | _, _, _, _ => False

end Interp.Spec
