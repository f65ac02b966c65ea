import Verif.Model.Codegen
import Mathlib.Algebra.Order.Field.Basic

/-!
# What a user means by a grid

Independent vocabulary for the statements about splines: valid axes, their nodes, their interval.
-/

namespace Interp.Spec
open Interp.Codegen

variable {F : Type} [Field F] [LinearOrder F]

/-- A legitimate axis: `(a, b, n)` with `a < b` and at least two nodes, or a strictly increasing
array with at least two entries. -/
def ValidAxis : GridDim F → Prop
  | .uniform a b n => a < b ∧ 2 ≤ n
  | .array gc => 2 ≤ gc.length ∧ gc.Pairwise (· < ·)

/-- Number of nodes. -/
def nNodes : GridDim F → ℕ
  | .uniform _ _ n => n.toNat
  | .array gc => gc.length

/-- The `i`-th node. -/
def node : GridDim F → ℕ → F
  | .uniform a b n, i => a + (i : F) * ((b - a) / ((n : F) - 1))
  | .array gc, i => gc.getD i 0

/-- First and last node. -/
def first (g : GridDim F) : F := node g 0
def last (g : GridDim F) : F := node g (nNodes g - 1)

/-- A valid grid: at least one axis, all valid. -/
def ValidGrid (G : List (GridDim F)) : Prop := G ≠ [] ∧ ∀ g ∈ G, ValidAxis g

/-- Coordinates of the node with multi-index `idx`. -/
def nodeAt (G : List (GridDim F)) (idx : List ℕ) : List F := List.zipWith node G idx

/-- Shape of the grid. -/
def gridShape (G : List (GridDim F)) : List ℕ := G.map nNodes

/-- The point lies in the box spanned by the grid. -/
def InBox (G : List (GridDim F)) (x : List F) : Prop :=
  List.Forall₂ (fun g t => first g ≤ t ∧ t ≤ last g) G x

/-- A function of `d` variables that is affine in each of them separately. -/
def MultiAffine (d : ℕ) (f : List F → F) : Prop :=
  ∀ x : List F, x.length = d → ∀ i < d, ∃ p q : F, ∀ t, f (x.set i t) = p + q * t

/-- `x` is in the closed box with lower corner the node `J`. -/
def InClosedCell : List (GridDim F) → List F → List ℕ → Prop
  | [], [], [] => True
  | g :: G, x :: xs, j :: J =>
    (j + 1 < nNodes g ∧ node g j ≤ x ∧ x ≤ node g (j + 1)) ∧ InClosedCell G xs J
  | _, _, _ => False

/-- `idx` is one of the corners of the cell `J`. -/
def IsCorner (J idx : List ℕ) : Prop := List.Forall₂ (fun j i => i = j ∨ i = j + 1) J idx

/-- The projection of a point on the box of the grid. -/
def projBox (G : List (GridDim F)) (x : List F) : List F :=
  List.zipWith (fun g t => max (first g) (min t (last g))) G x

/-- Two axes with the same nodes. -/
def SameNodes (g g' : GridDim F) : Prop :=
  nNodes g = nNodes g' ∧ ∀ i < nNodes g, node g i = node g' i

/-- No coordinate of `x` is a node of its axis. -/
def NotKnot (G : List (GridDim F)) (x : List F) : Prop :=
  List.Forall₂ (fun g t => ∀ i < nNodes g, t ≠ node g i) G x

end Interp.Spec
