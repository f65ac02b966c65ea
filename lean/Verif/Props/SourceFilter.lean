import Verif.Proofs.SrcFilter
import Verif.Props.SourceHermite
import Verif.Props.CubicFilter

/-!
# What the source text of `prefilter_cubic.py` computes: C109

The texts are those of `SourceTexts`, character for character; see C108 for how they are read and executed. The theorems hold in any
arithmetic in which 3 and 6 are not zero; the last one is the interpolation property for the text itself.
-/

namespace Interp.Props
open Interp Interp.Spec Interp.Spec.PySrc Interp.Filter
open Interp.Codegen (GridDim)

/-- The texts of `prefilter_cubic.py` L8-312 as a program. -/
def filterFile : Option Prog :=
  load [solveText, findCoefsText] [("_filter_cubic", [filterText, filterAllocText])] [("basis", basisText)]

/-- How a result of the model is shown by a call: the same exception, or these results. -/
def Shows {K α β : Type} (x : Py α) (y : Py (β × Heap K)) (R : α → β → Heap K → Prop) : Prop :=
  match x, y with
  | .ok a, .ok (b, h) => R a b h
  | .error e, .error e' => e = e'
  | _, _ => False

theorem shows_of_sim {K α β : Type} {x : Py α} {y : Py (β × Heap K)} {R : α → β → Heap K → Prop}
    (h : Sim x y fun a o => R a o.1 o.2) : Shows x y R := by
  rcases x with e | a <;> rcases y with e' | ⟨b, H⟩ <;> exact h

section
variable {K : Type} [Add K] [Sub K] [Mul K] [Div K] [Neg K] [Zero K] [One K] [NatCast K] [IntCast K]
  [LT K] [DecidableLT K] [LE K] [DecidableLE K] [BEq K] [IntFloor K] [Interp.Smolyak.Trig K]

/-- C109. `solve_deriv_interp_1d(bands, coefs)`: both arrays are what the model says, every other array is as before. -/
theorem C109_solve (L : LitLaws K) : ∃ P, filterFile = some P ∧
    ∀ n ≥ 2, ∀ (h : Heap K) (rb rc : ℕ) (B C : NdArray K), rc ≠ rb → h[rb]? = some B → h[rc]? = some C → C.shape.length = 1 →
      Shows (solveDerivInterp1d B C ⟨[], []⟩)
        (callName P n "solve_deriv_interp_1d" [.arr rb [none, none], .arr rc [none]] h)
        fun s v h' => v = .none ∧ h' = (h.set rb s.1).set rc s.2 := by
  refine ⟨_, filter_load, fun n hn h rb rc B C hne hb hc hC => ?_⟩
  obtain ⟨n, rfl⟩ : ∃ m, n = m + 2 := ⟨n - 2, by omega⟩
  obtain ⟨hbl, rfl⟩ := List.getElem?_eq_some_iff.mp hb
  obtain ⟨hcl, rfl⟩ := List.getElem?_eq_some_iff.mp hc
  have h2 : h = two h rb rc h[rb] (fill h[rc] [] [] h[rc]) := by
    rw [fill_nil, two, List.set_getElem_self, List.set_getElem_self]
  rw [callName, fglob_solve, pure_bind, callN_fn]
  conv => arg 2; rw [h2]
  rw [show (.arr rc [none] : Val K) = .arr rc (linePat ⟨[], []⟩ []) from rfl,
    solve_run fglob_range L n hbl hcl hne (t := []) (post := []) trivial h[rc] h[rb] h[rc] ⟨[], []⟩ (by simp [hC])]
  refine shows_of_sim (sim_of_eq rfl fun s => ⟨rfl, ?_⟩)
  simp only [fill_nil, two]

/-- C109. `find_coefs_1d(δ, data, coefs, bands)` for vectors. -/
theorem C109_find_coefs (L : LitLaws K) (h3 : (((3 : ℕ) : K) == 0) = false) (h6 : (((6 : ℕ) : K) == 0) = false) :
    ∃ P, filterFile = some P ∧
    ∀ n ≥ 3, ∀ (h : Heap K) (rb rc rd p q : ℕ) (δ : K) (B C D : NdArray K), rc ≠ rb → rd ≠ rb → rd ≠ rc →
      h[rb]? = some B → h[rc]? = some C → h[rd]? = some D → C.shape.length = 1 → B.shape = [p, q] →
      Shows (findCoefs1d δ (some D) ⟨[], []⟩ (B, C))
        (callName P n "find_coefs_1d" [.flt δ, .arr rd [none], .arr rc [none], .arr rb [none, none]] h)
        fun s v h' => v = .none ∧ h' = (h.set rb s.1).set rc s.2 := by
  refine ⟨_, filter_load, fun n hn h rb rc rd p q δ B C D hne hdb hdc hb hc hd hC hB => ?_⟩
  obtain ⟨n, rfl⟩ : ∃ m, n = m + 3 := ⟨n - 3, by omega⟩
  obtain ⟨hbl, rfl⟩ := List.getElem?_eq_some_iff.mp hb
  obtain ⟨hcl, rfl⟩ := List.getElem?_eq_some_iff.mp hc
  have h2 : h = two h rb rc h[rb] (fill h[rc] [] [] h[rc]) := by
    rw [fill_nil, two, List.set_getElem_self, List.set_getElem_self]
  rw [callName, fglob_find, pure_bind, callN_fn]
  conv => arg 2; rw [h2]
  rw [show (.arr rc [none] : Val K) = .arr rc (linePat ⟨[], []⟩ []) from rfl,
    show (.arr rd [none] : Val K) = .arr rd (linePat ⟨[], []⟩ []) from rfl,
    find_run L h3 h6 n hbl hcl hne (t := []) (post := []) trivial h[rc] h[rb] h[rc] ⟨[], []⟩ (by simp [hC]) hB δ (some D) _ rd
      (fun z => (⟨[], []⟩ : Line).pos z ++ ([] : List ℕ).map Int.ofNat) (fun z => item_line rd ⟨[], []⟩ [] z)]
  · refine shows_of_sim (sim_of_eq rfl fun s => ⟨rfl, ?_⟩)
    simp only [fill_nil, two]
  · intro B
    exact ⟨D, by rw [two_ne hdb.symm hdc.symm, hd], fun z => by simp⟩

/-- C109. In-place `_filter_cubic(grid, D, C)`: for grids of one to four axes (given by tuples or by arrays), data and coefficients of any
number of extra dimensions, and any lengths (those of the extra dimensions of `C` at most those of `D`): the array `C` gets the values of the
model, no other array changes, or the same exception is raised. Only new arrays are added to the heap. -/
theorem C109_filter_into (L : LitLaws K) (h3 : (((3 : ℕ) : K) == 0) = false) (h6 : (((6 : ℕ) : K) == 0) = false) :
    ∃ P, filterFile = some P ∧
    ∀ (h : Heap K) (rd rc : ℕ) (D C : NdArray K) (vs : List (Val K)) (grid : List (GridDim K)),
      rd ≠ rc → h[rd]? = some D → h[rc]? = some C → List.Forall₂ (AxisVal h) vs grid → (∀ v ∈ vs, Other rc v) →
      0 < grid.length → grid.length ≤ 4 → grid.length ≤ D.shape.length → C.shape.length = D.shape.length →
      List.Forall₂ (· ≤ ·) (C.shape.drop grid.length) (D.shape.drop grid.length) →
      ∀ n ≥ D.shape.length - grid.length + 4,
        Shows (filterInto grid D C)
          (callName P n "_filter_cubic" [.tup vs, .arr rd (whole D.shape.length), .arr rc (whole C.shape.length)] h)
          fun C' v h' => v = .none ∧ ∃ t, h' = h.set rc C' ++ t := by
  refine ⟨_, filter_load, fun h rd rc D C vs grid hne hd hc hv ho h0 h4 hD hC hle n hn => ?_⟩
  rw [callName, fglob_filter, pure_bind, hC]
  exact shows_of_sim (into_sim L h3 h6 hne.symm h0 h4 ho hc hd hv hD hC hle hn)

/-- C109. `_filter_cubic(grid, D)`, for any number of axes and any array: the result is a new array with the values of the model, or the same
exception is raised (that there is no implementation, for no axes, for more than four, and for data of other numbers of dimensions). -/
theorem C109_filter (L : LitLaws K) (h3 : (((3 : ℕ) : K) == 0) = false) (h6 : (((6 : ℕ) : K) == 0) = false) :
    ∃ P, filterFile = some P ∧
    ∀ (h : Heap K) (rd : ℕ) (D : NdArray K) (vs : List (Val K)) (grid : List (GridDim K)),
      h[rd]? = some D → List.Forall₂ (AxisVal h) vs grid →
      ∀ n ≥ 6, Shows (filterCubic grid D) (callName P n "_filter_cubic" [.tup vs, .arr rd (whole D.shape.length)] h)
        fun C v h' => v = .arr h.length (whole D.shape.length) ∧ ∃ t, h' = h ++ C :: t := by
  refine ⟨_, filter_load, fun h rd D vs grid hd hv n hn => ?_⟩
  have hl := hv.length_eq
  rw [callName, fglob_filter, pure_bind]
  by_cases hg : 4 < grid.length ∨ grid.length = 0
  · rw [alloc_typing (by omega) vs rd _ h (by omega), filterCubic, if_pos hg]
    rfl
  · by_cases hD : D.shape.length = grid.length ∨ D.shape.length = grid.length + 1
    · exact shows_of_sim (alloc_sim L h3 h6 hd hv (by omega) (by omega) hD hn)
    · have hf : free (whole D.shape.length) = D.shape.length := by rw [← pat_whole, free_pat]
      rw [alloc_typing (by omega) vs rd _ h (by rw [hf]; omega), filterCubic, if_neg hg, if_neg (by omega), if_neg (by omega)]
      rfl

end

section exact
variable {F : Type} [Field F] [LinearOrder F] [IsStrictOrderedRing F] [FloorRing F] [Interp.Smolyak.Trig F]

theorem litLaws_field : LitLaws F := ⟨by simp, by simp, by simp, by simp⟩

/-- The axes as the tuples that a caller writes. -/
def gridValue (G : List (GridDim F)) : List (Val F) := G.map fun
  | .uniform a b n => .tup [.flt a, .flt b, .int (n : ℤ)]
  | .array _ => .none

/-- C109. The interpolation property for the text: executing `_filter_cubic(grid, D)` on any uniform grid of one to four dimensions
returns a new array, and the spline with these coefficients passes through the data at every node. -/
theorem C109_filter_interpolates : ∃ P, filterFile = some P ∧
    ∀ (G : List (GridDim F)) (D : NdArray F) (vec : Bool) (m : ℕ), FilterRequest G D vec m →
      ∀ (h : Heap F) (rd : ℕ), h[rd]? = some D → ∀ n ≥ 6, ∃ C t,
        callName P n "_filter_cubic" [.tup (gridValue G), .arr rd (whole D.shape.length)] h =
          .ok (.arr h.length (whole D.shape.length), h ++ C :: t) ∧
        ∀ mode idx, InShape (gridShape G) idx →
          Returns 3 G C vec m none mode (nodeAt G idx) (fun tail => D.get (idx ++ tail)) := by
  obtain ⟨P, hP, H⟩ := C109_filter (K := F) litLaws_field (by simp) (by simp)
  refine ⟨P, hP, fun G D vec m hr h rd hd n hn => ?_⟩
  obtain ⟨⟨C, hC, -⟩, -⟩ := C19_filter_total hr
  have hv : List.Forall₂ (AxisVal h) (gridValue G) G := by
    have := hr.uniform
    clear hr hC
    induction G with
    | nil => exact .nil
    | cons g G ih =>
      refine .cons ?_ (ih fun g hg => this g (by simp [hg]))
      have hg := this g (by simp)
      rcases g with ⟨a, b, n⟩ | gc
      · rfl
      · simp [GridDim.gtype] at hg
  have key := H h rd D (gridValue G) G hd hv n hn
  rw [hC] at key
  rcases hcall : callName P n "_filter_cubic" [.tup (gridValue G), .arr rd (whole D.shape.length)] h with e | ⟨v, h'⟩
  · rw [hcall] at key; exact key.elim
  · rw [hcall] at key
    obtain ⟨rfl, t, rfl⟩ := key
    exact ⟨C, t, rfl, fun mode idx hidx => C18_cubic_interpolates hr (.alloc hC) mode idx hidx⟩

end exact

/-- The hypotheses can be met: a 3 × 4 grid with two-component data, rational numbers. -/
example : ∃ P, filterFile = some P ∧ ∀ n ≥ 6, ∃ C t,
    callName P n "_filter_cubic" [.tup [.tup [.flt (0 : ℚ), .flt 1, .int 3], .tup [.flt 0, .flt 2, .int 4]], .arr 0 [none, none, none]]
      [⟨[3, 4, 2], fun idx => (idx.sum : ℚ)⟩] =
      .ok (.arr 1 [none, none, none], [⟨[3, 4, 2], fun idx => (idx.sum : ℚ)⟩] ++ C :: t) := by
  obtain ⟨P, hP, H⟩ := C109_filter_interpolates (F := ℚ)
  refine ⟨P, hP, fun n hn => ?_⟩
  have hr : FilterRequest (F := ℚ) [.uniform 0 1 3, .uniform 0 2 4] ⟨[3, 4, 2], fun idx => (idx.sum : ℚ)⟩ true 2 :=
    { grid := ⟨by simp, by
        intro g hg
        simp only [List.mem_cons, List.not_mem_nil, or_false] at hg
        rcases hg with rfl | rfl <;> norm_num [ValidAxis]⟩
      uniform := by
        intro g hg
        simp only [List.mem_cons, List.not_mem_nil, or_false] at hg
        rcases hg with rfl | rfl <;> rfl
      dim := by simp
      shape := rfl }
  obtain ⟨C, t, h1, -⟩ := H _ _ true 2 hr [⟨[3, 4, 2], fun idx => (idx.sum : ℚ)⟩] 0 rfl n hn
  exact ⟨C, t, h1⟩

/-- In place, with an array axis, one extra dimension, and a `C` longer than needed. -/
example : ∃ P, filterFile = some P ∧ ∀ n ≥ 5,
    Shows (filterInto [.array [0, 1, 2]] (⟨[3, 2], fun _ => 1⟩ : NdArray ℚ) ⟨[6, 1], fun _ => 7⟩)
      (callName P n "_filter_cubic" [.tup [.arr 2 [none]], .arr 0 [none, none], .arr 1 [none, none]]
        [⟨[3, 2], fun _ => 1⟩, ⟨[6, 1], fun _ => 7⟩, demoVec [0, 1, 2]])
      fun C' v h' => v = .none ∧ ∃ t, h' = [⟨[3, 2], fun _ => 1⟩, C', demoVec [0, 1, 2]] ++ t := by
  obtain ⟨P, hP, H⟩ := C109_filter_into (K := ℚ) litLaws_rat (by simp) (by simp)
  refine ⟨P, hP, fun n hn => ?_⟩
  have hv : List.Forall₂ (AxisVal [⟨[3, 2], fun _ => 1⟩, ⟨[6, 1], fun _ => 7⟩, demoVec [0, 1, 2]])
      [.arr 2 [none]] [GridDim.array ([0, 1, 2] : List ℚ)] :=
    .cons ⟨2, rfl, _, rfl, demoVec_isVec _⟩ .nil
  exact H _ 0 1 ⟨[3, 2], fun _ => 1⟩ ⟨[6, 1], fun _ => 7⟩ _ _ (by decide) rfl rfl hv (by simp [Other]) (by simp) (by simp) (by simp) rfl
    (by simp) n (by simpa using hn)

end Interp.Props
