import Verif.Spec.Api
import Verif.Proofs.CodegenPoint
import Verif.Proofs.Axis

/-! All supported calls return the closed form. -/

set_option linter.unusedSectionVars false
set_option linter.unusedSimpArgs false

namespace Interp.Codegen
open Interp.Ref Interp.Spec

section Any

variable {K : Type} [Add K] [Sub K] [Mul K] [Div K] [Neg K] [Zero K] [One K] [NatCast K]
  [IntCast K] [LT K] [DecidableLT K] [BEq K] [IntFloor K]

variable {k : ℕ} {G : List (GridDim K)} {C : NdArray K} {vec : Bool} {m : ℕ}
  {orders : Option (List (List ℕ))}

/-- In any arithmetic, every supported call returns the closed form. -/
theorem GoodCall.returns (h : GoodCall k G C vec m orders) (mode : String) (x : List K)
    (hx : x.length = G.length) :
    Returns k G C vec m orders mode x (rowEntry k mode G C vec orders x) where
  rows xs hxs := by
    obtain ⟨A, h1, h2, h3⟩ := evalSpline_rows_alloc h xs hxs mode
    refine ⟨A, h1, h2, fun i hi tail ht => ?_⟩
    obtain ⟨hi', rfl⟩ := List.getElem?_eq_some_iff.1 hi
    exact h3 i hi' tail ht
  rowsOut xs B hxs hB := by
    obtain ⟨A, h1, h2, h3⟩ := evalSpline_rows_out h xs hxs mode B hB
    refine ⟨A, h1, h2.trans hB.symm, fun i hi tail ht => ?_⟩
    obtain ⟨hi', rfl⟩ := List.getElem?_eq_some_iff.1 hi
    exact h3 i hi' tail ht
  pointScalar hm hv ho out := by
    subst hv ho
    exact evalSpline_point_scalar h out x hx mode hm
  pointTuple hm hc hv os ho := by
    subst hv ho
    exact evalSpline_point_tuple h x hx mode hm hc
  pointArray hm hv := by
    subst hv
    exact evalSpline_point_array h x hx mode hm
  pointOut hm hc hv B hB := by
    obtain ⟨A, h1, h2, h3⟩ := evalSpline_point_out h hv x hx mode hm (fun h => (hc h).elim) B hB
    exact ⟨A, h1, h2.trans hB.symm, h3⟩

end Any

/-! ### Names of the temporaries -/

theorem valName_length (p : List ℕ) : p.length ≤ (valName p).length ∧
    ((valName p).length = p.length → ∀ l ∈ p, l < 10) := by
  induction p with
  | nil => simp [valName]
  | cons a p ih =>
    have h1 : (valName (a :: p)).length = (Nat.toDigits 10 a).length + (valName p).length := by
      simp [valName]
    have h2 : 0 < (Nat.toDigits 10 a).length := Nat.length_toDigits_pos
    rw [h1]
    refine ⟨by simp; omega, fun h => ?_⟩
    rw [List.length_cons] at h
    have h3 : (Nat.toDigits 10 a).length ≤ 1 := by omega
    have h4 := (Nat.length_toDigits_le_iff (n := a) (b := 10) (k := 1) (by norm_num)
      (by norm_num)).1 h3
    intro l hl
    rcases List.mem_cons.1 hl with rfl | hl
    · simpa using h4
    · exact ih.2 (by omega) l hl

theorem valName_small (p : List ℕ) (h : ∀ l ∈ p, l < 10) : valName p = p.map Nat.digitChar := by
  induction p with
  | nil => rfl
  | cons a p ih =>
    have h1 : valName (a :: p) = Nat.toDigits 10 a ++ valName p := by simp [valName]
    rw [h1, ih (fun l hl => h l (by simp [hl])), Nat.toDigits_of_lt_base (h a (by simp))]
    rfl

theorem digitChar_inj {a b : ℕ} (ha : a < 10) (hb : b < 10) (h : Nat.digitChar a = Nat.digitChar b) :
    a = b := by
  have := congrArg Char.toNat h
  rw [Nat.toNat_digitChar_of_lt_ten ha, Nat.toNat_digitChar_of_lt_ten hb] at this
  omega

theorem map_digitChar_inj : ∀ (p q : List ℕ), (∀ l ∈ p, l < 10) → (∀ l ∈ q, l < 10) →
    p.map Nat.digitChar = q.map Nat.digitChar → p = q
  | [], [], _, _, _ => rfl
  | [], _ :: _, _, _, h => by simp at h
  | _ :: _, [], _, _, h => by simp at h
  | a :: p, b :: q, hp, hq, h => by
    simp only [List.map_cons, List.cons.injEq] at h
    rw [digitChar_inj (hp a (by simp)) (hq b (by simp)) h.1,
      map_digitChar_inj p q (fun l hl => hp l (by simp [hl])) (fun l hl => hq l (by simp [hl])) h.2]

/-- Two different orders of the same length can only share a name if both have an entry above 9. -/
theorem valName_collision (p q : List ℕ) (hl : p.length = q.length) (h : valName p = valName q) :
    p = q ∨ ((∃ l ∈ p, 10 ≤ l) ∧ ∃ l ∈ q, 10 ≤ l) := by
  by_cases hp : ∀ l ∈ p, l < 10
  · left
    have h1 : (valName p).length = p.length := by rw [valName_small p hp]; simp
    have hq := (valName_length q).2 (by rw [← h, h1, hl])
    rw [valName_small p hp, valName_small q hq] at h
    exact map_digitChar_inj p q hp hq h
  · by_cases hq : ∀ l ∈ q, l < 10
    · left
      have h1 : (valName q).length = q.length := by rw [valName_small q hq]; simp
      have hp' := (valName_length p).2 (by rw [h, h1, hl])
      exact (hp hp').elim
    · right
      push Not at hp hq
      exact ⟨hp, hq⟩

section Exact

variable {F : Type} [Field F] [LinearOrder F] [IsStrictOrderedRing F] [FloorRing F]

/-- Linear splines: an order above 1 gives zero. -/
theorem evalAt_order_ge_two : ∀ (G : List (GridDim F)) (oo : List ℕ) (x : List F)
    (c : List ℕ → F), oo.length = G.length → x.length = G.length → (∃ l ∈ oo, 2 ≤ l) →
    evalAt 1 G oo x c = 0
  | [], oo, x, c, ho, _, ⟨l, hl, _⟩ => by
    have : oo = [] := by simpa using ho
    subst this; simp at hl
  | g :: G, [], x, c, ho, _, _ => by simp at ho
  | g :: G, l :: oo, [], c, _, hx, _ => by simp at hx
  | g :: G, l :: oo, x :: xs, c, ho, hx, ⟨l', hl', h2⟩ => by
    rw [evalAt]
    by_cases hl2 : 2 ≤ l
    · simp [weights, show l ≠ 0 by omega, show l ≠ 1 by omega, sumL]
    · have : ∃ l ∈ oo, 2 ≤ l := by
        rcases List.mem_cons.1 hl' with rfl | h
        · exact (hl2 h2).elim
        · exact ⟨l', h, h2⟩
      have hz : ∀ j, evalAt 1 G oo xs (fun r => c (((cell g x).toNat + j) :: r)) = 0 := fun j =>
        evalAt_order_ge_two G oo xs _ (by simpa using ho) (by simpa using hx) this
      simp only [hz, mul_zero]
      have : l = 0 ∨ l = 1 := by omega
      rcases this with rfl | rfl <;> simp [weights, sumL]

end Exact

end Interp.Codegen

namespace Interp.Spec
open Interp.Codegen Interp.Ref

variable {F : Type} [Field F] [LinearOrder F] [IsStrictOrderedRing F] [FloorRing F]

/-- A legitimate request: a valid grid, coefficients of the documented shape (`n` per axis for
linear splines, `n + 2` for cubic splines, then the number of components), and, if derivatives are
requested, a nonempty list of orders with one entry per axis. -/
structure Request (k : ℕ) (G : List (GridDim F)) (C : NdArray F) (vec : Bool) (m : ℕ)
    (orders : Option (List (List ℕ))) : Prop where
  grid : ValidGrid G
  shape : C.shape = (G.map fun g => nNodes g + (k - 1)) ++ (if vec then [m] else [])
  degree : k = 1 ∨ (k = 3 ∧ ∀ g ∈ G, g.gtype = .uniform)
  orders_ok : ∀ os, orders = some os → os ≠ [] ∧
    ∀ oo ∈ os, oo.length = G.length ∧ (k = 3 → ∀ l ∈ oo, l ≤ 1)

theorem fits_coefShape (k : ℕ) (hk : 1 ≤ k) : ∀ G : List (GridDim F),
    Fits k G (G.map fun g => nNodes g + (k - 1))
  | [] => trivial
  | g :: G => ⟨by rw [size_eq]; show nNodes g + k ≤ nNodes g + (k - 1) + 1; omega, fits_coefShape k hk G⟩

theorem Request.good {k : ℕ} {G : List (GridDim F)} {C : NdArray F} {vec : Bool} {m : ℕ}
    {orders : Option (List (List ℕ))} (h : Request k G C vec m orders) :
    GoodCall k G C vec m orders where
  ne := h.grid.1
  wf g hg := wf_of_valid (h.grid.2 g hg)
  shape := ⟨_, h.shape, fits_coefShape k (by rcases h.degree with h | h <;> omega) G⟩
  hk := by rcases h.degree with h | h <;> tauto
  uni hk3 := by
    rcases h.degree with h | h
    · omega
    · exact h.2
  ords := h.orders_ok
  names os hos p hp q hq hpq x c hx := by
    obtain ⟨hp1, hp2⟩ := (h.orders_ok os hos).2 p hp
    obtain ⟨hq1, hq2⟩ := (h.orders_ok os hos).2 q hq
    rcases valName_collision p q (hp1.trans hq1.symm) hpq with rfl | ⟨⟨l, hl, hl'⟩, l2, hl2, hl2'⟩
    · rfl
    · rcases h.degree with rfl | ⟨rfl, _⟩
      · rw [evalAt_order_ge_two G p x c hp1 hx ⟨l, hl, by omega⟩,
          evalAt_order_ge_two G q x c hq1 hx ⟨l2, hl2, by omega⟩]
      · have := hp2 rfl l hl; omega
  deriv hk1 ho g hg x := by
    rw [beq_eq_false_iff_ne]
    exact delta_ne (h.grid.2 g hg) x

end Interp.Spec
