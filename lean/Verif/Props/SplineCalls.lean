import Verif.Proofs.LinearMulti
import Verif.Proofs.CodegenFall
import Verif.Props.LinearValues

/-!
# Ways of calling `eval_spline`: C04, C05, C07, C08, C09, C10, C17

C05, C07, C08 and C09 hold in any arithmetic (IEEE included): they only assume the notation classes.
-/

set_option linter.unusedSectionVars false
set_option linter.unusedSimpArgs false

namespace Interp.Props
open Interp.Codegen Interp.Spec Interp.Ref

section Any

variable {K : Type} [Add K] [Sub K] [Mul K] [Div K] [Neg K] [Zero K] [One K] [NatCast K]
  [IntCast K] [LT K] [DecidableLT K] [BEq K] [IntFloor K]

variable {k : ℕ} {G : List (GridDim K)} {C : NdArray K} {vec : Bool} {m : ℕ}
  {orders : Option (List (List ℕ))}

/-- A legitimate request in an arithmetic about which nothing is known: at least one axis, at least
two nodes per axis, computed spacings different from zero, coefficients of the documented shape,
and, if derivatives are requested, a nonempty list of orders with one entry per axis. -/
structure AnyRequest (k : ℕ) (G : List (GridDim K)) (C : NdArray K) (vec : Bool) (m : ℕ)
    (orders : Option (List (List ℕ))) : Prop where
  nonempty : G ≠ []
  axes : ∀ g ∈ G, WF g
  shape : C.shape = (G.map fun g => size g + (k - 1)) ++ (if vec then [m] else [])
  degree : k = 1 ∨ (k = 3 ∧ ∀ g ∈ G, g.gtype = .uniform)
  orders_ok : ∀ os, orders = some os → os ≠ [] ∧
    ∀ oo ∈ os, oo.length = G.length ∧ (∀ l ∈ oo, l < 10) ∧ (k = 3 → ∀ l ∈ oo, l ≤ 1)
  scale : k = 1 → orders ≠ none → ∀ a b n, GridDim.uniform a b n ∈ G →
    (((n : K) - 1) / (b - a) == 0) = false

theorem fits_size (k : ℕ) (hk : 1 ≤ k) : ∀ G : List (GridDim K),
    Fits k G (G.map fun g => size g + (k - 1))
  | [] => trivial
  | g :: G => ⟨by show size g + k ≤ size g + (k - 1) + 1; omega, fits_size k hk G⟩

theorem AnyRequest.good (h : AnyRequest k G C vec m orders) : GoodCall k G C vec m orders where
  ne := h.nonempty
  wf := h.axes
  shape := ⟨_, h.shape, fits_size k (by rcases h.degree with h | h <;> omega) G⟩
  hk := by rcases h.degree with h | h <;> tauto
  uni hk3 := by
    rcases h.degree with h | h
    · omega
    · exact h.2
  ords os hos := ⟨(h.orders_ok os hos).1, fun oo hoo =>
    ⟨((h.orders_ok os hos).2 oo hoo).1, ((h.orders_ok os hos).2 oo hoo).2.2⟩⟩
  names os hos p hp q hq hpq x c hx := by
    obtain ⟨hp1, hp2, _⟩ := (h.orders_ok os hos).2 p hp
    obtain ⟨hq1, hq2, _⟩ := (h.orders_ok os hos).2 q hq
    rcases valName_collision p q (hp1.trans hq1.symm) hpq with rfl | ⟨⟨l, hl, hl'⟩, _⟩
    · rfl
    · have := hp2 l hl; omega
  deriv hk1 ho g hg x := by
    cases g with
    | uniform a b n => exact h.scale hk1 ho a b n hg
    | array gc =>
      have hw := h.axes _ hg
      have hb := cell_bounds (.array gc) hw.1 x
      refine hw.2 _ ?_
      have : size (.array gc) = gc.length := rfl
      have := hw.1
      omega

/-- The coordinates of `x` that are outside the range of their axis make `x` an outside point. -/
def Outside (G : List (GridDim K)) (x : List K) : Prop :=
  ∃ (i : ℕ) (g : GridDim K) (t : K), G[i]? = some g ∧ x[i]? = some t ∧ (t < lo g ∨ hi g < t)

theorem outside_iff (G : List (GridDim K)) (x : List K) :
    (List.zipWith isOutside G x).any id = true ↔ Outside G x := by
  induction G generalizing x with
  | nil => simp [Outside]
  | cons g G ih =>
    cases x with
    | nil => simp [Outside]
    | cons t x =>
      simp only [List.zipWith_cons_cons, List.any_cons, id_eq, Bool.or_eq_true, ih]
      constructor
      · rintro (h | ⟨i, g', t', h1, h2, h3⟩)
        · exact ⟨0, g, t, rfl, rfl, by simpa [isOutside] using h⟩
        · exact ⟨i + 1, g', t', by simpa using h1, by simpa using h2, h3⟩
      · rintro ⟨i, g', t', h1, h2, h3⟩
        cases i with
        | zero =>
          simp only [List.getElem?_cons_zero, Option.some.injEq] at h1 h2
          subst h1 h2
          left; simpa [isOutside] using h3
        | succ i => exact Or.inr ⟨i, g', t', by simpa using h1, by simpa using h2, h3⟩

/-- C05, in any arithmetic: with mode constant every call listed in `Returns` gives exactly zero at
an outside point and the default result at any other point, and so does the in-place single-point
call at a point that is not outside.  Missing: the in-place single-point call at an outside point
(see `C05_constant_inplace_point`), and derivatives of scalar splines at a single point
(`C05_constant_tuple`). -/
theorem C05_constant_partial (h : AnyRequest k G C vec m orders) (x : List K)
    (hx : x.length = G.length) :
    (Outside G x → Returns k G C vec m orders "constant" x (fun _ => 0)) ∧
    (¬ Outside G x → ∃ E, Returns k G C vec m orders "constant" x E ∧
      Returns k G C vec m orders "linear" x E ∧
      (PointModeOk "constant" G → (vec = true ∨ orders ≠ none) →
        ∀ B : NdArray K, B.shape = tailShape vec m orders →
        ∃ A, evalSpline G C (.point x) (some B) k orders "constant" = .ok ⟨.none, some A⟩ ∧
          A.shape = B.shape ∧
          ∀ tail, InShape (tailShape vec m orders) tail → A.get tail = E tail)) := by
  constructor
  · intro ho
    rw [← outside_iff] at ho
    refine (h.good.returns "constant" x hx).congr fun tail _ => ?_
    simp [rowEntry, evalMode, ho]
  · intro ho
    rw [← outside_iff, Bool.not_eq_true] at ho
    have he : ∀ tail, rowEntry k "linear" G C vec orders x tail
        = rowEntry k "constant" G C vec orders x tail := by
      intro tail; simp [rowEntry, evalMode, ho]
    refine ⟨_, h.good.returns "constant" x hx,
      (h.good.returns "linear" x hx).congr fun tail _ => he tail, fun hm hv B hB => ?_⟩
    obtain ⟨A, h1, h2, h3⟩ := evalSpline_point_out h.good hv x hx "constant" hm (fun _ => ho) B hB
    exact ⟨A, h1, h2.trans hB.symm, h3⟩

/-- C05 is violated by the in-place single-point call of vector-valued splines: whatever the point,
it leaves the default (linear extrapolation) values in the array. -/
theorem C05_constant_inplace_point (h : AnyRequest k G C true m orders) (x : List K)
    (hx : x.length = G.length) (hm : PointModeOk "constant" G) :
    ∃ E, Returns k G C true m orders "linear" x E ∧
      ∀ B : NdArray K, B.shape = tailShape true m orders →
      ∃ A, evalSpline G C (.point x) (some B) k orders "constant" = .ok ⟨.none, some A⟩ ∧
        A.shape = B.shape ∧
        ∀ tail, InShape (tailShape true m orders) tail → A.get tail = E tail := by
  refine ⟨_, h.good.returns "linear" x hx, fun B hB => ?_⟩
  obtain ⟨A, h1, h2, h3⟩ := evalSpline_point_out_constant h.good x hx hm B hB
  exact ⟨A, h1, h2.trans hB.symm, h3⟩

/-- C05 is violated by derivatives of scalar splines at a single point: compilation fails. -/
theorem C05_constant_tuple {os : List (List ℕ)} (h : AnyRequest k G C false m (some os))
    (x : List K) (hm : PointModeOk "constant" G) :
    evalSpline G C (.point x) none k (some os) "constant" = .error .typing :=
  evalSpline_point_constant_tuple h.good x hm

/-- C07, in any arithmetic: entry `i` of a list evaluation is what the single-point call at point
number `i` gives, whatever the other points; and it is what the list containing this point alone
gives. -/
theorem C07_rows_are_points (h : AnyRequest k G C vec m orders) (mode : String)
    (xs : List (List K)) (hxs : ∀ y ∈ xs, y.length = G.length) :
    ∃ A, evalSpline G C (.rows xs) none k orders mode = .ok ⟨.array A, none⟩ ∧
      A.shape = xs.length :: tailShape vec m orders ∧
      ∀ i x, xs[i]? = some x →
        (∃ A1, evalSpline G C (.rows [x]) none k orders mode = .ok ⟨.array A1, none⟩ ∧
          ∀ tail, InShape (tailShape vec m orders) tail → A1.get (0 :: tail) = A.get (i :: tail)) ∧
        (PointModeOk mode G → vec = false → orders = none →
          evalSpline G C (.point x) none k orders mode = .ok ⟨.scalar (A.get [i]), none⟩) ∧
        (PointModeOk mode G → mode ≠ "constant" → vec = false → ∀ os, orders = some os →
          evalSpline G C (.point x) none k orders mode
            = .ok ⟨.tuple ((List.range os.length).map fun j => A.get [i, j]), none⟩) ∧
        (PointModeOk mode G → vec = true →
          ∃ A1, evalSpline G C (.point x) none k orders mode = .ok ⟨.array A1, none⟩ ∧
            A1.shape = tailShape vec m orders ∧
            ∀ tail, InShape (tailShape vec m orders) tail → A1.get tail = A.get (i :: tail)) := by
  obtain ⟨A, h1, h2, h3⟩ := evalSpline_rows_alloc h.good xs hxs mode
  refine ⟨A, h1, h2, fun i x hi => ?_⟩
  obtain ⟨hi', rfl⟩ := List.getElem?_eq_some_iff.1 hi
  have hx := hxs _ (List.getElem_mem hi')
  have hr := (h.good.returns mode _ hx).congr fun tail ht => (h3 i hi' tail ht).symm
  refine ⟨?_, ?_, hr.pointTuple, hr.pointArray⟩
  · obtain ⟨A1, g1, _, g3⟩ := hr.rows [xs[i]] (by simpa using hx)
    exact ⟨A1, g1, fun tail ht => g3 0 rfl tail ht⟩
  · intro hm hv ho
    exact hr.pointScalar hm hv ho none

/-- C07: the result depends on no other row, so rearranging (`f` maps new positions to old ones:
permuting, splitting, repeating) the points rearranges the results. -/
theorem C07_rows_rearranged (h : AnyRequest k G C vec m orders) (mode : String)
    (xs ys : List (List K)) (hxs : ∀ y ∈ xs, y.length = G.length) (f : ℕ → ℕ)
    (hys : ∀ i < ys.length, ys[i]? = xs[f i]? ) :
    ∃ A B, evalSpline G C (.rows xs) none k orders mode = .ok ⟨.array A, none⟩ ∧
      evalSpline G C (.rows ys) none k orders mode = .ok ⟨.array B, none⟩ ∧
      ∀ i < ys.length, ∀ tail, InShape (tailShape vec m orders) tail →
        B.get (i :: tail) = A.get (f i :: tail) := by
  have hys' : ∀ y ∈ ys, y.length = G.length := by
    intro y hy
    obtain ⟨i, hi, rfl⟩ := List.getElem_of_mem hy
    have := hys i hi
    rw [List.getElem?_eq_getElem hi] at this
    obtain ⟨hf, hf'⟩ := List.getElem?_eq_some_iff.1 this.symm
    rw [← hf']
    exact hxs _ (List.getElem_mem hf)
  obtain ⟨A, h1, h2, h3⟩ := evalSpline_rows_alloc h.good xs hxs mode
  obtain ⟨B, g1, g2, g3⟩ := evalSpline_rows_alloc h.good ys hys' mode
  refine ⟨A, B, h1, g1, fun i hi tail ht => ?_⟩
  have := hys i hi
  rw [List.getElem?_eq_getElem hi] at this
  obtain ⟨hf, hf'⟩ := List.getElem?_eq_some_iff.1 this.symm
  rw [g3 i hi tail ht, h3 (f i) hf tail ht, hf']

/-- C08, lists of points, in any arithmetic: the supplied array ends up with the contents the
allocating call returns, whatever it contained. -/
theorem C08_inplace_rows (h : AnyRequest k G C vec m orders) (mode : String)
    (xs : List (List K)) (hxs : ∀ y ∈ xs, y.length = G.length) :
    ∃ A, evalSpline G C (.rows xs) none k orders mode = .ok ⟨.array A, none⟩ ∧
      ∀ B : NdArray K, B.shape = xs.length :: tailShape vec m orders →
        ∃ A', evalSpline G C (.rows xs) (some B) k orders mode = .ok ⟨.none, some A'⟩ ∧
          A.Same A' := by
  obtain ⟨A, h1, h2, h3⟩ := evalSpline_rows_alloc h.good xs hxs mode
  refine ⟨A, h1, fun B hB => ?_⟩
  obtain ⟨A', g1, g2, g3⟩ := evalSpline_rows_out h.good xs hxs mode B hB
  refine ⟨A', g1, h2.trans g2.symm, fun idx hidx => ?_⟩
  rw [h2] at hidx
  obtain ⟨i, tail, rfl, hi, ht⟩ := inShape_cons_iff.1 hidx
  rw [h3 i hi tail ht, g3 i hi tail ht]

/-- C08, single point (vector values: an array; derivatives of scalar values: a tuple), every mode
but constant. Missing: mode constant, where the statement is false, see `C08_inplace_fails`. -/
theorem C08_inplace_point_partial (h : AnyRequest k G C vec m orders) (mode : String)
    (hm : PointModeOk mode G) (hc : mode ≠ "constant") (x : List K) (hx : x.length = G.length)
    (hv : vec = true ∨ orders ≠ none) :
    ∃ A : NdArray K, A.shape = tailShape vec m orders ∧
      (vec = true → ∃ A1, evalSpline G C (.point x) none k orders mode = .ok ⟨.array A1, none⟩ ∧
        A1.Same A) ∧
      (vec = false → evalSpline G C (.point x) none k orders mode
        = .ok ⟨.tuple ((List.range (A.shape.getD 0 0)).map fun j => A.get [j]), none⟩) ∧
      ∀ B : NdArray K, B.shape = tailShape vec m orders →
        ∃ A', evalSpline G C (.point x) (some B) k orders mode = .ok ⟨.none, some A'⟩ ∧
          A.Same A' := by
  have hr := h.good.returns mode x hx
  refine ⟨⟨tailShape vec m orders, rowEntry k mode G C vec orders x⟩, rfl, ?_, ?_, ?_⟩
  · intro hv
    obtain ⟨A1, h1, h2, h3⟩ := hr.pointArray hm hv
    refine ⟨A1, h1, h2, fun idx hidx => h3 idx (by rwa [h2] at hidx)⟩
  · intro hv'
    subst hv'
    cases orders with
    | none => simp at hv
    | some os => exact hr.pointTuple hm hc rfl os rfl
  · intro B hB
    obtain ⟨A', h1, h2, h3⟩ := hr.pointOut hm hc hv B hB
    exact ⟨A', h1, (h2.trans hB).symm, fun idx hidx => (h3 idx hidx).symm⟩

/-- C09, in any arithmetic: component `j` of a vector-valued spline is the scalar spline with the
`j`-th components of the coefficients, for every way of calling. -/
theorem C09_components (h : AnyRequest k G C true m orders) (mode : String) (x : List K)
    (hx : x.length = G.length) :
    ∃ E, Returns k G C true m orders mode x E ∧
      ∀ j < m, Returns k G ⟨C.shape.dropLast, fun idx => C.get (idx ++ [j])⟩ false 0 orders mode x
        (fun tail => E (j :: tail)) := by
  refine ⟨_, h.good.returns mode x hx, fun j _ => ?_⟩
  have h' : AnyRequest k G ⟨C.shape.dropLast, fun idx => C.get (idx ++ [j])⟩ false 0 orders :=
    ⟨h.nonempty, h.axes, by simp [h.shape], h.degree, h.orders_ok, h.scale⟩
  refine (h'.good.returns mode x hx).congr fun tail _ => ?_
  simp [rowEntry]

/-- C17 is violated by every grid with a nonuniform axis: the single-point call with mode nearest or
constant fails. -/
theorem C17_single_point_fails (h : AnyRequest k G C vec m orders) (out : Option (NdArray K))
    (x : List K) (mode : String) (hmode : mode = "nearest" ∨ mode = "constant") (gc : List K)
    (hg : GridDim.array gc ∈ G) :
    evalSpline G C (.point x) out k orders mode = .error (.name "undefined global") :=
  evalSpline_point_nonuniform h.good out x mode hmode _ hg rfl

/-- C17 for grids whose axes are all uniform: the single-point call of values succeeds in every
mode and gives the numbers of the list call (also derivatives, except in mode constant for scalar
values).  Missing: grids with a nonuniform axis, where the call fails. -/
theorem C17_single_point_partial (h : AnyRequest k G C vec m orders)
    (hu : ∀ g ∈ G, g.gtype = .uniform) (mode : String) (x : List K) (hx : x.length = G.length)
    (ho : vec = true ∨ orders = none ∨ mode ≠ "constant") :
    ∃ r A, evalSpline G C (.point x) none k orders mode = .ok ⟨r, none⟩ ∧
      evalSpline G C (.rows [x]) none k orders mode = .ok ⟨.array A, none⟩ ∧
      ((vec = false ∧ orders = none ∧ r = .scalar (A.get [0])) ∨
       (vec = false ∧ ∃ os, orders = some os ∧
          r = .tuple ((List.range os.length).map fun j => A.get [0, j])) ∨
       (vec = true ∧ ∃ A1, r = .array A1 ∧ A1.shape = tailShape vec m orders ∧
          ∀ tail, InShape (tailShape vec m orders) tail → A1.get tail = A.get (0 :: tail))) := by
  obtain ⟨A, h1, _, h3⟩ := C07_rows_are_points h mode [x] (by simpa using hx)
  obtain ⟨_, p1, p2, p3⟩ := h3 0 x rfl
  have hm : PointModeOk mode G := fun _ => hu
  cases vec with
  | true =>
    obtain ⟨A1, q1, q2, q3⟩ := p3 hm rfl
    exact ⟨_, A, q1, h1, Or.inr (Or.inr ⟨rfl, A1, rfl, q2, q3⟩)⟩
  | false =>
    cases orders with
    | none => exact ⟨_, A, p1 hm rfl rfl, h1, Or.inl ⟨rfl, rfl, rfl⟩⟩
    | some os =>
      exact ⟨_, A, p2 hm (by simpa using ho) rfl os rfl, h1, Or.inr (Or.inl ⟨rfl, os, rfl, rfl⟩)⟩

end Any

section Exact

variable {F : Type} [Field F] [LinearOrder F] [IsStrictOrderedRing F] [FloorRing F]

variable {k : ℕ} {G : List (GridDim F)} {C : NdArray F} {vec : Bool} {m : ℕ}
  {orders : Option (List (List ℕ))}

/-- C04. Mode nearest gives at `x` the numbers of the default mode at the projection of `x` on the
grid box (for which all modes agree); values and derivatives, linear and cubic. -/
theorem C04_nearest (h : Request k G C vec m orders) (x : List F) (hx : x.length = G.length) :
    ∃ E, Returns k G C vec m orders "nearest" x E ∧
      (∀ mode, Returns k G C vec m orders mode (projBox G x) E) ∧
      (InBox G x → Returns k G C vec m orders "linear" x E) := by
  have hp := projBox_inBox G x h.grid.2 hx
  refine ⟨_, h.good.returns "nearest" x hx, fun mode => ?_, fun hin => ?_⟩
  · refine (h.good.returns mode _ hp.length_eq.symm).congr fun tail _ => ?_
    simp only [rowEntry]
    rw [evalMode_inBox _ _ _ _ _ _ h.grid.2 hp]
    simp [evalMode, zipWith_clamp G x h.grid.2]
  · refine (h.good.returns "linear" x hx).congr fun tail _ => ?_
    simp only [rowEntry]
    rw [evalMode_inBox _ _ _ _ _ _ h.grid.2 hin, evalMode_inBox _ _ _ _ _ _ h.grid.2 hin]

/-- C10. The results for `p C + q C'` are `p` times those for `C` plus `q` times those for `C'`, for
values and derivatives, linear and cubic, every mode. -/
theorem C10_linear_in_coefficients (h : Request k G C vec m orders) {C' : NdArray F}
    (h' : Request k G C' vec m orders) (p q : F) (mode : String) (x : List F)
    (hx : x.length = G.length) :
    ∃ E E', Returns k G C vec m orders mode x E ∧ Returns k G C' vec m orders mode x E' ∧
      Returns k G ⟨C.shape, fun idx => p * C.get idx + q * C'.get idx⟩ vec m orders mode x
        (fun tail => p * E tail + q * E' tail) := by
  refine ⟨_, _, h.good.returns mode x hx, h'.good.returns mode x hx, ?_⟩
  have h2 : Request k G ⟨C.shape, fun idx => p * C.get idx + q * C'.get idx⟩ vec m orders :=
    ⟨h.grid, h.shape, h.degree, h.orders_ok⟩
  refine (h2.good.returns mode x hx).congr fun tail _ => ?_
  simp only [rowEntry, evalMode]
  split_ifs <;> simp [evalAt_linear k]

/-- `AnyRequest` covers exact arithmetic (orders below 10). -/
theorem AnyRequest.of_request (h : Request k G C vec m orders)
    (ho : ∀ os, orders = some os → ∀ oo ∈ os, ∀ l ∈ oo, l < 10) :
    AnyRequest k G C vec m orders where
  nonempty := h.grid.1
  axes := h.good.wf
  shape := by
    rw [h.shape]
    congr 1
  degree := h.degree
  orders_ok os hos := ⟨(h.orders_ok os hos).1, fun oo hoo =>
    ⟨((h.orders_ok os hos).2 oo hoo).1, ho os hos oo hoo, ((h.orders_ok os hos).2 oo hoo).2⟩⟩
  scale hk ho a b n hg := h.good.deriv hk ho _ hg 0

end Exact

/-! ### Concrete cases -/

/-- A vector-valued linear spline with two components on a uniform axis. -/
def demoG1 : List (GridDim ℚ) := [.uniform 0 1 2]

def demoC1 : NdArray ℚ := ⟨[2, 2], fun idx => (idx.getD 0 0 : ℚ) + 1⟩

theorem demo_grid1 : ValidGrid demoG1 :=
  ⟨by simp [demoG1], by simp [demoG1, ValidAxis]⟩

theorem demo_request1 : AnyRequest 1 demoG1 demoC1 true 2 none :=
  AnyRequest.of_request ⟨demo_grid1, by simp [demoC1, demoG1, nNodes], Or.inl rfl, by simp⟩ (by simp)

/-- The values are 1 and 2 at the nodes 0 and 1, hence 3 at the point 2. -/
theorem demo1_linear : Returns 1 demoG1 demoC1 true 2 none "linear" [2] (fun _ => 3) := by
  refine (C02_linear_reproduces_multiaffine (G := demoG1) (C := demoC1) (vec := true) (m := 2)
    ⟨demo_grid1, by simp [demoC1, demoG1, nNodes], Or.inl rfl, by simp⟩
    (fun _ z => z.getD 0 0 + 1) ?_ ?_ [2] rfl).congr ?_
  · intro _ x hx i hi
    obtain ⟨u, rfl⟩ : ∃ u, x = [u] := by
      match x, hx with
      | [u], _ => exact ⟨u, rfl⟩
    have : i = 0 := by simp [demoG1] at hi; omega
    subst this
    exact ⟨1, 1, fun t => by simp; ring⟩
  · intro idx tail hidx ht
    obtain ⟨i, r, rfl, hi, hr⟩ := inShape_cons_iff.1
      (show InShape (2 :: []) idx from hidx)
    rw [inShape_nil_iff] at hr
    subst hr
    norm_num [demoC1, nodeAt, demoG1, node]
  · intro tail _; norm_num

theorem demo1_outside : Outside demoG1 [2] :=
  ⟨0, _, 2, rfl, rfl, Or.inr (by norm_num [hi])⟩

/-- C05 is false: in mode constant the in-place single-point call at the outside point 2 leaves 3 in
the array instead of 0. -/
theorem C05_constant_fails : ∃ A, evalSpline demoG1 demoC1 (.point [2])
    (some (NdArray.zeros [2])) 1 none "constant" = .ok ⟨.none, some A⟩ ∧ Outside demoG1 [2] ∧
    A.get [0] = 3 := by
  have hm : PointModeOk "constant" demoG1 := fun _ => by simp [demoG1, GridDim.gtype]
  obtain ⟨E, h1, h2⟩ := C05_constant_inplace_point demo_request1 [2] rfl hm
  obtain ⟨A, h3, _, h4⟩ := h2 (NdArray.zeros [2]) rfl
  refine ⟨A, h3, demo1_outside, ?_⟩
  rw [h4 [0] (by decide)]
  obtain ⟨A1, e1, _, e2⟩ := h1.pointArray (fun h => by simp at h) rfl
  obtain ⟨A2, f1, _, f2⟩ := demo1_linear.pointArray (fun h => by simp at h) rfl
  rw [e1] at f1
  cases f1
  rw [← e2 [0] (by decide), f2 [0] (by decide)]

/-- C08 is false: at the same point the allocating call returns zeros and the in-place call leaves
3 in the array. -/
theorem C08_inplace_fails : ∃ A A', evalSpline demoG1 demoC1 (.point [2]) none 1 none "constant"
      = .ok ⟨.array A, none⟩ ∧
    evalSpline demoG1 demoC1 (.point [2]) (some (NdArray.zeros [2])) 1 none "constant"
      = .ok ⟨.none, some A'⟩ ∧ A.get [0] = 0 ∧ A'.get [0] = 3 := by
  obtain ⟨A', h1, h2, h3⟩ := C05_constant_fails
  have hm : PointModeOk "constant" demoG1 := fun _ => by simp [demoG1, GridDim.gtype]
  obtain ⟨A, g1, _, g3⟩ := ((C05_constant_partial demo_request1 [2] rfl).1 h2).pointArray hm rfl
  exact ⟨A, A', g1, h1, g3 [0] (by decide), h3⟩

/-- The request of `demo_request` (a mixed two dimensional grid), with derivatives. -/
theorem demo_request2 : AnyRequest 1 demoG demoC false 0 (some [[0, 0], [1, 0], [1, 1]]) :=
  AnyRequest.of_request ⟨demo_grid, by simp [demoC, demoG, nNodes], Or.inl rfl, by simp [demoG]⟩
    (by simp)

example := C05_constant_partial demo_request2 [5, 5] rfl
example := C07_rows_are_points demo_request2 "linear" [[0, 0], [1/2, 7]] (by simp [demoG])
example := C08_inplace_rows demo_request2 "constant" [[0, 0], [1/2, 7]] (by simp [demoG])
example := C08_inplace_point_partial demo_request2 "linear" (fun h => by simp at h) (by decide)
  [1, 1] rfl (Or.inr (by simp))
example := C09_components demo_request1 "nearest" [3] rfl
example := C17_single_point_fails demo_request2 none [1, 1] "nearest" (Or.inl rfl) [0, 1, 3]
  (by simp [demoG])
example := C17_single_point_partial demo_request1 (by simp [demoG1, GridDim.gtype]) "nearest" [5] rfl
  (Or.inl rfl)
example := C04_nearest demo_request [-1, 7] rfl
example := C10_linear_in_coefficients demo_request demo_request 2 (-1) "constant" [-1, 7] rfl

end Interp.Props
