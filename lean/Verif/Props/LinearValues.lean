import Verif.Proofs.LinearMulti
import Mathlib.Data.Rat.Floor

/-!
# Values of linear splines: C01, C02, C03, C11, C15

Exact arithmetic: `F` is any linearly ordered field with a floor function.  `Returns` (in
`Verif.Spec.Api`) covers all the ways of calling `eval_spline`; `evalLinear_eq` below links
`eval_linear` to it.
-/

set_option linter.unusedSectionVars false

namespace Interp.Props
open Interp.Codegen Interp.Spec Interp.Ref

variable {F : Type} [Field F] [LinearOrder F] [IsStrictOrderedRing F] [FloorRing F]

variable {k : ℕ} {G : List (GridDim F)} {C : NdArray F} {vec : Bool} {m : ℕ}

/-- `eval_linear` and `eval_cubic` are `eval_spline` with the documented defaults. -/
theorem evalLinear_eq (G : List (GridDim F)) (C : NdArray F) (p : Points F) (A : NdArray F)
    (e : ExtrapOpt) :
    evalLinear G C p [] = evalSpline G C p none 1 none "linear" ∧
    evalLinear G C p [.extrap e] = evalSpline G C p none 1 none e.mode ∧
    evalLinear G C p [.out A] = evalSpline G C p (some A) 1 none "linear" ∧
    evalLinear G C p [.out A, .extrap e] = evalSpline G C p (some A) 1 none e.mode :=
  ⟨rfl, rfl, rfl, rfl⟩

theorem evalCubic_eq (G : List (GridDim F)) (C : NdArray F) (p : Points F) (A : NdArray F)
    (e : ExtrapOpt) :
    evalCubic G C p [] = evalSpline G C p none 3 none "linear" ∧
    evalCubic G C p [.extrap e] = evalSpline G C p none 3 none e.mode ∧
    evalCubic G C p [.out A] = evalSpline G C p (some A) 3 none "linear" ∧
    evalCubic G C p [.out A, .extrap e] = evalSpline G C p (some A) 3 none e.mode :=
  ⟨rfl, rfl, rfl, rfl⟩

/-- C01. At a node, every call returns the stored value, in every mode. -/
theorem C01_linear_interpolates (h : Request 1 G C vec m none) (mode : String) (idx : List ℕ)
    (hidx : InShape (gridShape G) idx) :
    Returns 1 G C vec m none mode (nodeAt G idx) (fun tail => C.get (idx ++ tail)) := by
  refine (h.good.returns mode _ (nodeAt_length G idx hidx)).congr fun tail ht => ?_
  rw [rowEntry_plain 1 mode G C vec m _ tail ht,
    evalMode_inBox 1 mode G _ _ _ h.grid.2 (nodeAt_inBox G idx h.grid.2 hidx)]
  exact plain_node G idx (fun r => C.get (r ++ tail)) h.grid.2 hidx

/-- C02. Data sampled from multi-affine functions (one per component) are reproduced at every
point, inside and outside the grid. -/
theorem C02_linear_reproduces_multiaffine (h : Request 1 G C vec m none)
    (f : List ℕ → List F → F) (hf : ∀ tail, MultiAffine G.length (f tail))
    (hC : ∀ idx tail, InShape (gridShape G) idx → InShape (tailShape vec m none) tail →
      C.get (idx ++ tail) = f tail (nodeAt G idx))
    (x : List F) (hx : x.length = G.length) :
    Returns 1 G C vec m none "linear" x (fun tail => f tail x) := by
  refine (h.good.returns "linear" x hx).congr fun tail ht => ?_
  rw [rowEntry_plain 1 _ G C vec m _ tail ht]
  show plain 1 G x (fun r => C.get (r ++ tail)) = f tail x
  rw [← plain_multiAffine G (f tail) x h.grid.2 (hf tail) hx]
  exact plain_congr G x _ _ h.grid.2 hx (fun idx hidx => hC idx tail hidx ht)

/-- C03. In a cell, the result is between any bounds of the values at the corners of that cell; in
every mode. -/
theorem C03_linear_range (h : Request 1 G C vec m none) (mode : String) (x : List F)
    (J : List ℕ) (hJ : InClosedCell G x J) (lower upper : List ℕ → F)
    (hb : ∀ idx tail, IsCorner J idx → InShape (tailShape vec m none) tail →
      lower tail ≤ C.get (idx ++ tail) ∧ C.get (idx ++ tail) ≤ upper tail) :
    ∃ E, Returns 1 G C vec m none mode x E ∧
      ∀ tail, InShape (tailShape vec m none) tail → lower tail ≤ E tail ∧ E tail ≤ upper tail := by
  have hx := inClosedCell_length G x J hJ
  refine ⟨_, h.good.returns mode x hx, fun tail ht => ?_⟩
  have hbox : InBox G x := by
    clear hb hx
    have hG := h.grid.2
    clear h
    induction G generalizing x J with
    | nil =>
      cases x with
      | nil => exact .nil
      | cons _ _ => exact hJ.elim
    | cons g G ih =>
      cases x with
      | nil => exact hJ.elim
      | cons t x =>
        cases J with
        | nil => exact hJ.elim
        | cons j J =>
          have hg := hG g (by simp)
          obtain ⟨⟨h1, h2, h3⟩, h4⟩ := hJ
          exact .cons ⟨(node_le hg (Nat.zero_le j) (by omega)).trans h2,
            h3.trans (node_le hg (by omega) (by omega))⟩
            (ih x J h4 (fun g' hg' => hG g' (by simp [hg'])))
  rw [rowEntry_plain 1 mode G C vec m _ tail ht, evalMode_inBox 1 mode G _ _ _ h.grid.2 hbox]
  constructor
  · rw [← plain_const G x (lower tail) hx h.grid.2]
    exact plain_mono G x J _ _ h.grid.2 hJ (fun idx hidx => (hb idx tail hidx ht).1)
  · rw [← plain_const G x (upper tail) hx h.grid.2]
    exact plain_mono G x J _ _ h.grid.2 hJ (fun idx hidx => (hb idx tail hidx ht).2)

/-- C03, global form: inside the grid box, or anywhere in mode nearest, between any bounds of the
data. -/
theorem C03_linear_range_global (h : Request 1 G C vec m none) (mode : String) (x : List F)
    (hx : x.length = G.length) (hmode : InBox G x ∨ mode = "nearest") (lower upper : List ℕ → F)
    (hb : ∀ idx tail, InShape (gridShape G) idx → InShape (tailShape vec m none) tail →
      lower tail ≤ C.get (idx ++ tail) ∧ C.get (idx ++ tail) ≤ upper tail) :
    ∃ E, Returns 1 G C vec m none mode x E ∧
      ∀ tail, InShape (tailShape vec m none) tail → lower tail ≤ E tail ∧ E tail ≤ upper tail := by
  refine ⟨_, h.good.returns mode x hx, fun tail ht => ?_⟩
  have key : ∀ y, InBox G y → lower tail ≤ plain 1 G y (fun r => C.get (r ++ tail)) ∧
      plain 1 G y (fun r => C.get (r ++ tail)) ≤ upper tail := by
    intro y hy
    obtain ⟨J, hJ⟩ := inClosedCell_exists G y h.grid.2 hy
    have hyl := inClosedCell_length G y J hJ
    constructor
    · rw [← plain_const G y (lower tail) hyl h.grid.2]
      exact plain_mono G y J _ _ h.grid.2 hJ
        (fun idx hidx => (hb idx tail (corner_inShape G y J idx hJ hidx) ht).1)
    · rw [← plain_const G y (upper tail) hyl h.grid.2]
      exact plain_mono G y J _ _ h.grid.2 hJ
        (fun idx hidx => (hb idx tail (corner_inShape G y J idx hJ hidx) ht).2)
  rw [rowEntry_plain 1 mode G C vec m _ tail ht]
  rcases hmode with hbox | rfl
  · rw [evalMode_inBox 1 mode G _ _ _ h.grid.2 hbox]
    exact key x hbox
  · have : evalMode 1 "nearest" G (List.replicate G.length 0) x (fun r => C.get (r ++ tail))
        = plain 1 G (projBox G x) (fun r => C.get (r ++ tail)) := by
      rw [← zipWith_clamp G x h.grid.2]; rfl
    rw [this]
    exact key _ (projBox_inBox G x h.grid.2 hx)

/-- C11. Larger data give larger values, in the box (every mode) and everywhere in mode nearest. -/
theorem C11_linear_monotone (h : Request 1 G C vec m none) {C' : NdArray F}
    (h' : Request 1 G C' vec m none)
    (hle : ∀ idx tail, InShape (gridShape G) idx → InShape (tailShape vec m none) tail →
      C.get (idx ++ tail) ≤ C'.get (idx ++ tail))
    (mode : String) (x : List F) (hx : x.length = G.length) (hmode : InBox G x ∨ mode = "nearest") :
    ∃ E E', Returns 1 G C vec m none mode x E ∧ Returns 1 G C' vec m none mode x E' ∧
      ∀ tail, InShape (tailShape vec m none) tail → E tail ≤ E' tail := by
  refine ⟨_, _, h.good.returns mode x hx, h'.good.returns mode x hx, fun tail ht => ?_⟩
  have key : ∀ y, InBox G y → plain 1 G y (fun r => C.get (r ++ tail)) ≤
      plain 1 G y (fun r => C'.get (r ++ tail)) := by
    intro y hy
    obtain ⟨J, hJ⟩ := inClosedCell_exists G y h.grid.2 hy
    exact plain_mono G y J _ _ h.grid.2 hJ
      (fun idx hidx => hle idx tail (corner_inShape G y J idx hJ hidx) ht)
  rw [rowEntry_plain 1 mode G C vec m _ tail ht, rowEntry_plain 1 mode G C' vec m _ tail ht]
  rcases hmode with hbox | rfl
  · rw [evalMode_inBox 1 mode G _ _ _ h.grid.2 hbox, evalMode_inBox 1 mode G _ _ _ h.grid.2 hbox]
    exact key x hbox
  · have : ∀ D : NdArray F,
        evalMode 1 "nearest" G (List.replicate G.length 0) x (fun r => D.get (r ++ tail))
        = plain 1 G (projBox G x) (fun r => D.get (r ++ tail)) := by
      intro D; rw [← zipWith_clamp G x h.grid.2]; rfl
    rw [this, this]
    exact key _ (projBox_inBox G x h.grid.2 hx)

theorem lin1_sameNodes {g g' : GridDim F} (hg : ValidAxis g) (hg' : ValidAxis g')
    (h : SameNodes g g') (x : F) (c : ℕ → F) : lin1 g x c = lin1 g' x c := by
  obtain ⟨hn, hnode⟩ := h
  have hc := inCell_cell hg x
  have hc1 := hc.1
  have e1 := hnode _ (show (cell g x).toNat < nNodes g by omega)
  have e2 := hnode _ hc1
  have hc' : InCell g' x (cell g x).toNat := by
    refine ⟨by omega, ?_, ?_⟩
    · rcases hc.2.1 with h | h
      · exact Or.inl h
      · exact Or.inr (by rwa [← e1])
    · rcases hc.2.2 with h | h
      · exact Or.inl (by omega)
      · exact Or.inr (by rwa [← e2])
  rw [lin1_eq hg x c hc, lin1_eq hg' x c hc', segVal, segVal, e1, e2]

theorem plain_sameNodes {G G' : List (GridDim F)} (h : List.Forall₂ SameNodes G G')
    (hG : ∀ g ∈ G, ValidAxis g) (hG' : ∀ g ∈ G', ValidAxis g) :
    ∀ (x : List F) (c : List ℕ → F), x.length = G.length → plain 1 G x c = plain 1 G' x c := by
  induction h with
  | nil => intro x c _; rfl
  | cons h1 _ ih =>
    intro x c hx
    cases x with
    | nil => simp at hx
    | cons t x =>
      rw [plain_cons, plain_cons,
        lin1_sameNodes (hG _ (by simp)) (hG' _ (by simp)) h1]
      congr 1
      funext j
      exact ih (fun g hg => hG g (by simp [hg])) (fun g hg => hG' g (by simp [hg])) x _
        (by simpa using hx)

theorem ends_sameNodes {g g' : GridDim F} (hg : ValidAxis g) (h : SameNodes g g') :
    first g = first g' ∧ last g = last g' := by
  have := ValidAxis.two_le hg
  refine ⟨h.2 0 (by omega), ?_⟩
  unfold last
  rw [← h.1]
  exact h.2 _ (by omega)

theorem projBox_sameNodes {G G' : List (GridDim F)} (h : List.Forall₂ SameNodes G G')
    (hG : ∀ g ∈ G, ValidAxis g) : ∀ x : List F, projBox G x = projBox G' x := by
  induction h with
  | nil => intro x; simp [projBox]
  | cons h1 _ ih =>
    intro x
    cases x with
    | nil => simp [projBox]
    | cons t x =>
      have he := ends_sameNodes (hG _ (by simp)) h1
      have := ih (fun g hg => hG g (by simp [hg])) x
      unfold projBox at this ⊢
      simp only [List.zipWith_cons_cons, this, he.1, he.2]

theorem inBox_sameNodes {G G' : List (GridDim F)} (h : List.Forall₂ SameNodes G G')
    (hG : ∀ g ∈ G, ValidAxis g) (x : List F) : InBox G x ↔ InBox G' x := by
  induction h generalizing x with
  | nil => constructor <;> intro h <;> cases h <;> exact .nil
  | cons h1 _ ih =>
    have he := ends_sameNodes (hG _ (by simp)) h1
    constructor <;> intro h <;> cases h with
      | cons a b =>
        refine .cons ?_ ?_
        · simpa only [he.1, he.2] using a
        · first
          | exact (ih (fun g hg => hG g (by simp [hg])) _).1 b
          | exact (ih (fun g hg => hG g (by simp [hg])) _).2 b

theorem evalMode_sameNodes {G G' : List (GridDim F)} (h : List.Forall₂ SameNodes G G')
    (hG : ∀ g ∈ G, ValidAxis g) (hG' : ∀ g ∈ G', ValidAxis g) (mode : String) (x : List F)
    (c : List ℕ → F) (hx : x.length = G.length) :
    evalMode 1 mode G (List.replicate G.length 0) x c
      = evalMode 1 mode G' (List.replicate G'.length 0) x c := by
  have hl := h.length_eq
  have hp : ∀ y, y.length = G.length → evalAt 1 G (List.replicate G.length 0) y c
      = evalAt 1 G' (List.replicate G'.length 0) y c := fun y hy => plain_sameNodes h hG hG' y c hy
  unfold evalMode
  rw [zipWith_clamp G x hG, zipWith_clamp G' x hG', ← projBox_sameNodes h hG,
    hp x hx, hp (projBox G x) (by simp [projBox, hx])]
  have hb : (List.zipWith isOutside G x).any id = (List.zipWith isOutside G' x).any id := by
    rw [Bool.eq_iff_iff, ← not_iff_not, Bool.not_eq_true, Bool.not_eq_true,
      any_outside_iff G x hG hx, any_outside_iff G' x hG' (hx.trans hl),
      inBox_sameNodes h hG x]
  rw [hb]

/-- C15. Two valid descriptions of the same nodes (for instance `(a, b, n)` and the array of its
nodes, on any subset of the axes) give the same values everywhere, in every mode. -/
theorem C15_uniform_eq_nonuniform (h : Request 1 G C vec m none) {G' : List (GridDim F)}
    (h' : ValidGrid G') (hn : List.Forall₂ SameNodes G G') (mode : String) (x : List F)
    (hx : x.length = G.length) :
    ∃ E, Returns 1 G C vec m none mode x E ∧ Returns 1 G' C vec m none mode x E := by
  have hmap : ∀ {G G' : List (GridDim F)}, List.Forall₂ SameNodes G G' →
      (G.map fun g => nNodes g + (1 - 1)) = G'.map fun g => nNodes g + (1 - 1) := by
    intro G G' hn
    induction hn with
    | nil => rfl
    | cons h1 _ ih => simp only [List.map_cons, h1.1, ih]
  have hr : Request 1 G' C vec m none := by
    refine ⟨h', ?_, Or.inl rfl, by simp⟩
    rw [h.shape, hmap hn]
  refine ⟨_, h.good.returns mode x hx, ?_⟩
  refine (hr.good.returns mode x (hx.trans hn.length_eq)).congr fun tail ht => ?_
  rw [rowEntry_plain 1 mode G' C vec m _ tail ht, rowEntry_plain 1 mode G C vec m _ tail ht]
  exact (evalMode_sameNodes hn h.grid.2 h'.2 mode x _ hx).symm

/-- The array of nodes of an axis. -/
def asArray (g : GridDim F) : GridDim F := .array ((List.range (nNodes g)).map (node g))

/-- It is a valid axis with the same nodes, so `C15_uniform_eq_nonuniform` applies to it. -/
theorem asArray_sameNodes {g : GridDim F} (hg : ValidAxis g) :
    ValidAxis (asArray g) ∧ SameNodes g (asArray g) := by
  refine ⟨⟨by simpa using ValidAxis.two_le hg, ?_⟩, by simp [asArray, nNodes], ?_⟩
  · rw [List.pairwise_map]
    apply List.Pairwise.imp_of_mem (R := (· < ·))
    · intro i j _ hj hij
      exact node_lt hg hij (by simpa using hj)
    · exact List.pairwise_lt_range
  · intro i hi
    simp [asArray, node, hi]

/-! ### A concrete case -/

/-- A two dimensional grid mixing a uniform and a nonuniform axis. -/
def demoG : List (GridDim ℚ) := [.uniform 0 2 3, .array [0, 1, 3]]

/-- Values `10 i + j`. -/
def demoC : NdArray ℚ := ⟨[3, 3], fun idx => 10 * (idx.getD 0 0 : ℚ) + (idx.getD 1 0 : ℚ)⟩

theorem demo_grid : ValidGrid demoG := by
  refine ⟨by simp [demoG], ?_⟩
  intro g hg
  simp only [demoG, List.mem_cons, List.not_mem_nil, or_false] at hg
  rcases hg with rfl | rfl
  · exact ⟨by norm_num, by norm_num⟩
  · refine ⟨by simp, ?_⟩
    norm_num [List.pairwise_cons]

theorem demo_request : Request 1 demoG demoC false 0 none :=
  ⟨demo_grid, by simp [demoC, demoG, nNodes], Or.inl rfl, by simp⟩

/-- C01 applied: the point (1, 3) is the node (1, 2), where the value 12 is stored. -/
example : evalSpline demoG demoC (.point [1, 3]) none 1 none "linear"
    = .ok ⟨.scalar 12, none⟩ := by
  have h := (C01_linear_interpolates demo_request "linear" [1, 2]
    (by decide)).pointScalar (by intro h; simp at h) rfl rfl none
  have hn : nodeAt demoG [1, 2] = [1, 3] := by norm_num [nodeAt, demoG, node]
  rw [hn] at h
  rw [h]
  norm_num [demoC]

/-- C02 applied to `f(x, y) = 1 + 2 x y`, at a point outside the grid. -/
example : evalSpline demoG ⟨[3, 3], fun idx => (fun z => 1 + 2 * z.getD 0 0 * z.getD 1 0)
      (nodeAt demoG idx)⟩ (.point [5, -1]) none 1 none "linear" = .ok ⟨.scalar (-9), none⟩ := by
  have h := (C02_linear_reproduces_multiaffine (G := demoG)
    (C := ⟨[3, 3], fun idx => (fun z => 1 + 2 * z.getD 0 0 * z.getD 1 0) (nodeAt demoG idx)⟩)
    (vec := false) (m := 0)
    ⟨demo_grid, by simp [demoG, nNodes], Or.inl rfl, by simp⟩
    (fun _ z => 1 + 2 * z.getD 0 0 * z.getD 1 0) (by
      intro _ x hx i hi
      simp only [demoG, List.length_cons, List.length_nil] at hx hi
      obtain ⟨u, v, rfl⟩ : ∃ u v, x = [u, v] := by
        match x, hx with
        | [u, v], _ => exact ⟨u, v, rfl⟩
      have : i = 0 ∨ i = 1 := by omega
      rcases this with rfl | rfl
      · exact ⟨1, 2 * v, fun t => by simp; ring⟩
      · exact ⟨1, 2 * u, fun t => by simp⟩)
    (by
      intro idx tail _ ht
      have : tail = [] := by rw [← inShape_nil_iff]; exact ht
      subst this; simp) [5, -1] (by simp [demoG])).pointScalar (by intro h; simp at h) rfl rfl none
  rw [h]
  norm_num

/-- C03, C11 and C15 apply to this request. -/
example : ∃ E, Returns 1 demoG demoC false 0 none "linear" [1/2, 2] E ∧
    ∀ tail, InShape (tailShape false 0 none) tail → (1 : ℚ) ≤ E tail ∧ E tail ≤ 12 :=
  C03_linear_range demo_request "linear" [1/2, 2] [0, 1]
    ⟨⟨by decide, by norm_num [demoG, node], by norm_num [demoG, node]⟩,
      ⟨by decide, by norm_num [demoG, node], by norm_num [demoG, node]⟩, trivial⟩
    (fun _ => 1) (fun _ => 12) (by
      intro idx tail hidx ht
      have : tail = [] := by rw [← inShape_nil_iff]; exact ht
      subst this
      cases hidx with
      | cons h1 h2 =>
        cases h2 with
        | cons h3 h4 =>
          cases h4
          rcases h1 with rfl | rfl <;> rcases h3 with rfl | rfl <;> norm_num [demoC])

example : ∃ E, Returns 1 demoG demoC false 0 none "nearest" [7, 1/3] E ∧
    Returns 1 (demoG.map asArray) demoC false 0 none "nearest" [7, 1/3] E :=
  C15_uniform_eq_nonuniform demo_request
    ⟨by simp [demoG], by
      intro g hg
      rw [List.mem_map] at hg
      obtain ⟨g', hg', rfl⟩ := hg
      exact (asArray_sameNodes (demo_grid.2 g' hg')).1⟩
    (by
      refine .cons (asArray_sameNodes (demo_grid.2 _ (by simp [demoG]))).2
        (.cons (asArray_sameNodes (demo_grid.2 _ (by simp [demoG]))).2 .nil))
    "nearest" [7, 1/3] (by simp [demoG])

example : ∃ E E', Returns 1 demoG demoC false 0 none "linear" [1, 2] E ∧
    Returns 1 demoG ⟨[3, 3], fun idx => demoC.get idx + 1⟩ false 0 none "linear" [1, 2] E' ∧
    ∀ tail, InShape (tailShape false 0 none) tail → E tail ≤ E' tail :=
  C11_linear_monotone demo_request
    ⟨demo_grid, by simp [demoG, nNodes], Or.inl rfl, by simp⟩ (by intro idx tail _ _; simp)
    "linear" [1, 2] (by simp [demoG])
    (Or.inl (.cons (by norm_num [first, last, node, nNodes, show Int.toNat 3 = 3 from rfl])
      (.cons (by norm_num [first, last, node, nNodes, show Int.toNat 3 = 3 from rfl]) .nil)))

end Interp.Props
