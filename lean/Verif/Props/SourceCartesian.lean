import Verif.Proofs.SrcCartesian
import Verif.Props.SourceOldFilter
import Verif.Props.Grids

/-!
# What the source text of `cartesian.py` computes: C114

The texts are those of `MoreTexts`, character for character; see C108 for how they are read and executed. The first theorems hold in any
arithmetic; the last two say what the rows of the result of the texts are.
-/

namespace Interp.Props
open Interp Interp.Spec Interp.Spec.PySrc Interp.Cartesian

/-- The texts of `cartesian.py` as a program. -/
def cartFile : Option Prog := load [cartesianText, mlinspaceText, repeat1dText] [] []

section
variable {K : Type} [Add K] [Sub K] [Mul K] [Div K] [Neg K] [Zero K] [One K] [NatCast K] [IntCast K]
  [LT K] [DecidableLT K] [LE K] [DecidableLE K] [BEq K] [IntFloor K] [Interp.Smolyak.Trig K]

/-- C114. `_repeat_1d(x, K, out)` with a column of a matrix: the column gets the values of the model, no other array changes. -/
theorem C114_repeat_1d : ∃ P, cartFile = some P ∧
    ∀ n ≥ 2, ∀ (h : Heap K) (rx ro i rep a b : ℕ) (x : List K) (X A : NdArray K), ro ≠ rx → h[rx]? = some X → IsVec X x → h[ro]? = some A →
      A.shape = [a, b] →
      Shows (repeat1d x rep A i)
        (callName P n "_repeat_1d" [.arr rx [none], .int rep, .arr ro [none, some (i : ℤ)]] h)
        fun A' v h' => v = .none ∧ h' = h.set ro A' := by
  refine ⟨_, cart_load, fun n hn h rx ro i rep a b x X A hne hx hX ho hA => ?_⟩
  obtain ⟨n, rfl⟩ : ∃ m, n = m + 2 := ⟨n - 2, by omega⟩
  rw [callName, kglob_repeat, pure_bind, callN_fn]
  exact shows_of_sim (repeat_sim n ⟨X, hx, hX⟩ ho hne hA)

/-- C114. `cartesian(nodes, order)`: a list or tuple of lists, tuples or vectors, any order: the result is a new array with the values of the
model, or the same exception is raised; without `order` it is `"C"`. -/
theorem C114_cartesian : ∃ P, cartFile = some P ∧
    ∀ n ≥ 4, ∀ (h : Heap K) (v : Val K) (vs : List (Val K)) (nodes : List (List K)), v = .list vs ∨ v = .tup vs →
      List.Forall₂ (Nums h) vs nodes →
      (∀ order, Shows (cartesian nodes order) (callName P n "cartesian" [v, .str order] h) fun C => NewArray h 2 (some C)) ∧
      Shows (cartesian nodes "C") (callName P n "cartesian" [v] h) fun C => NewArray h 2 (some C) := by
  refine ⟨_, cart_load, fun n hn h v vs nodes hv hvs => ?_⟩
  obtain ⟨n, rfl⟩ : ∃ m, n = m + 4 := ⟨n - 4, by omega⟩
  have key (order : String) : Shows (cartesian nodes order) (callName cartProg (n + 4) "cartesian" [v, .str order] h)
      fun C => NewArray h 2 (some C) := by
    rw [callName, kglob_cartesian, pure_bind, callN_fn]
    refine shows_of_sim ((cartesian_sim n hv hvs order).mono ?_)
    rintro C _ ⟨t, rfl⟩
    exact ⟨⟨t ++ [C], by simp⟩, _, rfl, by simp, by simp⟩
  refine ⟨key, ?_⟩
  have := key "C"
  rw [callName, kglob_cartesian, pure_bind, callN_fn] at this ⊢
  exact this

/-- C114. `mlinspace(a, b, nums, order)`, with at least as many bounds as numbers of nodes (which may be negative): the result is a new array
with the values of the model, or the same exception is raised; without `order` it is `"C"`. -/
theorem C114_mlinspace : ∃ P, cartFile = some P ∧
    ∀ n ≥ 5, ∀ (h : Heap K) (v0 v1 v2 : Val K) (a b : List K) (nums : List ℤ), Nums h v0 a → Nums h v1 b → Whole v2 nums →
      nums.length ≤ a.length → nums.length ≤ b.length →
      (∀ order, Shows (mlinspace a b nums order) (callName P n "mlinspace" [v0, v1, v2, .str order] h) fun C => NewArray h 2 (some C)) ∧
      Shows (mlinspace a b nums "C") (callName P n "mlinspace" [v0, v1, v2] h) fun C => NewArray h 2 (some C) := by
  refine ⟨_, cart_load, fun n hn h v0 v1 v2 a b nums h0 h1 h2 hla hlb => ?_⟩
  obtain ⟨n, rfl⟩ : ∃ m, n = m + 5 := ⟨n - 5, by omega⟩
  have key (order : String) : Shows (mlinspace a b nums order) (callName cartProg (n + 5) "mlinspace" [v0, v1, v2, .str order] h)
      fun C => NewArray h 2 (some C) := by
    rw [callName, kglob_mlinspace, pure_bind, callN_fn]
    refine shows_of_sim ((mlinspace_sim n h0 h1 h2 hla hlb order).mono ?_)
    rintro C _ ⟨t, rfl⟩
    exact ⟨⟨t ++ [C], by simp⟩, _, rfl, by simp, by simp⟩
  refine ⟨key, ?_⟩
  have := key "C"
  rw [callName, kglob_mlinspace, pure_bind, callN_fn] at this ⊢
  exact this

/-- What a call that gives a result of the model returns. -/
theorem newArray_ok {x : Py (NdArray K)} {y : Py (Val K × Heap K)} {h : Heap K} {d : ℕ} {C : NdArray K} (hx : x = .ok C)
    (hy : Shows x y fun C => NewArray h d (some C)) : ∃ r t, y = .ok (.arr r (whole d), h ++ t) ∧ h.length ≤ r ∧ (h ++ t)[r]? = some C := by
  subst hx
  rcases y with e | ⟨v, h'⟩
  · exact hy.elim
  · obtain ⟨⟨t, rfl⟩, r, rfl, h1, h2⟩ := hy
    exact ⟨r, t, rfl, h1, h2⟩

/-- C114. The rows that the text of `cartesian` computes, for at least one axis and no empty axis: all combinations of the nodes, each
exactly once when no axis has a node twice. -/
theorem C114_cartesian_rows : ∃ P, cartFile = some P ∧
    ∀ n ≥ 4, ∀ (h : Heap K) (vs : List (Val K)) (nodes : List (List K)) (order : String), List.Forall₂ (Nums h) vs nodes → nodes ≠ [] →
      (∀ x ∈ nodes, x ≠ []) → ∃ r t A, callName P n "cartesian" [.list vs, .str order] h = .ok (.arr r [none, none], h ++ t) ∧
        h.length ≤ r ∧ (h ++ t)[r]? = some A ∧ (∀ p, p ∈ rowsOf A ↔ List.Forall₂ (fun x t => t ∈ x) nodes p) ∧
        ((∀ x ∈ nodes, x.Nodup) → (rowsOf A).Nodup) := by
  obtain ⟨P, hP, H⟩ := C114_cartesian (K := K)
  refine ⟨P, hP, fun n hn h vs nodes order hvs hne hpos => ?_⟩
  obtain ⟨A, hA, h1, h2⟩ := C53_cartesian_once_partial nodes hne hpos order
  obtain ⟨r, t, hy, hr, hrA⟩ := newArray_ok hA ((H n hn h _ vs nodes (.inl rfl) hvs).1 order)
  exact ⟨r, t, A, hy, hr, hrA, h1, h2⟩

end

section exact
variable {F : Type} [Field F] [LinearOrder F] [IsStrictOrderedRing F] [FloorRing F] [Interp.Smolyak.Trig F]

/-- C114. The rows that the text of `mlinspace` computes in exact arithmetic: the points of the regular grid, in row-major order. -/
theorem C114_mlinspace_rows : ∃ P, cartFile = some P ∧
    ∀ n ≥ 5, ∀ (h : Heap F) (v0 v1 v2 : Val F) (a b : List F) (nums : List ℤ), Nums h v0 a → Nums h v1 b → Whole v2 nums →
      a.length = nums.length → b.length = nums.length → (∀ n ∈ nums, 2 ≤ n) → nums ≠ [] →
      ∃ r t A, callName P n "mlinspace" [v0, v1, v2] h = .ok (.arr r [none, none], h ++ t) ∧ h.length ≤ r ∧ (h ++ t)[r]? = some A ∧
        A.shape = [(nums.map Int.toNat).prod, nums.length] ∧ rowsOf A = (allIdx (nums.map Int.toNat)).map (linPoint a b nums) := by
  obtain ⟨P, hP, H⟩ := C114_mlinspace (K := F)
  refine ⟨P, hP, fun n hn h v0 v1 v2 a b nums h0 h1 h2 hla hlb hnum hne => ?_⟩
  obtain ⟨A, hA, h3, h4⟩ := (C57_mlinspace a b nums hla hlb hnum hne).1
  obtain ⟨r, t, hy, hr, hrA⟩ := newArray_ok hA (H n hn h v0 v1 v2 a b nums h0 h1 h2 hla.ge hlb.ge).2
  exact ⟨r, t, A, hy, hr, hrA, h3, h4⟩

end exact

/-- The hypotheses can be met: a list and a vector, rational numbers. -/
example : ∃ P, cartFile = some P ∧ ∀ n ≥ 4, ∃ r t A,
    callName P n "cartesian" [.list [.list [.flt (1 : ℚ), .flt 2], .arr 0 [none]], .str "F"] [demoVec [3, 4, 5]] =
      .ok (.arr r [none, none], [demoVec [3, 4, 5]] ++ t) ∧ ([demoVec [3, 4, 5]] ++ t)[r]? = some A ∧ [2, 5] ∈ rowsOf A := by
  obtain ⟨P, hP, H⟩ := C114_cartesian_rows (K := ℚ)
  refine ⟨P, hP, fun n hn => ?_⟩
  obtain ⟨r, t, A, h1, -, h3, h4, -⟩ := H n hn [demoVec [3, 4, 5]] [.list [.flt 1, .flt 2], .arr 0 [none]] [[1, 2], [3, 4, 5]] "F"
    (.cons (.inl rfl) (.cons (.inr (.inr ⟨0, rfl, _, rfl, demoVec_isVec _⟩)) .nil)) (by simp) (by simp)
  exact ⟨r, t, A, h1, h3, (h4 _).mpr (.cons (by simp) (.cons (by simp) .nil))⟩

/-- Bounds as a tuple and a list, numbers of nodes as a tuple. -/
example : ∃ P, cartFile = some P ∧ ∀ n ≥ 5, ∃ r t A,
    callName P n "mlinspace" [.tup [.flt (0 : ℚ), .flt 1], .list [.flt 1, .flt 3], .tup [.int 2, .int 3]] [] = .ok (.arr r [none, none], t) ∧
      t[r]? = some A ∧ rowsOf A = [[0, 1], [0, 2], [0, 3], [1, 1], [1, 2], [1, 3]] := by
  obtain ⟨P, hP, H⟩ := C114_mlinspace_rows (F := ℚ)
  refine ⟨P, hP, fun n hn => ?_⟩
  obtain ⟨r, t, A, h1, -, h3, -, h5⟩ := H n hn [] (.tup [.flt 0, .flt 1]) (.list [.flt 1, .flt 3]) (.tup [.int 2, .int 3]) [0, 1] [1, 3] [2, 3]
    (.inr (.inl rfl)) (.inl rfl) (.inr (.inl rfl)) rfl rfl (by simp) (by simp)
  refine ⟨r, t, A, h1, h3, ?_⟩
  rw [h5]
  simp [allIdx, linPoint, List.range_succ]
  norm_num

end Interp.Props
