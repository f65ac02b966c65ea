import Verif.Proofs.Cartesian
import Verif.Proofs.Loops
import Verif.Props.LinearValues
import Verif.Props.CubicFilter

/-!
# Cartesian products and grids: C53, C54, C55, C56, C57

C53 and C56 hold in any arithmetic, the others in exact arithmetic.
-/

set_option linter.unusedSectionVars false
set_option linter.unusedSimpArgs false

namespace Interp.Props
open Interp.Codegen Interp.Spec Interp.Cartesian Interp.Ref

section any
variable {K : Type}

theorem pick_forall₂ [Zero K] : ∀ (nodes : List (List K)) (p : List K),
    (∃ idx, InShape (nodes.map List.length) idx ∧ pick nodes idx = p) ↔
      List.Forall₂ (fun x t => t ∈ x) nodes p
  | [], p => by
    constructor
    · rintro ⟨idx, h, rfl⟩
      cases idx with
      | nil => exact .nil
      | cons => exact h.elim
    · intro h; cases h; exact ⟨[], trivial, rfl⟩
  | x :: nodes, p => by
    constructor
    · rintro ⟨idx, h, rfl⟩
      cases idx with
      | nil => exact h.elim
      | cons i idx =>
        refine .cons ?_ ((pick_forall₂ nodes _).mp ⟨idx, h.2, rfl⟩)
        show x.getD i 0 ∈ x
        rw [List.getD_eq_getElem _ _ h.1]
        exact List.getElem_mem _
    · intro h
      cases h with
      | cons h1 h2 =>
        obtain ⟨idx, h3, rfl⟩ := (pick_forall₂ nodes _).mpr h2
        obtain ⟨i, hi, rfl⟩ := List.getElem_of_mem h1
        refine ⟨i :: idx, ⟨hi, h3⟩, ?_⟩
        simp only [pick, List.zipWith_cons_cons]
        rw [List.getD_eq_getElem _ _ hi]

theorem pick_inj [Zero K] : ∀ (nodes : List (List K)) (idx idx' : List ℕ),
    (∀ x ∈ nodes, x.Nodup) → InShape (nodes.map List.length) idx →
    InShape (nodes.map List.length) idx' → pick nodes idx = pick nodes idx' → idx = idx'
  | [], [], [], _, _, _, _ => rfl
  | [], _ :: _, _, _, h, _, _ => h.elim
  | [], [], _ :: _, _, _, h, _ => h.elim
  | _ :: _, [], _, _, h, _, _ => h.elim
  | _ :: _, _ :: _, [], _, _, h, _ => h.elim
  | x :: nodes, i :: idx, j :: idx', hn, h1, h2, h => by
    simp only [pick, List.zipWith_cons_cons, List.cons.injEq] at h
    rw [pick_inj nodes idx idx' (fun y hy => hn y (by simp [hy])) h1.2 h2.2 h.2]
    rw [List.getD_eq_getElem _ _ h1.1, List.getD_eq_getElem _ _ h2.1] at h
    rw [(List.Nodup.getElem_inj_iff (hn x (by simp))).mp h.1]

/-- C53, partial: at least one axis and no empty axis (see `C53_cartesian_fails`). In order `"C"`
the rows enumerate the combinations with the last index varying fastest, in every other order with
the first index varying fastest. -/
theorem C53_cartesian_partial [Zero K] (nodes : List (List K)) (hne : nodes ≠ [])
    (hpos : ∀ x ∈ nodes, x ≠ []) :
    (∃ A, cartesian nodes "C" = .ok A ∧
      A.shape = [(nodes.map List.length).prod, nodes.length] ∧
      rowsOf A = (allIdx (nodes.map List.length)).map (pick nodes)) ∧
    ∀ order, order ≠ "C" → ∃ A, cartesian nodes order = .ok A ∧
      A.shape = [(nodes.map List.length).prod, nodes.length] ∧
      rowsOf A = (allIdx (nodes.map List.length).reverse).map (fun idx => pick nodes idx.reverse) := by
  constructor
  · obtain ⟨A, h1, h2, h3⟩ := cartesian_rows nodes "C" hne hpos
    refine ⟨A, h1, h2, ?_⟩
    rw [rowsOf, allIdx_eq_unravel, List.map_map, h2]
    apply List.map_congr_left
    intro r hr
    have hr : r < (nodes.map List.length).prod := by simpa using hr
    rw [h3 r hr, Function.comp, ← dig_C _ r hr, List.length_map]
  · intro order ho
    obtain ⟨A, h1, h2, h3⟩ := cartesian_rows nodes order hne hpos
    refine ⟨A, h1, h2, ?_⟩
    rw [rowsOf, allIdx_eq_unravel, List.map_map, h2, List.prod_reverse]
    apply List.map_congr_left
    intro r hr
    have hr : r < (nodes.map List.length).prod := by simpa using hr
    rw [h3 r hr, Function.comp, ← dig_F order ho _ r hr, List.length_map]

theorem inShape_reverse {sh idx : List ℕ} (h : InShape sh idx) : InShape sh.reverse idx.reverse := by
  induction sh generalizing idx with
  | nil => cases idx with
    | nil => exact trivial
    | cons => exact h.elim
  | cons n sh ih => cases idx with
    | nil => exact h.elim
    | cons i idx =>
      rw [List.reverse_cons, List.reverse_cons]
      exact inShape_append (ih h.2) ⟨h.1, trivial⟩

/-- C53: the rows are exactly the combinations, and if no axis lists a node twice no combination is
listed twice. -/
theorem C53_cartesian_once_partial [Zero K] (nodes : List (List K)) (hne : nodes ≠ [])
    (hpos : ∀ x ∈ nodes, x ≠ []) (order : String) :
    ∃ A, cartesian nodes order = .ok A ∧
      (∀ p, p ∈ rowsOf A ↔ List.Forall₂ (fun x t => t ∈ x) nodes p) ∧
      ((∀ x ∈ nodes, x.Nodup) → (rowsOf A).Nodup) := by
  obtain ⟨hC, hF⟩ := C53_cartesian_partial nodes hne hpos
  by_cases ho : order = "C"
  · obtain ⟨A, h1, _, h3⟩ := hC
    refine ⟨A, by rw [ho]; exact h1, fun p => ?_, fun hn => ?_⟩
    · rw [h3, ← pick_forall₂]
      simp [mem_allIdx]
    · rw [h3]
      refine List.Nodup.map_on ?_ (nodup_allIdx _)
      intro a ha b hb h
      exact pick_inj nodes a b hn ((mem_allIdx _ _).mp ha) ((mem_allIdx _ _).mp hb) h
  · obtain ⟨A, h1, _, h3⟩ := hF order ho
    refine ⟨A, h1, fun p => ?_, fun hn => ?_⟩
    · rw [h3, ← pick_forall₂]
      simp only [List.mem_map, mem_allIdx]
      constructor
      · rintro ⟨idx, h, rfl⟩
        exact ⟨idx.reverse, by simpa using inShape_reverse h, rfl⟩
      · rintro ⟨idx, h, rfl⟩
        exact ⟨idx.reverse, inShape_reverse h, by rw [List.reverse_reverse]⟩
    · rw [h3]
      refine List.Nodup.map_on ?_ (nodup_allIdx _)
      intro a ha b hb h
      have := pick_inj nodes a.reverse b.reverse hn
        (by simpa using inShape_reverse ((mem_allIdx _ _).mp ha))
        (by simpa using inShape_reverse ((mem_allIdx _ _).mp hb)) h
      simpa using this

/-- C53 fails for degenerate lists: without axes the call raises a `TypeError`. -/
theorem C53_cartesian_fails [Zero K] (order : String) :
    cartesian ([] : List (List K)) order = .error .typeErr := rfl

theorem pyFor_error {α S : Type} (e : Err) (body : α → S → Py S) (P : S → Prop) :
    ∀ (l : List α) (s : S), P s →
    (∀ a ∈ l, ∀ s, P s → (∃ s', body a s = .ok s' ∧ P s') ∨ body a s = .error e) →
    (∃ a ∈ l, ∀ s, P s → body a s = .error e) → pyFor l body s = .error e
  | [], _, _, _, h => by simp at h
  | a :: l, s, hs, h1, h2 => by
    rw [Filter.pyFor_cons]
    rcases h1 a (by simp) s hs with ⟨s', h3, h4⟩ | h3
    · rw [h3, ok_bind]
      refine pyFor_error e body P l s' h4 (fun b hb => h1 b (by simp [hb])) ?_
      obtain ⟨b, hb, h5⟩ := h2
      rcases List.mem_cons.mp hb with rfl | hb
      · rw [h5 s hs] at h3; cases h3
      · exact ⟨b, hb, h5⟩
    · rw [h3, error_bind]

/-- C53 fails for degenerate lists: if an axis is empty the call raises a `ZeroDivisionError`
instead of returning a matrix without rows. -/
theorem C53_cartesian_empty_fails [Zero K] (nodes : List (List K)) (h : [] ∈ nodes)
    (order : String) : cartesian nodes order = .error .zeroDivision := by
  obtain ⟨j, hj, ej⟩ := List.getElem_of_mem h
  have hn : nodes.length ≠ 0 := by omega
  simp only [cartesian, if_neg hn]
  have hp : (nodes.map List.length).prod = 0 := by
    rw [List.prod_eq_zero_iff]
    exact List.mem_map.mpr ⟨[], h, rfl⟩
  have hreps : ∀ i < nodes.length,
      ∃ v, listRead (repetitions order (nodes.map List.length)) (i : ℤ) = .ok v := by
    intro i hi
    have hl : (repetitions order (nodes.map List.length)).length = nodes.length := by
      unfold repetitions
      split
      · simp [cumprod_length]; omega
      · simp [cumprod_length]; omega
    exact ⟨_, listRead_of_lt _ _ (by omega) (by omega)⟩
  have hnodes : ∀ i, (hi : i < nodes.length) → listRead nodes (i : ℤ) = .ok nodes[i] := by
    intro i hi
    have := listRead_of_lt nodes (i : ℤ) (by omega) (by omega)
    simpa using this
  refine pyFor_error .zeroDivision _ (fun A => A.shape = [0, nodes.length]) _ _ ?_ ?_ ?_
  · rw [hp]; rfl
  · intro i hi A hA
    rw [List.mem_range] at hi
    obtain ⟨v, hv⟩ := hreps i hi
    simp only [hnodes i hi, hv, ok_bind]
    by_cases h0 : v * nodes[i].length = 0
    · right; simp [repeat1d, h0]
    · left
      obtain ⟨A', h1, h2, _⟩ := repeat1d_ok nodes[i] v 0 nodes.length i A h0 (by simpa using hA) hi
        (fun idx => (nodes[i][(idx.getD 0 0 / 0) % nodes[i].length]?).getD 0)
        (fun r v hv => by simp only [List.getD_cons_zero]; rw [hv]; rfl)
      exact ⟨A', h1, h2.trans hA⟩
  · refine ⟨j, by simpa using hj, fun A _ => ?_⟩
    obtain ⟨v, hv⟩ := hreps j hj
    simp only [hnodes j hj, hv, ok_bind, ej]
    simp [repeat1d]

/-! ### Grid constructors -/

/-- C56 for `UCGrid`. -/
theorem C56_ucgrid [LT K] [DecidableLT K] (args r : List (GridArg K)) :
    ucGrid args = .ok r ↔
      r = args ∧ ∀ g ∈ args, ∃ a b n, g = .triple a b n ∧ a < b ∧ 2 ≤ n := by
  have key : args.forM ucCheck = .ok () ↔
      ∀ g ∈ args, ∃ (a b : K) (n : ℤ), g = GridArg.triple a b n ∧ a < b ∧ 2 ≤ n := by
    induction args with
    | nil => simp [List.forM]
    | cons g args ih =>
      rw [List.forall_mem_cons, ← ih]
      show (ucCheck g >>= fun _ => args.forM ucCheck) = _ ↔ _
      cases g with
      | triple a b n =>
        by_cases h1 : a < b <;> by_cases h2 : n > 1 <;>
          simp [ucCheck, h1, h2] <;> intros <;> omega
      | ndarray A => simp [ucCheck]
      | other t => cases t <;> simp [ucCheck]
  rw [← key, ucGrid]
  cases h : args.forM ucCheck with
  | error e => simp
  | ok u => simp [eq_comm]

/-- C56 for `CGrid`. -/
theorem C56_cgrid [LT K] [DecidableLT K] (args r : List (GridArg K)) :
    cGrid args = .ok r ↔
      r = args ∧ ∀ g ∈ args, (∃ a b n, g = .triple a b n ∧ a < b ∧ 2 ≤ n) ∨
        ∃ A n, g = .ndarray A ∧ A.shape = [n] ∧ 2 ≤ n := by
  have key : args.forM cCheck = .ok () ↔
      ∀ g ∈ args, (∃ (a b : K) (n : ℤ), g = GridArg.triple a b n ∧ a < b ∧ 2 ≤ n) ∨
        ∃ A n, g = GridArg.ndarray A ∧ A.shape = [n] ∧ 2 ≤ n := by
    induction args with
    | nil => simp [List.forM]
    | cons g args ih =>
      rw [List.forall_mem_cons, ← ih]
      show (cCheck g >>= fun _ => args.forM cCheck) = _ ↔ _
      cases g with
      | triple a b n =>
        by_cases h1 : a < b <;> by_cases h2 : n > 1 <;>
          simp [cCheck, h1, h2] <;> intros <;> omega
      | ndarray A =>
        obtain ⟨sh, get⟩ := A
        rcases sh with _ | ⟨n, _ | ⟨n', sh⟩⟩
        · simp [cCheck]
        · by_cases h2 : 2 ≤ n <;> simp [cCheck, h2]
        · simp [cCheck]
      | other t => cases t <;> simp [cCheck]
  rw [← key, cGrid]
  cases h : args.forM cCheck with
  | error e => simp
  | ok u => simp [eq_comm]

end any

section exact
variable {F : Type} [Field F] [LinearOrder F] [IsStrictOrderedRing F] [FloorRing F]

theorem linspace_exact (a b : F) (n : ℤ) (hn : 2 ≤ n) :
    linspace a b n = .ok ((List.range n.toNat).map fun i : ℕ =>
      a + (i : F) * ((b - a) / ((n : F) - 1))) := by
  have h1 : ¬ n < 0 := by omega
  have h2 : 0 < n - 1 := by omega
  have hne : (n : F) - 1 ≠ 0 := by
    have : (2 : F) ≤ (n : F) := by exact_mod_cast hn
    linarith
  simp only [linspace, if_neg h1, if_pos h2, Int.cast_sub, Int.cast_one, pure_eq_ok,
    Except.ok.injEq, List.map_map]
  have hlast : a + ((n.toNat - 1 : ℕ) : F) * ((b - a) / ((n : F) - 1)) = b := by
    have : ((n.toNat - 1 : ℕ) : F) = (n : F) - 1 := by
      have : ((n.toNat - 1 : ℕ) : ℤ) = n - 1 := by omega
      have := congrArg (Int.cast (R := F)) this
      push_cast at this; exact this
    rw [this]; field_simp; ring
  apply List.ext_getElem
  · split <;> simp
  · intro i hi1 hi2
    have hi : i < n.toNat := by simpa using hi2
    simp only [List.getElem_set, List.getElem_map, List.getElem_range]
    split
    · rename_i h; rw [← h, hlast]
    · split
      · simp [div_mul_eq_mul_div, mul_div_assoc]; ring
      · simp; ring

theorem mlinspace_nodes (a b : List F) (nums : List ℤ) (ha : a.length = nums.length)
    (hb : b.length = nums.length) (hn : ∀ n ∈ nums, 2 ≤ n) (order : String) :
    mlinspace a b nums order = cartesian ((List.range nums.length).map fun i =>
      (List.range (nums.getD i 0).toNat).map fun j : ℕ =>
        a.getD i 0 + (j : F) * ((b.getD i 0 - a.getD i 0) / ((nums.getD i 0 : F) - 1))) order := by
  rw [mlinspace, mapM_ok _ (fun i => (List.range (nums.getD i 0).toNat).map fun j : ℕ =>
        a.getD i 0 + (j : F) * ((b.getD i 0 - a.getD i 0) / ((nums.getD i 0 : F) - 1)))]
  · rfl
  · intro i hi
    rw [List.mem_range] at hi
    have h1 : pyIndexNat a i = .ok (a.getD i 0) := by
      simp [pyIndexNat, show i < a.length by omega]
    have h2 : pyIndexNat b i = .ok (b.getD i 0) := by
      simp [pyIndexNat, show i < b.length by omega]
    have h3 : pyIndexNat nums i = .ok (nums.getD i 0) := by
      simp [pyIndexNat, hi]
    simp only [h1, h2, h3, ok_bind]
    refine linspace_exact _ _ _ (hn _ ?_)
    rw [List.getD_eq_getElem _ _ hi]
    exact List.getElem_mem _

/-- The combination number `idx` of the nodes of a regular grid. -/
theorem pick_lin (a b : List F) (nums : List ℤ) (idx : List ℕ)
    (hidx : InShape (nums.map Int.toNat) idx) :
    pick ((List.range nums.length).map fun i =>
      (List.range (nums.getD i 0).toNat).map fun j : ℕ =>
        a.getD i 0 + (j : F) * ((b.getD i 0 - a.getD i 0) / ((nums.getD i 0 : F) - 1))) idx
      = linPoint a b nums idx := by
  have hl : idx.length = nums.length := by simpa using inShape_length hidx
  apply List.ext_getElem
  · simp [pick, linPoint, hl]
  · intro i h1 h2
    have hi : i < nums.length := by simpa [linPoint] using h2
    simp only [pick, linPoint, List.getElem_zipWith, List.getElem_map, List.getElem_range]
    have hb : idx[i] < (nums.getD i 0).toNat := by
      have : ∀ (l : List ℤ) (idx : List ℕ) (i : ℕ), InShape (l.map Int.toNat) idx → (h : i < l.length) →
          idx.getD i 0 < (l.getD i 0).toNat := by
        intro l
        induction l with
        | nil => intro idx i _ h; simp at h
        | cons n l ih =>
          intro idx i hs h
          cases idx with
          | nil => exact hs.elim
          | cons j idx =>
            cases i with
            | zero => exact hs.1
            | succ i => simpa using ih idx i hs.2 (by simpa using h)
      have := this nums idx i hidx hi
      rwa [List.getD_eq_getElem _ _ (by omega)] at this
    have hb' : idx[i] < (nums[i]).toNat := by rwa [List.getD_eq_getElem _ _ hi] at hb
    have hg : idx.getD i 0 = idx[i] := List.getD_eq_getElem _ _ _
    rw [hg]
    generalize idx[i] = v at hb hb'
    simp [hi, hb']

theorem lin_sizes (a b : List F) (nums : List ℤ) :
    ((List.range nums.length).map fun i =>
      (List.range (nums.getD i 0).toNat).map fun j : ℕ =>
        a.getD i 0 + (j : F) * ((b.getD i 0 - a.getD i 0) / ((nums.getD i 0 : F) - 1))).map
      List.length = nums.map Int.toNat := by
  apply List.ext_getElem
  · simp
  · intro i h1 h2
    have hi : i < nums.length := by simpa using h2
    simp [hi]

/-- C57. The rows of `mlinspace` are the points `a + idx (b - a) / (n - 1)`, in row-major order
(`order = "C"`) or with the first index varying fastest (any other order). -/
theorem C57_mlinspace (a b : List F) (nums : List ℤ) (ha : a.length = nums.length)
    (hb : b.length = nums.length) (hn : ∀ n ∈ nums, 2 ≤ n) (hne : nums ≠ []) :
    (∃ A, mlinspace a b nums "C" = .ok A ∧
      A.shape = [(nums.map Int.toNat).prod, nums.length] ∧
      rowsOf A = (allIdx (nums.map Int.toNat)).map (linPoint a b nums)) ∧
    ∀ order, order ≠ "C" → ∃ A, mlinspace a b nums order = .ok A ∧
      A.shape = [(nums.map Int.toNat).prod, nums.length] ∧
      rowsOf A = (allIdx (nums.map Int.toNat).reverse).map
        (fun idx => linPoint a b nums idx.reverse) := by
  have hlen : nums.length ≠ 0 := by simpa using hne
  obtain ⟨h1, h2⟩ := C53_cartesian_partial ((List.range nums.length).map fun i =>
      (List.range (nums.getD i 0).toNat).map fun j : ℕ =>
        a.getD i 0 + (j : F) * ((b.getD i 0 - a.getD i 0) / ((nums.getD i 0 : F) - 1)))
    (by simpa using hne) (by
      intro x hx
      simp only [List.mem_map, List.mem_range] at hx
      obtain ⟨i, hi, rfl⟩ := hx
      have := hn _ (List.getElem_mem hi)
      rw [List.getD_eq_getElem _ _ hi]
      simp only [ne_eq, List.map_eq_nil_iff, List.range_eq_nil]
      omega)
  rw [lin_sizes] at h1 h2
  rw [List.length_map, List.length_range] at h1 h2
  constructor
  · obtain ⟨A, e1, e2, e3⟩ := h1
    refine ⟨A, by rw [mlinspace_nodes a b nums ha hb hn]; exact e1, e2, ?_⟩
    rw [e3]
    exact List.map_congr_left fun idx hidx => pick_lin a b nums idx ((mem_allIdx _ _).mp hidx)
  · intro order ho
    obtain ⟨A, e1, e2, e3⟩ := h2 order ho
    refine ⟨A, by rw [mlinspace_nodes a b nums ha hb hn]; exact e1, e2, ?_⟩
    rw [e3]
    exact List.map_congr_left fun idx hidx => pick_lin a b nums _ (by
      simpa using inShape_reverse ((mem_allIdx _ _).mp hidx))

theorem rowOf_of_rows {K : Type} {A : NdArray K} {l : List (List K)} {N c : ℕ}
    (hs : A.shape = [N, c]) (h : rowsOf A = l) {r : ℕ} (hr : r < N) : l[r]? = some (rowOf A r) := by
  rw [← h, rowsOf, hs]
  simp [hr]

theorem unravel_zero : ∀ sh : List ℕ, unravel sh 0 = sh.map fun _ => 0
  | [] => rfl
  | _ :: sh => by simp [unravel, unravel_zero sh]

theorem unravel_last : ∀ sh : List ℕ, sh.prod ≠ 0 → unravel sh (sh.prod - 1) = sh.map (· - 1)
  | [], _ => rfl
  | n :: sh, h => by
    rw [List.prod_cons] at h
    have hp : sh.prod ≠ 0 := fun h0 => h (by simp [h0])
    have hn : n ≠ 0 := fun h0 => h (by simp [h0])
    obtain ⟨q, rfl⟩ : ∃ q, n = q + 1 := ⟨n - 1, by omega⟩
    have e : (q + 1) * sh.prod - 1 = sh.prod * q + (sh.prod - 1) := by
      have : (q + 1) * sh.prod = sh.prod * q + sh.prod := by ring
      omega
    simp only [unravel, List.prod_cons, List.map_cons]
    rw [e, Nat.mul_add_div (by omega), Nat.div_eq_of_lt (by omega), Nat.mul_add_mod,
      Nat.mod_eq_of_lt (by omega), unravel_last sh hp]
    simp

/-- C57: the first and last rows are the corners, whatever the order. -/
theorem C57_mlinspace_corners (a b : List F) (nums : List ℤ) (ha : a.length = nums.length)
    (hb : b.length = nums.length) (hn : ∀ n ∈ nums, 2 ≤ n) (hne : nums ≠ []) (order : String) :
    ∃ A, mlinspace a b nums order = .ok A ∧ rowOf A 0 = a ∧
      rowOf A ((nums.map Int.toNat).prod - 1) = b := by
  have hp : (nums.map Int.toNat).prod ≠ 0 := by
    rw [Ne, List.prod_eq_zero_iff]
    intro h
    obtain ⟨n, h1, h2⟩ := List.mem_map.mp h
    have := hn n h1
    omega
  have lo : linPoint a b nums (nums.map fun _ => 0) = a := by
    apply List.ext_getElem
    · simp [linPoint, ha]
    · intro i h1 h2
      have hi : i < nums.length := by omega
      simp [linPoint, hi, h2]
  have hi : linPoint a b nums (nums.map fun n => n.toNat - 1) = b := by
    apply List.ext_getElem
    · simp [linPoint, hb]
    · intro i h1 h2
      have hi : i < nums.length := by omega
      have hia : i < a.length := by omega
      have h3 := hn _ (List.getElem_mem hi)
      have hc : ((nums[i].toNat - 1 : ℕ) : F) = (nums[i] : F) - 1 := by
        have : ((nums[i].toNat - 1 : ℕ) : ℤ) = nums[i] - 1 := by omega
        have := congrArg (Int.cast (R := F)) this
        push_cast at this; exact this
      have hne : (nums[i] : F) - 1 ≠ 0 := by
        have : (2 : F) ≤ (nums[i] : F) := by exact_mod_cast h3
        linarith
      simp only [linPoint, List.getElem_map, List.getElem_range]
      rw [List.getD_eq_getElem _ _ hia, List.getD_eq_getElem _ _ h2, List.getD_eq_getElem _ _ hi,
        List.getD_eq_getElem _ _ (by simpa using hi), List.getElem_map, hc]
      field_simp; ring
  obtain ⟨hC, hF⟩ := C57_mlinspace a b nums ha hb hn hne
  by_cases ho : order = "C"
  · obtain ⟨A, h1, h2, h3⟩ := hC
    refine ⟨A, by rw [ho]; exact h1, ?_, ?_⟩
    · have h4 := rowOf_of_rows h2 h3 (r := 0) (by omega)
      rw [allIdx_eq_unravel, List.map_map, List.getElem?_map,
        List.getElem?_range (by omega)] at h4
      simp only [Option.map_some, Function.comp, unravel_zero, List.map_map, Option.some.injEq] at h4
      rw [← h4]; exact lo
    · have h4 := rowOf_of_rows h2 h3 (r := (nums.map Int.toNat).prod - 1) (by omega)
      rw [allIdx_eq_unravel, List.map_map, List.getElem?_map,
        List.getElem?_range (by omega)] at h4
      simp only [Option.map_some, Function.comp, unravel_last _ hp, List.map_map,
        Option.some.injEq] at h4
      rw [← h4]; exact hi
  · obtain ⟨A, h1, h2, h3⟩ := hF order ho
    have hp' : (nums.map Int.toNat).reverse.prod = (nums.map Int.toNat).prod := List.prod_reverse _
    refine ⟨A, h1, ?_, ?_⟩
    · have h4 := rowOf_of_rows h2 h3 (r := 0) (by omega)
      rw [allIdx_eq_unravel, List.map_map, List.getElem?_map,
        List.getElem?_range (by omega)] at h4
      simp only [Option.map_some, Function.comp, unravel_zero, List.map_map, Option.some.injEq] at h4
      rw [← h4, ← List.map_reverse, List.reverse_reverse, List.map_map]; exact lo
    · have h4 := rowOf_of_rows h2 h3 (r := (nums.map Int.toNat).prod - 1) (by omega)
      rw [allIdx_eq_unravel, List.map_map, List.getElem?_map,
        List.getElem?_range (by omega), ← hp'] at h4
      simp only [Option.map_some, Function.comp, unravel_last _ (hp'.trans_ne hp), List.map_map,
        Option.some.injEq] at h4
      rw [hp'] at h4
      rw [← h4, ← List.map_reverse, List.reverse_reverse, List.map_map]; exact hi

/-! ### `nodes` -/

/-- C55, partial: grids without nonuniform axis. Row number `r` is the node whose multi-index is the
`r`-th in row-major order. -/
theorem C55_nodes_partial (G : List (GridDim F)) (hG : ValidGrid G)
    (hu : ∀ g ∈ G, g.gtype = .uniform) :
    ∃ A, nodes G = .ok A ∧ A.shape = [(gridShape G).prod, G.length] ∧
      rowsOf A = (allIdx (gridShape G)).map (nodeAt G) := by
  obtain ⟨T, rfl⟩ : ∃ T : List (F × F × ℤ), G = T.map fun t => .uniform t.1 t.2.1 t.2.2 := by
    clear hG
    induction G with
    | nil => exact ⟨[], rfl⟩
    | cons g G ih =>
      obtain ⟨T, rfl⟩ := ih fun g' h' => hu g' (by simp [h'])
      have := hu g (by simp)
      cases g with
      | uniform a b n => exact ⟨(a, b, n) :: T, rfl⟩
      | array gc => cases this
  have hm : (T.map fun t => (GridDim.uniform t.1 t.2.1 t.2.2 : GridDim F)).mapM dimTriple
      = .ok T := by
    rw [mapM_ok _ (fun g => match g with
      | .uniform a b n => (a, b, n)
      | .array _ => (0, 0, 0))]
    · rw [List.map_map]
      have : ((fun g : GridDim F => (match g with
        | .uniform a b n => (a, b, n)
        | .array _ => (0, 0, 0) : F × F × ℤ)) ∘ fun t : F × F × ℤ =>
          GridDim.uniform t.1 t.2.1 t.2.2) = id := by
        funext t; rfl
      rw [this, List.map_id]
    · intro g hg
      obtain ⟨t, _, rfl⟩ := List.mem_map.mp hg
      rfl
  have hsh : gridShape (T.map fun t => (GridDim.uniform t.1 t.2.1 t.2.2 : GridDim F))
      = (T.map (·.2.2)).map Int.toNat := by
    simp [gridShape, nNodes, Function.comp_def]
  obtain ⟨⟨A, h1, h2, h3⟩, _⟩ := C57_mlinspace (T.map (·.1)) (T.map (·.2.1)) (T.map (·.2.2))
    (by simp) (by simp) (by
      intro n hn
      obtain ⟨t, ht, rfl⟩ := List.mem_map.mp hn
      exact (hG.2 _ (List.mem_map.mpr ⟨t, ht, rfl⟩)).2)
    (by simpa using hG.1)
  refine ⟨A, ?_, ?_, ?_⟩
  · rw [nodes, hm]; exact h1
  · rw [h2, hsh]; simp
  · rw [h3, hsh]
    refine List.map_congr_left fun idx hidx => ?_
    have hl : idx.length = T.length := by simpa using inShape_length ((mem_allIdx _ _).mp hidx)
    apply List.ext_getElem
    · simp [linPoint, nodeAt, hl]
    · intro i h4 h5
      have hi : i < T.length := by simpa [linPoint] using h4
      have hi' : i < idx.length := by omega
      simp [linPoint, nodeAt, node, hi, hi']

theorem mapM_forall₂ {α β : Type} (f : α → Py β) : ∀ (l : List α) (r : List β),
    l.mapM f = .ok r → List.Forall₂ (fun a b => f a = .ok b) l r
  | [], r, h => by
    simp at h; subst h; exact .nil
  | a :: l, r, h => by
    rw [List.mapM_cons] at h
    obtain ⟨b, h1, h2⟩ := bind_ok_elim h
    obtain ⟨bs, h3, h4⟩ := bind_ok_elim h2
    simp at h4; subst h4
    exact .cons h1 (mapM_forall₂ f l bs h3)

theorem linspace_le {a b : F} (hab : a ≤ b) {n : ℤ} {l : List F} (h : linspace a b n = .ok l) :
    ∀ t ∈ l, t ≤ b := by
  intro t ht
  by_cases hn : 2 ≤ n
  · rw [linspace_exact a b n hn] at h
    injection h with h; subst h
    obtain ⟨i, hi, rfl⟩ := List.mem_map.mp ht
    rw [List.mem_range] at hi
    have h1 : (0 : F) < (n : F) - 1 := by
      have : (2 : F) ≤ (n : F) := by exact_mod_cast hn
      linarith
    have h2 : (i : F) ≤ (n : F) - 1 := by
      have : (i : ℤ) ≤ n - 1 := by omega
      have : ((i : ℤ) : F) ≤ ((n - 1 : ℤ) : F) := by exact_mod_cast this
      push_cast at this; exact this
    have h3 : (i : F) * ((b - a) / ((n : F) - 1)) ≤ b - a := by
      rw [← mul_div_assoc, div_le_iff₀ h1, mul_comm]
      exact mul_le_mul_of_nonneg_left h2 (by linarith)
    linarith
  · unfold linspace at h
    split at h
    · cases h
    · rw [if_neg (by omega)] at h
      rw [pure_eq_ok, Except.ok.injEq] at h
      subst h
      obtain ⟨u, hu, rfl⟩ := List.mem_map.mp ht
      obtain ⟨i, hi, rfl⟩ := List.mem_map.mp hu
      rw [List.mem_range] at hi
      have : i = 0 := by omega
      subst this
      simpa using hab

/-- C55 fails for every grid with a nonuniform axis: `nodes` raises an error or misses nodes. -/
theorem C55_nodes_fails (G : List (GridDim F)) (hG : ValidGrid G) (gc : List F)
    (hgc : .array gc ∈ G) :
    ¬ ∃ A, nodes G = .ok A ∧ ∀ idx, InShape (gridShape G) idx → nodeAt G idx ∈ rowsOf A := by
  rintro ⟨A, hA, hrows⟩
  obtain ⟨ts, h1, h2⟩ := bind_ok_elim hA
  have hts := mapM_forall₂ _ _ _ h1
  obtain ⟨lists, h3, h4⟩ := bind_ok_elim h2
  have hl := mapM_forall₂ _ _ _ h3
  have hne : lists ≠ [] := by
    rintro rfl
    rw [C53_cartesian_fails] at h4; cases h4
  have hpos : ∀ x ∈ lists, x ≠ [] := by
    rintro x hx rfl
    rw [C53_cartesian_empty_fails lists hx] at h4; cases h4
  obtain ⟨A', h5, h6, _⟩ := C53_cartesian_once_partial lists hne hpos "C"
  rw [h4] at h5; injection h5 with h5; subst h5
  obtain ⟨i, hi, ei⟩ := List.getElem_of_mem hgc
  have hti : i < ts.length := by rw [← hts.length_eq]; exact hi
  have e1 := (List.forall₂_iff_get.mp hts).2 i hi hti
  simp only [List.get_eq_getElem, ei, dimTriple] at e1
  obtain ⟨x, q1, e1⟩ := bind_ok_elim e1
  obtain ⟨y, q2, e1⟩ := bind_ok_elim e1
  obtain ⟨z, q3, e1⟩ := bind_ok_elim e1
  have e1 : ts[i] = (x, y, toInt64 z) := by injection e1 with e1; exact e1.symm
  have get : ∀ (k : ℕ) (v : F), pyIndexNat gc k = .ok v → ∃ h : k < gc.length, gc[k] = v := by
    intro k v h
    unfold pyIndexNat at h
    by_cases hk : k < gc.length
    · simp [hk] at h; exact ⟨hk, h⟩
    · simp [hk] at h
  obtain ⟨b0, q1⟩ := get 0 x q1
  obtain ⟨b1, q2⟩ := get 1 y q2
  obtain ⟨b2, q3⟩ := get 2 z q3
  have hsort := (hG.2 _ hgc).2
  have hxy : x < y := by
    rw [← q1, ← q2]; exact List.pairwise_iff_getElem.mp hsort 0 1 b0 b1 (by omega)
  have hyz : y < z := by
    rw [← q2, ← q3]; exact List.pairwise_iff_getElem.mp hsort 1 2 b1 b2 (by omega)
  -- entries of the column are at most `y`
  have hli : i < lists.length := by
    have := hl.length_eq
    simp at this; omega
  have e2 := (List.forall₂_iff_get.mp hl).2 i (by simpa using hti) hli
  have hcol : ∀ t ∈ lists[i], t ≤ y := by
    simp only [List.get_eq_getElem, List.getElem_range] at e2
    have p1 : pyIndexNat (ts.map (·.1)) i = .ok x := by simp [pyIndexNat, hti, e1]
    have p2 : pyIndexNat (ts.map (·.2.1)) i = .ok y := by simp [pyIndexNat, hti, e1]
    have p3 : pyIndexNat (ts.map (·.2.2)) i = .ok (toInt64 z) := by simp [pyIndexNat, hti, e1]
    simp only [p1, p2, p3, ok_bind] at e2
    exact linspace_le hxy.le e2
  -- the node with index 2 along that axis
  have hin : InShape (gridShape G) ((List.range G.length).map fun j => if j = i then 2 else 0) := by
    have gen : ∀ (G' : List (GridDim F)) (f : ℕ → ℕ), (∀ j, (h : j < G'.length) → f j < nNodes G'[j]) →
        InShape (gridShape G') ((List.range G'.length).map f) := by
      intro G'
      induction G' with
      | nil => intro f _; exact trivial
      | cons g G' ih =>
        intro f hf
        rw [List.length_cons, List.range_succ_eq_map, List.map_cons, List.map_map]
        refine ⟨hf 0 (by simp), ih (f ∘ Nat.succ) fun j hj => ?_⟩
        have := hf (j + 1) (by simpa using hj)
        simpa using this
    refine gen G _ fun j hj => ?_
    by_cases hji : j = i
    · subst hji; simp only [if_true, ei, nNodes]; exact b2
    · rw [if_neg hji]
      have := ValidAxis.two_le (hG.2 _ (List.getElem_mem hj))
      omega
  have hmem := (h6 _).mp (hrows _ hin)
  have hlen := hmem.length_eq
  have := (List.forall₂_iff_get.mp hmem).2 i hli (by omega)
  have hle := hcol _ this
  simp only [nodeAt, List.get_eq_getElem, List.getElem_zipWith, List.getElem_map,
    List.getElem_range, ei, node, if_true] at hle
  rw [List.getD_eq_getElem _ _ b2, q3] at hle
  exact absurd hle (not_le.mpr hyz)

/-! ### Sampling on the nodes -/

theorem reshape_rows (sh t : List ℕ) (V : NdArray F) (hV : V.shape = sh.prod :: t) :
    ∃ C, V.reshape (sh ++ t) = .ok C ∧ C.shape = sh ++ t ∧
      ∀ idx tail, InShape sh idx → InShape t tail →
        C.get (idx ++ tail) = V.get (ravel sh idx :: tail) := by
  refine ⟨_, by rw [NdArray.reshape, if_pos (by rw [hV]; simp)]; rfl, rfl, ?_⟩
  intro idx tail h1 h2
  show V.get (unravel V.shape (ravel (sh ++ t) (idx ++ tail))) = _
  rw [ravel_append sh idx t tail (inShape_length h1), hV]
  congr 1
  have := unravel_ravel (sh := sh.prod :: t) (idx := ravel sh idx :: tail) ⟨ravel_lt h1, h2⟩
  rw [← this]; rfl

theorem nodes_row (G : List (GridDim F)) (hG : ValidGrid G) (hu : ∀ g ∈ G, g.gtype = .uniform)
    {A : NdArray F} (hA : nodes G = .ok A) (r : ℕ) (hr : r < (gridShape G).prod) :
    InShape (gridShape G) (unravel (gridShape G) r) ∧
      rowOf A r = nodeAt G (unravel (gridShape G) r) := by
  obtain ⟨A', h1, h2, h3⟩ := C55_nodes_partial G hG hu
  rw [hA] at h1; injection h1 with h1; subst h1
  refine ⟨unravel_inShape hr, ?_⟩
  have h4 := rowOf_of_rows h2 h3 hr
  rw [allIdx_eq_unravel, List.map_map, List.getElem?_map, List.getElem?_range hr] at h4
  simpa using h4.symm

/-- C54 for linear splines. `f point component` is sampled on the rows of `nodes(grid)`, the
samples (scalar, or with `m` components) are reshaped to the shape of the grid; then `eval_linear`
returns the sample number `r` at row `r`. -/
theorem C54_nodes_linear (G : List (GridDim F)) (hG : ValidGrid G)
    (hu : ∀ g ∈ G, g.gtype = .uniform) (f : List F → List ℕ → F) (vec : Bool) (m : ℕ) :
    ∃ A, nodes G = .ok A ∧ ∃ C,
      NdArray.reshape ⟨(gridShape G).prod :: (if vec then [m] else []),
        fun idx => f (rowOf A (idx.headD 0)) idx.tail⟩ (gridShape G ++ if vec then [m] else [])
        = .ok C ∧
      ∀ r < (gridShape G).prod, ∀ mode,
        Returns 1 G C vec m none mode (rowOf A r) (f (rowOf A r)) := by
  obtain ⟨A, h1, _⟩ := C55_nodes_partial G hG hu
  refine ⟨A, h1, ?_⟩
  obtain ⟨C, h2, h3, h4⟩ := reshape_rows (gridShape G) (if vec then [m] else [])
    ⟨(gridShape G).prod :: (if vec then [m] else []),
      fun idx => f (rowOf A (idx.headD 0)) idx.tail⟩ rfl
  refine ⟨C, h2, fun r hr mode => ?_⟩
  obtain ⟨h5, h6⟩ := nodes_row G hG hu h1 r hr
  rw [h6]
  refine (C01_linear_interpolates (C := C) (vec := vec) (m := m)
    ⟨hG, by rw [h3]; simp [gridShape], .inl rfl, by simp⟩ mode _ h5).congr fun tail ht => ?_
  rw [h4 _ tail h5 (by simpa [tailShape] using ht), ravel_unravel hr, ← h6]
  rfl

/-- C54 for cubic splines: the same with the reshaped samples filtered in any way. -/
theorem C54_nodes_cubic (G : List (GridDim F)) (hG : ValidGrid G)
    (hu : ∀ g ∈ G, g.gtype = .uniform) (hd : G.length ≤ 4) (f : List F → List ℕ → F) (vec : Bool)
    (m : ℕ) :
    ∃ A, nodes G = .ok A ∧ ∃ D,
      NdArray.reshape ⟨(gridShape G).prod :: (if vec then [m] else []),
        fun idx => f (rowOf A (idx.headD 0)) idx.tail⟩ (gridShape G ++ if vec then [m] else [])
        = .ok D ∧
      (∃ C, Filter.filterCubic G D = .ok C) ∧
      ∀ C, FilterOutcome G D vec m C → ∀ r < (gridShape G).prod, ∀ mode,
        Returns 3 G C vec m none mode (rowOf A r) (f (rowOf A r)) := by
  obtain ⟨A, h1, _⟩ := C55_nodes_partial G hG hu
  refine ⟨A, h1, ?_⟩
  obtain ⟨D, h2, h3, h4⟩ := reshape_rows (gridShape G) (if vec then [m] else [])
    ⟨(gridShape G).prod :: (if vec then [m] else []),
      fun idx => f (rowOf A (idx.headD 0)) idx.tail⟩ rfl
  have hreq : FilterRequest G D vec m := ⟨hG, hu, hd, h3⟩
  refine ⟨D, h2, (C19_filter_total hreq).1.imp fun C h => h.1, fun C hC r hr mode => ?_⟩
  obtain ⟨h5, h6⟩ := nodes_row G hG hu h1 r hr
  rw [h6]
  refine (C18_cubic_interpolates hreq hC mode _ h5).congr fun tail ht => ?_
  rw [h4 _ tail h5 (by simpa [tailShape] using ht), ravel_unravel hr, ← h6]
  rfl

/-! ### The hypotheses are satisfiable -/

example := C53_cartesian_partial (K := ℚ) [[1, 2], [5, 6, 7], [0]] (by simp) (by simp)

example : rowsOf ⟨[6, 2], fun idx => ([[1, 5], [1, 6], [1, 7], [2, 5], [2, 6], [2, 7]].getD
    (idx.getD 0 0) ([] : List ℚ)).getD (idx.getD 1 0) 0⟩
    = (allIdx [2, 3]).map (pick [[1, 2], [5, 6, 7]]) := by decide

example := C57_mlinspace (F := ℚ) [0, -1] [2, 1] [3, 2] rfl rfl (by simp) (by simp)

example := C55_nodes_fails (F := ℚ) [.uniform 0 1 3, .array [0, 1, 3, 7]]
  ⟨by simp, by simp [ValidAxis]; norm_num⟩ [0, 1, 3, 7] (by simp)

example := C54_nodes_cubic (F := ℚ) [.uniform 0 1 3, .uniform (-1) 1 2]
  ⟨by simp, by simp [ValidAxis]⟩ (by simp; exact ⟨rfl, rfl⟩) (by simp) (fun x _ => x.sum) false 0

end exact
end Interp.Props
