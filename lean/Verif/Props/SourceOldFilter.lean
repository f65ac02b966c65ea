import Verif.Proofs.SrcOldTop
import Verif.Props.SourceFilter

/-!
# What the source text of `filter_cubic.py` computes: C113

The texts are those of `MoreTexts`, character for character; see C108 for how they are read and executed. The theorems hold in any
arithmetic in which 3 and 6 are not zero; the last ones say that the two modules of the library return the same coefficients, text against
text, and that the coefficients of the older one interpolate.
-/

namespace Interp.Props
open Interp Interp.Spec Interp.Spec.PySrc Interp.Filter
open Interp.Codegen (GridDim)

/-- The texts of `filter_cubic.py` as a program. -/
def oldFile : Option Prog :=
  load [oldSolveText, oldFindCoefsText, filterCoeffs1dText, filterCoeffs2dText, filterCoeffs3dText, filterCoeffs4dText, filterCoeffsText,
    filterMcoeffsText, filterDataText] [] [("basis", oldBasisText)]

section
variable {K : Type} [Add K] [Sub K] [Mul K] [Div K] [Neg K] [Zero K] [One K] [NatCast K] [IntCast K]
  [LT K] [DecidableLT K] [LE K] [DecidableLE K] [BEq K] [IntFloor K] [Interp.Smolyak.Trig K]

/-- C113. `find_coefs_1d(delta_inv, M, data, coefs)` for vectors: `coefs` gets the values of the model, no other array changes. -/
theorem C113_find_coefs (L : LitLaws K) (h3 : (((3 : ℕ) : K) == 0) = false) (h6 : (((6 : ℕ) : K) == 0) = false) :
    ∃ P, oldFile = some P ∧
    ∀ n ≥ 3, ∀ (h : Heap K) (rc rd m : ℕ) (δ : K) (C D : NdArray K), rd ≠ rc →
      h[rc]? = some C → h[rd]? = some D → C.shape.length = 1 →
      Shows (oldFindCoefs1d δ m (some D) ⟨[], []⟩ C)
        (callName P n "find_coefs_1d" [.flt δ, .int m, .arr rd [none], .arr rc [none]] h)
        fun C' v h' => v = .none ∧ C'.shape = C.shape ∧ ∃ t, h' = h.set rc C' ++ t := by
  refine ⟨_, old_load, fun n hn h rc rd m δ C D hne hc hd hC => ?_⟩
  obtain ⟨n, rfl⟩ : ∃ m, n = m + 3 := ⟨n - 3, by omega⟩
  rw [callName, oglob_find, pure_bind, callN_fn]
  have := oldFind_sim L h3 h6 n (l := ⟨[], []⟩) (src := some D) (δ := δ) (m := m) hc (by simp [hC]) hd rfl
  exact shows_of_sim (this.mono fun C' o ⟨h1, h2, h3⟩ => ⟨h1, h3, h2⟩)

/-- What `filter_data` and `filter_coeffs` return: the coefficients as a new array of `d` dimensions, or `None`. -/
def NewArray (h : Heap K) (d : ℕ) (S : Option (NdArray K)) (v : Val K) (h' : Heap K) : Prop :=
  (∃ t, h' = h ++ t) ∧ match S with
  | some C => ∃ r, v = .arr r (whole d) ∧ h.length ≤ r ∧ h'[r]? = some C
  | none => v = .none

theorem newArray_of_gives {h : Heap K} {d : ℕ} {S : Option (NdArray K)} {o : Val K × Heap K} (H : Gives h d S o) :
    NewArray h d S o.1 o.2 := by
  cases S with
  | none => exact ⟨H.2, H.1⟩
  | some C =>
    obtain ⟨r, h1, h2, h3, h4⟩ := H
    exact ⟨h3, r, h1, h2, h4⟩

/-- C113. `filter_data(dinv, data)` and with it `filter_coeffs_1d` … `filter_coeffs_4d`: for one to four dimensions a new array with the
values of the model, and `None` for every other number. -/
theorem C113_filter_data (L : LitLaws K) (h3 : (((3 : ℕ) : K) == 0) = false) (h6 : (((6 : ℕ) : K) == 0) = false) :
    ∃ P, oldFile = some P ∧
    ∀ n ≥ 5, ∀ (h : Heap K) (rv rd : ℕ) (ds : List K) (V D : NdArray K), h[rv]? = some V → IsVec V ds → h[rd]? = some D →
      D.shape.length = ds.length →
      Shows (filterData ds D) (callName P n "filter_data" [.arr rv [none], .arr rd (whole ds.length)] h) (NewArray h ds.length) := by
  refine ⟨_, old_load, fun n hn h rv rd ds V D hv hV hd hD => ?_⟩
  obtain ⟨n, rfl⟩ : ∃ m, n = m + 5 := ⟨n - 5, by omega⟩
  rw [callName, oglob_data, pure_bind, callN_fn]
  exact shows_of_sim ((data_sim L h3 h6 n hd ⟨V, hv, hV⟩ hD).mono fun S o => newArray_of_gives)

/-- C113. `filter_coeffs(smin, smax, orders, data)`: bounds given as lists, tuples or vectors, data of any shape (they are reshaped): the
result is a new array with the values of the model, `None`, or the same exception (the one of the reshaping). -/
theorem C113_filter_coeffs (L : LitLaws K) (h3 : (((3 : ℕ) : K) == 0) = false) (h6 : (((6 : ℕ) : K) == 0) = false) :
    ∃ P, oldFile = some P ∧
    ∀ n ≥ 6, ∀ (h : Heap K) (v0 v1 : Val K) (smin smax : List K) (orders : List ℕ) (rd : ℕ) (D : NdArray K),
      Nums h v0 smin → Nums h v1 smax → smin.length = orders.length → smax.length = orders.length → h[rd]? = some D →
      Shows (filterCoeffs smin smax orders D)
        (callName P n "filter_coeffs" [v0, v1, .ints (orders.map fun n : ℕ => (n : ℤ)), .arr rd (whole D.shape.length)] h)
        (NewArray h orders.length) := by
  refine ⟨_, old_load, fun n hn h v0 v1 smin smax orders rd D h0 h1 hl0 hl1 hd => ?_⟩
  obtain ⟨n, rfl⟩ : ∃ m, n = m + 6 := ⟨n - 6, by omega⟩
  rw [callName, oglob_coeffs, pure_bind, callN_fn, ← pat_whole]
  exact shows_of_sim ((coeffs_sim L h3 h6 n h0 h1 hl0 hl1 hd (t := []) (post := []) trivial (by simp) (fun idx _ => by simp)).mono
    fun S o => newArray_of_gives)

/-- C113. `filter_mcoeffs(smin, smax, orders, data)` for data of at least two dimensions: a new array with the values of the model. -/
theorem C113_filter_mcoeffs (L : LitLaws K) (h3 : (((3 : ℕ) : K) == 0) = false) (h6 : (((6 : ℕ) : K) == 0) = false) :
    ∃ P, oldFile = some P ∧
    ∀ n ≥ 7, ∀ (h : Heap K) (v0 v1 : Val K) (smin smax : List K) (orders : List ℕ) (rd : ℕ) (D : NdArray K),
      Nums h v0 smin → Nums h v1 smax → smin.length = orders.length → smax.length = orders.length → h[rd]? = some D →
      2 ≤ D.shape.length →
      Shows (filterMcoeffs smin smax orders D)
        (callName P n "filter_mcoeffs" [v0, v1, .ints (orders.map fun n : ℕ => (n : ℤ)), .arr rd (whole D.shape.length)] h)
        fun C v h' => v = .arr h.length (whole (orders.length + 1)) ∧ ∃ C' t, h' = h ++ C' :: t ∧ C.Same C' := by
  refine ⟨_, old_load, fun n hn h v0 v1 smin smax orders rd D h0 h1 hl0 hl1 hd hD => ?_⟩
  obtain ⟨n, rfl⟩ : ∃ m, n = m + 7 := ⟨n - 7, by omega⟩
  obtain ⟨a, sh, m, hs⟩ : ∃ a sh m, D.shape = a :: sh ++ [m] := by
    match hs : D.shape, hD with
    | a :: b :: sh, _ => exact ⟨a, (b :: sh).dropLast, (b :: sh).getLast (by simp), by
        rw [List.cons_append, List.dropLast_append_getLast]⟩
  rw [callName, oglob_mcoeffs, pure_bind, callN_fn, show D.shape.length = sh.length + 2 by simp [hs]]
  refine shows_of_sim ((mcoeffs_sim L h3 h6 n h0 h1 hl0 hl1 hd hs).mono ?_)
  rintro C o ⟨e, C', t, e', hA⟩
  exact ⟨e, C', t, e', hA.1, fun idx hi => hA.2 idx (inShape_length hi)⟩

end

section exact
variable {F : Type} [Field F] [LinearOrder F] [IsStrictOrderedRing F] [FloorRing F] [Interp.Smolyak.Trig F]

/-- C113. The two modules, text against text: for data on a uniform grid of one to four dimensions, `filter_coeffs(smin, smax, orders, D)`
of the older module and `_filter_cubic(grid, D)` of the newer one both return new arrays, and these are equal; with the coefficients the
spline passes through the data at every node. -/
theorem C113_modules_agree : ∃ P P', oldFile = some P ∧ filterFile = some P' ∧
    ∀ (T : List (F × F × ℕ)) (D : NdArray F), FilterRequest (gridOf T) D false 0 →
      ∀ (h : Heap F) (rd : ℕ), h[rd]? = some D → ∀ n ≥ 6, ∃ r C t C' t',
        callName P n "filter_coeffs" [.list (T.map fun x => .flt x.1), .list (T.map fun x => .flt x.2.1), .ints (T.map fun x => (x.2.2 : ℤ)),
          .arr rd (whole D.shape.length)] h = .ok (.arr r (whole T.length), h ++ t) ∧ h.length ≤ r ∧ (h ++ t)[r]? = some C ∧
        callName P' n "_filter_cubic" [.tup (gridValue (gridOf T)), .arr rd (whole D.shape.length)] h =
          .ok (.arr h.length (whole D.shape.length), h ++ C' :: t') ∧ C.Same C' ∧
        ∀ mode idx, InShape (gridShape (gridOf T)) idx →
          Returns 3 (gridOf T) C' false 0 none mode (nodeAt (gridOf T) idx) (fun tail => D.get (idx ++ tail)) := by
  obtain ⟨P, hP, H⟩ := C113_filter_coeffs (K := F) litLaws_field (by simp) (by simp)
  obtain ⟨P', hP', H'⟩ := C109_filter (K := F) litLaws_field (by simp) (by simp)
  refine ⟨P, P', hP, hP', fun T D hr h rd hd n hn => ?_⟩
  obtain ⟨⟨C', hC', -⟩, -⟩ := C19_filter_total hr
  obtain ⟨C, hC, hsame⟩ := C27_old_filter_agrees_array T hr (.alloc hC')
  have hv : List.Forall₂ (AxisVal h) (gridValue (gridOf T)) (gridOf T) := by
    clear hr hC' hC
    induction T with
    | nil => exact .nil
    | cons t T ih => exact .cons rfl ih
  have key := H n hn h (.list (T.map fun x => .flt x.1)) (.list (T.map fun x => .flt x.2.1)) (T.map (·.1)) (T.map (·.2.1)) (T.map (·.2.2)) rd D
    (.inl (by simp [Function.comp_def])) (.inl (by simp [Function.comp_def])) (by simp) (by simp) hd
  have key' := H' h rd D _ _ hd hv n hn
  rw [hC] at key
  rw [hC'] at key'
  simp only [List.map_map, Function.comp_def, List.length_map] at key
  rcases hcall : callName P n "filter_coeffs" [.list (T.map fun x => .flt x.1), .list (T.map fun x => .flt x.2.1),
    .ints (T.map fun x => (x.2.2 : ℤ)), .arr rd (whole D.shape.length)] h with e | ⟨v, h'⟩
  · rw [hcall] at key; exact key.elim
  rw [hcall] at key
  obtain ⟨⟨t, rfl⟩, r, rfl, hrl, hrC⟩ := key
  rcases hcall' : callName P' n "_filter_cubic" [.tup (gridValue (gridOf T)), .arr rd (whole D.shape.length)] h with e | ⟨v, h'⟩
  · rw [hcall'] at key'; exact key'.elim
  rw [hcall'] at key'
  obtain ⟨rfl, t', rfl⟩ := key'
  exact ⟨r, C, t, C', t', hcall, hrl, hrC, rfl, hsame, fun mode idx hidx => C18_cubic_interpolates hr (.alloc hC') mode idx hidx⟩

end exact

/-- The hypotheses can be met: 3 × 4 data, rational numbers. -/
example : ∃ P, oldFile = some P ∧ ∀ n ≥ 6, ∃ r C t,
    callName P n "filter_coeffs" [.list [.flt (0 : ℚ), .flt 0], .list [.flt 1, .flt 2], .ints [3, 4], .arr 0 [none, none]]
      [⟨[3, 4], fun idx => (idx.sum : ℚ)⟩] = .ok (.arr r [none, none], [⟨[3, 4], fun idx => (idx.sum : ℚ)⟩] ++ t) ∧
      ([⟨[3, 4], fun idx => (idx.sum : ℚ)⟩] ++ t)[r]? = some C := by
  obtain ⟨P, P', hP, -, H⟩ := C113_modules_agree (F := ℚ)
  refine ⟨P, hP, fun n hn => ?_⟩
  have hr : FilterRequest (F := ℚ) (gridOf [(0, 1, 3), (0, 2, 4)]) ⟨[3, 4], fun idx => (idx.sum : ℚ)⟩ false 0 :=
    { grid := ⟨by simp [gridOf], by
        intro g hg
        simp only [gridOf, List.map_cons, List.map_nil, List.mem_cons, List.not_mem_nil, or_false] at hg
        rcases hg with rfl | rfl <;> norm_num [ValidAxis]⟩
      uniform := by
        intro g hg
        simp only [gridOf, List.map_cons, List.map_nil, List.mem_cons, List.not_mem_nil, or_false] at hg
        rcases hg with rfl | rfl <;> rfl
      dim := by simp [gridOf]
      shape := rfl }
  obtain ⟨r, C, t, C', t', h1, -, h3, -⟩ := H _ _ hr [⟨[3, 4], fun idx => (idx.sum : ℚ)⟩] 0 rfl n hn
  exact ⟨r, C, t, h1, h3⟩

/-- Five dimensions: `filter_data` returns `None`. -/
example : ∃ P, oldFile = some P ∧ ∀ n ≥ 7,
    Shows (.ok none : Py (Option (NdArray ℚ)))
      (callName P n "filter_data" [.arr 0 [none], .arr 1 (whole 5)] [demoVec [1, 1, 1, 1, 1], ⟨[2, 2, 2, 2, 2], fun _ => 1⟩])
      (NewArray [demoVec [1, 1, 1, 1, 1], ⟨[2, 2, 2, 2, 2], fun _ => 1⟩] 5) := by
  obtain ⟨P, hP, H⟩ := C113_filter_data (K := ℚ) litLaws_rat (by simp) (by simp)
  exact ⟨P, hP, fun n hn => H n (by omega) [demoVec [1, 1, 1, 1, 1], ⟨[2, 2, 2, 2, 2], fun _ => 1⟩] 0 1 [1, 1, 1, 1, 1] _
    ⟨[2, 2, 2, 2, 2], fun _ => 1⟩ rfl (demoVec_isVec _) rfl rfl⟩

end Interp.Props
