import Verif.Proofs.SrcSmolyak
import Verif.Props.SourceCartesian
import Verif.Props.SmolyakGrid
import Verif.Props.SmolyakClass

/-!
# What source texts of `smolyak/util.py` and `smolyak/grid.py` compute: C115

The texts are those of `MoreTexts`, character for character; see C108 for how they are read and executed. The call `permute(a)` is the list
of everything that the generator yields; `n` bounds the nesting of calls and the number of passes of each `while` loop.
-/

namespace Interp.Props
open Interp Interp.Spec Interp.Spec.PySrc Interp.Smolyak

/-- The texts as a program. -/
def smolFile : Option Prog := load [permuteText, numGridPointsText, mIText, cheby2nText, phiChainText, sNText, aChainText, smolIndsText,
  polyIndsText, buildGridText, buildBText] [] []

section
variable {K : Type} [Add K] [Sub K] [Mul K] [Div K] [Neg K] [Zero K] [One K] [NatCast K] [IntCast K]
  [LT K] [DecidableLT K] [LE K] [DecidableLE K] [BEq K] [IntFloor K] [Interp.Smolyak.Trig K]

/-- A run that does not stop for lack of passes. -/
theorem shows_of_runs {α β : Type} {x : Py α} {y : Py (β × Heap K)} {R : α → β → Heap K → Prop} (hx : x ≠ .error .runtime)
    (h : Runs x y fun a o => R a o.1 o.2) : Shows x y R := shows_of_sim (h.resolve_left hx)

theorem permute_noRuntime {α : Type} [LinearOrder α] (a : List α) : permute a ≠ .error .runtime := by
  rcases Nat.lt_or_ge a.length 2 with h | h
  · rw [C58_short a h]
    simp
  · obtain ⟨r, hr, -⟩ := C58_permute a h
    rw [hr]
    simp

/-- C115. `permute(a)` for a list of integers. -/
theorem C115_permute : ∃ P, smolFile = some P ∧
    ∀ (a : List ℤ) (n : ℕ), a.length.factorial + a.length + 3 ≤ n → ∀ h : Heap K,
      Shows (permute a) (callName P n "permute" [.list (a.map .int)] h)
        fun r v h' => v = .list (r.map fun b => .list (b.map .int)) ∧ h' = h := by
  refine ⟨_, smol_load, fun a n hn h => ?_⟩
  obtain ⟨n, rfl⟩ : ∃ m, n = m + 2 := ⟨n - 2, by omega⟩
  rw [callName, sglob_permute, pure_bind, callN_fn]
  have := permute_sim (K := K) ordered_int (smol_perm n) a h (by simp only; omega) (by simp only; omega)
  refine shows_of_runs (permute_noRuntime a) ?_
  rcases this with h1 | h1
  · exact .inl h1
  · exact .inr (h1.mono fun r o ho => by subst ho; exact ⟨rfl, rfl⟩)

/-- C115. `permute(a)` for a list of integers: each rearrangement exactly once, in lexicographic order. -/
theorem C115_permute_all : ∃ P, smolFile = some P ∧
    ∀ (a : List ℤ) (n : ℕ), 2 ≤ a.length → a.length.factorial + a.length + 3 ≤ n → ∀ h : Heap K,
      ∃ r : List (List ℤ), callName P n "permute" [.list (a.map .int)] h = .ok (.list (r.map fun b => .list (b.map .int)), h) ∧
        r.Pairwise (· < ·) ∧ ∀ c, c ∈ r ↔ c.Perm a := by
  obtain ⟨P, hP, H⟩ := C115_permute (K := K)
  refine ⟨P, hP, fun a n h2 hn h => ?_⟩
  obtain ⟨r, hr, h3⟩ := C58_permute a h2
  have := H a n hn h
  rw [hr] at this
  cases hy : callName P n "permute" [.list (a.map .int)] h with
  | error e =>
    rw [hy] at this
    exact this.elim
  | ok o =>
    obtain ⟨v, h'⟩ := o
    rw [hy] at this
    obtain ⟨rfl, rfl⟩ := this
    exact ⟨r, rfl, h3⟩

/-- C115. `m_i(i)`: the value of the model, or `ValueError` for a negative argument. -/
theorem C115_m_i : ∃ P, smolFile = some P ∧ ∀ n ≥ 1, ∀ (i : ℤ) (h : Heap K),
    callName P n "m_i" [.int i] h = mI i >>= fun z => pure (.int z, h) := by
  refine ⟨_, smol_load, fun n hn i h => ?_⟩
  obtain ⟨n, rfl⟩ : ∃ m, n = m + 1 := ⟨n - 1, by omega⟩
  rw [callName, sglob_mI, pure_bind, callN_fn]
  exact mI_run n i h

/-- C115. `num_grid_points(d, mu)`: an integer for `mu` 1, a number for 2 and 3, and `None` for every other `mu`. -/
theorem C115_num_grid_points (h2 : (((2 : ℕ) : K) == 0) = false) (h6 : (((6 : ℕ) : K) == 0) = false) :
    ∃ P, smolFile = some P ∧ ∀ n ≥ 1, ∀ (d mu : ℤ) (h : Heap K), callName P n "num_grid_points" [.int d, .int mu] h =
      .ok (if mu = 1 then .int (2 * d + 1) else match numGridPoints (K := K) d mu with
        | some x => .flt x
        | none => .none, h) := by
  refine ⟨_, smol_load, fun n hn d mu h => ?_⟩
  obtain ⟨n, rfl⟩ : ∃ m, n = m + 1 := ⟨n - 1, by omega⟩
  rw [callName, sglob_num, pure_bind, callN_fn]
  exact num_run h2 h6 n d mu h

/-- C115. `phi_chain(n)`: the dictionary of the model; levels 1 and 2 are lists, the others ranges. -/
theorem C115_phi_chain : ∃ P, smolFile = some P ∧ ∀ n ≥ 2, ∀ (m : ℤ) (h : Heap K), callName P n "phi_chain" [.int m] h =
    .ok (.dict ((phiChain m).map fun p => (p.1, if p.1 ≤ 2 then .list (p.2.map .int) else .range p.2)), h) := by
  refine ⟨_, smol_load, fun n hn m h => ?_⟩
  obtain ⟨n, rfl⟩ : ∃ m, n = m + 2 := ⟨n - 2, by omega⟩
  rw [callName, sglob_phi, pure_bind, callN_fn]
  exact phi_run n m h

/-- C115. `cheby2n(x, m, kind)` for an array of at least one dimension and `m ≥ 1`: a new array with the values of the model; without
`kind` it is 1.0. -/
theorem C115_cheby2n (L : LitLaws K) : ∃ P, smolFile = some P ∧
    ∀ n ≥ 2, ∀ (h : Heap K) (rx : ℕ) (X : NdArray K) (m : ℕ), h[rx]? = some X → X.shape ≠ [] → 1 ≤ m →
      (∀ kind, Shows (cheby2n X m kind) (callName P n "cheby2n" [.arr rx (whole X.shape.length), .int (m : ℤ), .flt kind] h)
        fun C v h' => ∃ A t, v = .arr h.length (whole (X.shape.length + 1)) ∧ h' = h ++ A :: t ∧ Alike C A) ∧
      Shows (cheby2n X m ((1 : ℕ) : K)) (callName P n "cheby2n" [.arr rx (whole X.shape.length), .int (m : ℤ)] h)
        fun C v h' => ∃ A t, v = .arr h.length (whole (X.shape.length + 1)) ∧ h' = h ++ A :: t ∧ Alike C A := by
  refine ⟨_, smol_load, fun n hn h rx X m hX hd hm => ?_⟩
  obtain ⟨n, rfl⟩ : ∃ m, n = m + 2 := ⟨n - 2, by omega⟩
  have key (kind : K) : Shows (cheby2n X m kind)
      (callName smolProg (n + 2) "cheby2n" [.arr rx (whole X.shape.length), .int (m : ℤ), .flt kind] h)
      fun C v h' => ∃ A t, v = .arr h.length (whole (X.shape.length + 1)) ∧ h' = h ++ A :: t ∧ Alike C A := by
    rw [callName, sglob_cheby, pure_bind, callN_fn]
    refine shows_of_sim ((cheby_sim L n hX (by simpa using hd) m hm kind).mono ?_)
    rintro C ⟨v, H⟩ ⟨rfl, A, t, rfl, hA, -⟩
    exact ⟨A, t, rfl, rfl, hA⟩
  refine ⟨key, ?_⟩
  have := key ((1 : ℕ) : K)
  rw [callName, sglob_cheby, pure_bind, callN_fn] at this ⊢
  exact this

end

section exact
variable {F : Type} [Field F] [LinearOrder F] [IsStrictOrderedRing F] [FloorRing F] [Interp.Smolyak.Trig F]

/-- C115. `permute(a)` for a list of numbers: each rearrangement exactly once, in lexicographic order. -/
theorem C115_permute_numbers : ∃ P, smolFile = some P ∧
    ∀ (a : List F) (n : ℕ), 2 ≤ a.length → a.length.factorial + a.length + 3 ≤ n → ∀ h : Heap F,
      ∃ r : List (List F), callName P n "permute" [.list (a.map .flt)] h = .ok (.list (r.map fun b => .list (b.map .flt)), h) ∧
        r.Pairwise (· < ·) ∧ ∀ c, c ∈ r ↔ c.Perm a := by
  refine ⟨_, smol_load, fun a n h2 hn h => ?_⟩
  obtain ⟨n, rfl⟩ : ∃ m, n = m + 2 := ⟨n - 2, by omega⟩
  rw [callName, sglob_permute, pure_bind, callN_fn]
  have := (permute_sim (K := F) ordered_flt (smol_perm n) a h (by simp only; omega) (by simp only; omega)).resolve_left (permute_noRuntime a)
  obtain ⟨r, hr, h3⟩ := C58_permute a h2
  rw [hr] at this
  cases hy : runFun (world smolProg (n + 1)) permuteFun [.list (a.map .flt)] h with
  | error e =>
    rw [hy] at this
    exact this.elim
  | ok o =>
    rw [hy] at this
    exact ⟨r, congrArg Except.ok this, h3⟩

end exact

/-- C115. The number that the text of `num_grid_points` returns is the number of rows of the grid, for `mu` 1, 2, 3. -/
theorem C115_num_grid_points_rows : ∃ P, smolFile = some P ∧
    ∀ n ≥ 1, ∀ (d : ℕ) (mu : ℤ) (h : Heap ℝ), 2 ≤ d → mu = 1 ∨ mu = 2 ∨ mu = 3 →
      ∃ (inds : List (List ℤ)) (g : NdArray ℝ) (N : ℕ), smolInds d (.iso mu) = .ok inds ∧ buildGrid d (.iso mu) (some inds) = .ok g ∧
        g.shape = [N, d] ∧ callName P n "num_grid_points" [.int d, .int mu] h = .ok (if mu = 1 then .int N else .flt (N : ℝ), h) := by
  obtain ⟨P, hP, H⟩ := C115_num_grid_points (K := ℝ) (by simp) (by simp)
  refine ⟨P, hP, fun n hn d mu h hd hmu => ?_⟩
  obtain ⟨inds, g, N, h1, h2, h3, h4⟩ := C60_num_grid_points d hd mu hmu
  refine ⟨inds, g, N, h1, h2, h3, ?_⟩
  rw [H n hn d mu h, h4]
  by_cases h5 : mu = 1
  · subst h5
    simp only [numGridPoints, if_true, Option.some.injEq] at h4
    have : (2 * (d : ℤ) + 1) = N := by exact_mod_cast h4
    simp [this]
  · simp [h5]

/-- C115. The rows that the text of `cheby2n` computes, exactly and over the reals: row `k` holds the values of the `k`-th Chebyshev
polynomial of the first kind. -/
theorem C115_cheby2n_rows : ∃ P, smolFile = some P ∧
    ∀ n ≥ 2, ∀ (h : Heap ℝ) (rx : ℕ) (X : NdArray ℝ) (m : ℕ), h[rx]? = some X → X.shape ≠ [] → 1 ≤ m →
      ∃ A t, callName P n "cheby2n" [.arr rx (whole X.shape.length), .int (m : ℤ)] h = .ok (.arr h.length (whole (X.shape.length + 1)), h ++ A :: t) ∧
        A.shape = (m + 1) :: X.shape ∧ ∀ k ≤ m, ∀ idx, idx.length = X.shape.length →
          A.get (k :: idx) = (Polynomial.Chebyshev.T ℝ k).eval (X.get idx) ∧
          ∀ t, X.get idx = Real.cos t → A.get (k :: idx) = Real.cos (k * t) := by
  obtain ⟨P, hP, H⟩ := C115_cheby2n (K := ℝ) litLaws_field
  refine ⟨P, hP, fun n hn h rx X m hX hd hm => ?_⟩
  obtain ⟨T, hT, hs, hv⟩ := C73_first_kind X m hm
  have := (H n hn h rx X m hX hd hm).2
  rw [Nat.cast_one, hT] at this
  cases hy : callName P n "cheby2n" [.arr rx (whole X.shape.length), .int (m : ℤ)] h with
  | error e =>
    rw [hy] at this
    exact this.elim
  | ok o =>
    obtain ⟨v, h'⟩ := o
    rw [hy] at this
    obtain ⟨A, t, rfl, rfl, hA⟩ := this
    refine ⟨A, t, rfl, hA.1 ▸ hs, fun k hk idx hidx => ?_⟩
    rw [← hA.2 (k :: idx) (by simp [hs, hidx])]
    exact hv k hk idx

/-- The hypotheses can be met, and the result is not trivial. -/
example : ∃ P, smolFile = some P ∧ ∃ r : List (List ℤ), callName P 20 "permute" [.list [.int 2, .int 1, .int 2]] ([] : Heap ℚ) =
    .ok (.list (r.map fun b => .list (b.map .int)), []) ∧ [2, 2, 1] ∈ r ∧ [2, 2, 2] ∉ r := by
  obtain ⟨P, hP, H⟩ := C115_permute_all (K := ℚ)
  refine ⟨P, hP, ?_⟩
  obtain ⟨r, h1, -, h2⟩ := H [2, 1, 2] 20 (by simp) (by decide) []
  exact ⟨r, h1, (h2 _).mpr (by decide), fun h => absurd ((h2 _).mp h) (by decide)⟩

example : ∃ P, smolFile = some P ∧ ∀ n ≥ 2, ∃ A t,
    callName P n "cheby2n" [.arr 0 [none], .int 2] [(⟨[4], fun _ => 1 / 2⟩ : NdArray ℝ)] =
      .ok (.arr 1 [none, none], [⟨[4], fun _ => 1 / 2⟩] ++ A :: t) ∧ A.shape = [3, 4] ∧ A.get [2, 0] = -(1 / 2) := by
  obtain ⟨P, hP, H⟩ := C115_cheby2n_rows
  refine ⟨P, hP, fun n hn => ?_⟩
  obtain ⟨A, t, h1, h2, h3⟩ := H n hn [⟨[4], fun _ => 1 / 2⟩] 0 ⟨[4], fun _ => 1 / 2⟩ 2 rfl (by simp) (by norm_num)
  refine ⟨A, t, h1, h2, ?_⟩
  rw [(h3 2 le_rfl [0] rfl).1]
  norm_num [Polynomial.Chebyshev.T_two]

end Interp.Props
