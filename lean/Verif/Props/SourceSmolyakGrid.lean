import Verif.Proofs.SrcGrid
import Verif.Props.SourceSmolyak

/-!
# What the source texts of the Smolyak grid compute: C117

The texts are those of `MoreTexts`, character for character; see C108 for how they are read and executed, and C115 for the program. A level
of accuracy `mu` is an integer, or a sequence of integers, one per dimension.
-/

namespace Interp.Props
open Interp Interp.Spec Interp.Spec.PySrc Interp.Smolyak

section
variable {K : Type} [Add K] [Sub K] [Mul K] [Div K] [Neg K] [Zero K] [One K] [NatCast K] [IntCast K]
  [LT K] [DecidableLT K] [LE K] [DecidableLE K] [BEq K] [IntFloor K] [Interp.Smolyak.Trig K]

/-- C117. `smol_inds(d, mu)`: the list of lists of the model, or its exception. -/
theorem C117_smol_inds : ∃ P, smolFile = some P ∧
    ∀ (d : ℕ) (mu : Mu) (n : ℕ), d.factorial + d + 4 ≤ n → ∀ h : Heap K,
      callName P n "smol_inds" [.int d, muVal mu] h = smolInds d mu >>= fun r => pure (.list (r.map fun l => .list (l.map .int)), h) := by
  refine ⟨_, smol_load, fun d mu n hn h => ?_⟩
  obtain ⟨n, rfl⟩ : ∃ m, n = m + 1 := ⟨n - 1, by omega⟩
  rw [callName, sglob_smolInds, pure_bind, callN_fn, smolInds_run n d (by omega), bind_run, lift_run, bind_assoc]
  rfl

/-- C117. `poly_inds(d, mu, inds)`: the list of tuples of the model, or its exception; without `inds` the text calls `smol_inds`. -/
theorem C117_poly_inds : ∃ P, smolFile = some P ∧
    ∀ (d : ℕ) (mu : Mu) (n : ℕ), d.factorial + d + 5 ≤ n → ∀ h : Heap K,
      (∀ inds : List (List ℤ), callName P n "poly_inds" [.int d, muVal mu, .list (inds.map fun l => .list (l.map .int))] h =
        polyInds d mu (some inds) >>= fun r => pure (.list (r.map fun l => .tup (l.map .int)), h)) ∧
      callName P n "poly_inds" [.int d, muVal mu] h =
        polyInds d mu none >>= fun r => pure (.list (r.map fun l => .tup (l.map .int)), h) := by
  refine ⟨_, smol_load, fun d mu n hn h => ?_⟩
  obtain ⟨n, rfl⟩ : ∃ m, n = m + 1 := ⟨n - 1, by omega⟩
  have key (inds : Option (List (List ℤ))) : callName smolProg (n + 1) "poly_inds" [.int d, muVal mu, indsVal inds] h =
      polyInds d mu inds >>= fun r => pure (.list (r.map fun l => .tup (l.map .int)), h) := by
    rw [callName, sglob_polyInds, pure_bind, callN_fn, polyInds_run n d (by omega), bind_run, lift_run, bind_assoc]
    rfl
  refine ⟨fun inds => key (some inds), ?_⟩
  rw [← key none, callName, callName, sglob_polyInds, pure_bind, pure_bind, callN_fn, callN_fn]
  rfl

/-- C117. `s_n(m)` for `m ≥ 1`: a new array with the nodes of the model. -/
theorem C117_s_n (L : GridLaws K) : ∃ P, smolFile = some P ∧ ∀ n ≥ 2, ∀ (m : ℕ) (h : Heap K), 1 ≤ m →
    ∃ r H A, callName P n "s_n" [.int m] h = .ok (.arr r [none], H) ∧ H[r]? = some A ∧ h <+: H ∧
      A.shape = [(sN (K := K) m).length] ∧ ∀ i < (sN (K := K) m).length, A.get [i] = (sN m).getD i 0 := by
  refine ⟨_, smol_load, fun n hn m h hm => ?_⟩
  obtain ⟨n, rfl⟩ : ∃ k, n = k + 2 := ⟨n - 2, by omega⟩
  obtain ⟨r, H, e, ⟨A, hA, hv⟩, hp, -⟩ := sN_run L n m hm h
  refine ⟨r, H, A, ?_, hA, hp, hv.1, fun i hi => ?_⟩
  · rw [callName, sglob_sN, pure_bind, callN_fn]
    exact e
  · rw [hv.2 i hi, List.getD_eq_getElem _ _ hi]

/-- C117. `a_chain(m)` for `m ≥ 1`: the dictionary of the model; levels 1 and 2 are lists, the others tuples. -/
theorem C117_a_chain (L : GridLaws K) : ∃ P, smolFile = some P ∧ ∀ n ≥ 3, ∀ (m : ℕ) (h : Heap K), 1 ≤ m →
    ∃ H, callName P n "a_chain" [.int m] h = .ok (.dict ((aChain m).map fun p =>
      (p.1, if p.1 ≤ 2 then .list (p.2.map .flt) else .tup (p.2.map .flt))), H) ∧ h <+: H := by
  refine ⟨_, smol_load, fun n hn m h hm => ?_⟩
  obtain ⟨n, rfl⟩ : ∃ k, n = k + 3 := ⟨n - 3, by omega⟩
  obtain ⟨H, e, hp⟩ := aChain_run L n m hm h
  refine ⟨H, ?_, hp⟩
  rw [callName, sglob_aChain, pure_bind, callN_fn]
  exact e

/-- C117. `build_grid(d, mu, inds)`: a new array with the points of the model, or its exception. The greatest level is not negative, each
element of `inds` has `d` entries, and there is at least one point. -/
theorem C117_build_grid (L : GridLaws K) : ∃ P, smolFile = some P ∧
    ∀ (d : ℕ) (mu : Mu) (n : ℕ), d.factorial + d + 5 ≤ n → (∀ m, muMax mu = pure m → 0 ≤ m) → ∀ h : Heap K,
      (∀ inds : List (List ℤ), (∀ el ∈ inds, el.length = d) →
        (∀ G : NdArray K, buildGrid d mu (some inds) = pure G → G.shape.headD 0 ≠ 0) →
        Shows (buildGrid d mu (some inds)) (callName P n "build_grid" [.int d, muVal mu, .list (inds.map fun l => .list (l.map .int))] h)
          fun G v h' => ∃ r A, v = .arr r [none, none] ∧ h <+: h' ∧ h'[r]? = some A ∧ Alike G A) ∧
      ((∀ l, smolInds d mu = pure l → ∀ el ∈ l, el.length = d) →
        (∀ G : NdArray K, buildGrid d mu none = pure G → G.shape.headD 0 ≠ 0) →
        Shows (buildGrid d mu none) (callName P n "build_grid" [.int d, muVal mu] h)
          fun G v h' => ∃ r A, v = .arr r [none, none] ∧ h <+: h' ∧ h'[r]? = some A ∧ Alike G A) := by
  refine ⟨_, smol_load, fun d mu n hn hmu h => ?_⟩
  obtain ⟨n, rfl⟩ : ∃ m, n = m + 1 := ⟨n - 1, by omega⟩
  have key (inds : Option (List (List ℤ))) (h1 : ∀ l, indsOr d mu inds = pure l → ∀ el ∈ l, el.length = d)
      (h2 : ∀ G : NdArray K, buildGrid d mu inds = pure G → G.shape.headD 0 ≠ 0) :
      Shows (buildGrid d mu inds) (callName smolProg (n + 1) "build_grid" [.int d, muVal mu, indsVal inds] h)
        fun G v h' => ∃ r A, v = .arr r [none, none] ∧ h <+: h' ∧ h'[r]? = some A ∧ Alike G A := by
    rw [callName, sglob_buildGrid, pure_bind, callN_fn]
    exact shows_of_sim (buildGrid_run L n d (by omega) mu inds hmu h1 h2 h)
  refine ⟨fun inds h1 h2 => key (some inds) (fun l hl => by cases hl; exact h1) h2, fun h1 h2 => ?_⟩
  have := key none h1 h2
  rw [callName, sglob_buildGrid, pure_bind, callN_fn] at this ⊢
  exact this

end

theorem gridLaws_field {F : Type} [Field F] [LinearOrder F] [IsStrictOrderedRing F] [FloorRing F] [Interp.Smolyak.Trig F]
    (h : (Trig.tol : F) = 1 / 10 ^ 14) : GridLaws F where
  toLitLaws := litLaws_field
  tol := by rw [h]; norm_num [decimal]
  len m := by
    have : -IntFloor.ifloor (-((m : F) + 1 - 1)) = -⌊-((m : F) + 1 - 1)⌋ := rfl
    rw [this, add_sub_cancel_right, Int.floor_neg, neg_neg, Int.ceil_natCast]
  two := by norm_num
  more i := by push_cast; ring

theorem gridLaws_real : GridLaws ℝ := gridLaws_field rfl

/-- C117. What the text of `smol_inds` returns, for at least two dimensions: every admissible index vector, each exactly once. -/
theorem C117_smol_inds_admissible {K : Type} [Add K] [Sub K] [Mul K] [Div K] [Neg K] [Zero K] [One K] [NatCast K] [IntCast K]
    [LT K] [DecidableLT K] [LE K] [DecidableLE K] [BEq K] [IntFloor K] [Interp.Smolyak.Trig K] : ∃ P, smolFile = some P ∧
    ∀ (d : ℕ) (mu : Mu) (n : ℕ), 2 ≤ d → ValidMu d mu → d.factorial + d + 4 ≤ n → ∀ h : Heap K,
      ∃ r : List (List ℤ), callName P n "smol_inds" [.int d, muVal mu] h = .ok (.list (r.map fun l => .list (l.map .int)), h) ∧
        r.Nodup ∧ ∀ el, el ∈ r ↔ Admissible d mu el := by
  obtain ⟨P, hP, H⟩ := C117_smol_inds (K := K)
  refine ⟨P, hP, fun d mu n hd hv hn h => ?_⟩
  obtain ⟨r, hr, h1, h2⟩ := C59_smol_inds d mu hd hv
  exact ⟨r, by rw [H d mu n hn h, hr]; rfl, h1, h2⟩

/-- C117. The nodes that the text of `s_n` computes over the reals, up to level 49: the Chebyshev extrema.

Missing: the levels above 49, where the threshold `1e-14` replaces nodes by zero, see `C61_levels_fails`. -/
theorem C117_s_n_extrema_partial : ∃ P, smolFile = some P ∧ ∀ n ≥ 2, ∀ (m : ℕ) (h : Heap ℝ), 2 ≤ m → m ≤ 49 →
    ∃ r H A, callName P n "s_n" [.int m] h = .ok (.arr r [none], H) ∧ H[r]? = some A ∧ h <+: H ∧
      A.shape = [2 ^ (m - 1) + 1] ∧ ∀ j ≤ 2 ^ (m - 1), A.get [j] = -Real.cos (Real.pi * j / 2 ^ (m - 1)) := by
  obtain ⟨P, hP, H⟩ := C117_s_n gridLaws_real
  refine ⟨P, hP, fun n hn m h hm h49 => ?_⟩
  obtain ⟨r, H', A, e, hA, hp, hs, hv⟩ := H n hn m h (by omega)
  rw [sN_eq m hm] at hs hv
  refine ⟨r, H', A, e, hA, hp, by simpa using hs, fun j hj => ?_⟩
  rw [hv j (by simp; omega), ← sNode_exact m j hm h49 hj]
  simp [List.getD_eq_getElem?_getD, List.getElem?_map, List.getElem?_range (show j < 2 ^ (m - 1) + 1 by omega)]

theorem gridRows_ne {d : ℕ} {mu : Mu} {M : ℕ} {inds : List (List ℤ)} (hi : IndsOK d mu M inds) : gridRows inds ≠ [] := by
  have h1 : Admissible d mu (List.replicate d 1) := by
    have hv := hi.valid
    have hd := hi.hd
    rcases mu with m | ms
    · simp only [ValidMu] at hv
      refine ⟨by simp, fun e he => ?_, ?_⟩
      · rw [List.mem_replicate] at he; omega
      · simp; omega
    · obtain ⟨hl, hm⟩ := hv
      refine ⟨by simp, fun e he => ?_, ?_, ?_⟩
      · rw [List.mem_replicate] at he; omega
      · obtain ⟨x, t, rfl⟩ := List.exists_cons_of_length_pos (show 0 < ms.length by omega)
        refine ⟨x, by simp, ?_⟩
        have := hm x (by simp)
        simp; omega
      · rw [List.forall₂_iff_get]
        refine ⟨by simp [hl], fun i h1 h2 => ?_⟩
        have := hm _ (List.get_mem ms ⟨i, h2⟩)
        simp at this ⊢
        omega
  intro h0
  have : List.replicate d (0 : ℝ) ∈ gridRows inds := by
    rw [mem_gridRows]
    refine ⟨_, (hi.mem _).mpr h1, ?_⟩
    rw [List.forall₂_iff_get]
    refine ⟨by simp, fun i h1 h2 => ?_⟩
    simp [aLevel]
  rw [h0] at this
  simp at this

/-- The text of `build_grid`, run for a valid level of accuracy. -/
theorem build_grid_text {P : Prog} (hP : smolFile = some P) {d : ℕ} {mu : Mu} (hd : 2 ≤ d) (hv : ValidMu d mu) {n : ℕ} (hn : d.factorial + d + 5 ≤ n)
    (h : Heap ℝ) : ∃ M inds r H A, IndsOK d mu M inds ∧ (∀ b, MuLe b mu ↔ (M : ℤ) ≤ b) ∧ smolInds d mu = .ok inds ∧
      callName P n "build_grid" [.int d, muVal mu] h = .ok (.arr r [none, none], H) ∧ h <+: H ∧
      H[r]? = some A ∧ A.shape = [(gridRows inds).length, d] ∧ ∀ i j, A.get [i, j] = ((gridRows inds).getD i []).getD j 0 := by
  obtain ⟨P', hP', H⟩ := C117_build_grid gridLaws_real
  rw [hP] at hP'
  cases hP'
  obtain ⟨M, inds, e, hi, hM⟩ := exists_inds d mu hd hv
  have hg : buildGrid (K := ℝ) d mu none = .ok (ofRows d (gridRows inds)) := by
    rw [← buildGrid_ok hi, buildGrid, buildGrid, indsOr, indsOr, e]
    rfl
  have := (H d mu n hn (fun m hm => by rw [hi.top] at hm; cases hm; simp) h).2 (fun l hl => by
    rw [e] at hl
    cases hl
    exact fun el hel => (hi.entry hel).1) (fun G hG => by
    rw [hg] at hG
    cases hG
    simpa [ofRows] using gridRows_ne hi)
  rw [hg] at this
  cases hy : callName P n "build_grid" [.int d, muVal mu] h with
  | error e =>
    rw [hy] at this
    exact this.elim
  | ok o =>
    obtain ⟨v, h'⟩ := o
    rw [hy] at this
    obtain ⟨r, A, rfl, hp, hA, hG⟩ := this
    refine ⟨M, inds, r, h', A, hi, hM, e, rfl, hp, hA, hG.1.symm, fun i j => ?_⟩
    rw [← hG.2 [i, j] rfl]
    rfl

/-- C117. Over the reals, the rows of the array that the text of `build_grid` returns lie in the cube `[-1, 1] ^ d`. -/
theorem C117_build_grid_cube : ∃ P, smolFile = some P ∧ ∀ (d : ℕ) (mu : Mu) (n : ℕ), 2 ≤ d → ValidMu d mu → d.factorial + d + 5 ≤ n →
    ∀ h : Heap ℝ, ∃ r H A N, callName P n "build_grid" [.int d, muVal mu] h = .ok (.arr r [none, none], H) ∧ h <+: H ∧ H[r]? = some A ∧
      A.shape = [N, d] ∧ 0 < N ∧ ∀ i < N, ∀ j < d, -1 ≤ A.get [i, j] ∧ A.get [i, j] ≤ 1 := by
  refine ⟨_, smol_load, fun d mu n hd hv hn h => ?_⟩
  obtain ⟨M, inds, r, H, A, hi, -, -, e, hp, hA, hs, hg⟩ := build_grid_text smol_load hd hv hn h
  refine ⟨r, H, A, _, e, hp, hA, hs, List.length_pos_iff.mpr (gridRows_ne hi), fun i hi' j hj => ?_⟩
  rw [hg]
  have hmem := mem_of_row hi'
  have hlen := gridRows_length_row hi hmem
  obtain ⟨el, hel, hf⟩ := (mem_gridRows _).mp hmem
  rw [List.getD_eq_getElem _ _ (by omega)]
  rw [List.forall₂_iff_get] at hf
  exact aLevel_bound _ _ (hf.2 j (by omega) (by rw [← hf.1]; omega))

/-- C117. Over the reals and for `mu` up to 48, the rows of the array that the text of `build_grid` returns are pairwise distinct.

Missing: larger `mu`, where the claim is false, see `C62_distinct_fails`. -/
theorem C117_build_grid_distinct_partial : ∃ P, smolFile = some P ∧ ∀ (d : ℕ) (mu : Mu) (n : ℕ), 2 ≤ d → ValidMu d mu → MuLe 48 mu →
    d.factorial + d + 5 ≤ n → ∀ h : Heap ℝ, ∃ r H A N, callName P n "build_grid" [.int d, muVal mu] h = .ok (.arr r [none, none], H) ∧
      H[r]? = some A ∧ A.shape = [N, d] ∧ ∀ i < N, ∀ i' < N, (∀ j < d, A.get [i, j] = A.get [i', j]) → i = i' := by
  refine ⟨_, smol_load, fun d mu n hd hv h48 hn h => ?_⟩
  obtain ⟨M, inds, r, H, A, hi, hM, -, e, hp, hA, hs, hg⟩ := build_grid_text smol_load hd hv hn h
  refine ⟨r, H, A, _, e, hA, hs, fun i h1 i' h2 he => ?_⟩
  have hM48 : M ≤ 48 := by have := (hM 48).mp h48; omega
  have l1 := gridRows_length_row hi (mem_of_row h1)
  have l2 := gridRows_length_row hi (mem_of_row h2)
  have : (gridRows inds).getD i [] = (gridRows inds).getD i' [] := by
    refine List.ext_getElem (by rw [l1, l2]) fun j h3 h4 => ?_
    have := he j (by omega)
    rwa [hg, hg, List.getD_eq_getElem _ _ h3, List.getD_eq_getElem _ _ h4] at this
  rw [List.getD_eq_getElem _ _ h1, List.getD_eq_getElem _ _ h2] at this
  exact ((hi.gridRows_nodup hM48).getElem_inj_iff).mp this

/-- C117. The texts of `build_grid` and `num_grid_points` agree over the reals for `mu` 1, 2, 3: the number that one returns is the number
of rows of the array that the other returns. -/
theorem C117_num_rows : ∃ P, smolFile = some P ∧ ∀ (d : ℕ) (mu : ℤ) (n : ℕ), 2 ≤ d → mu = 1 ∨ mu = 2 ∨ mu = 3 → d.factorial + d + 5 ≤ n →
    ∀ h : Heap ℝ, ∃ r H A N, callName P n "build_grid" [.int d, .int mu] h = .ok (.arr r [none, none], H) ∧ H[r]? = some A ∧ A.shape = [N, d] ∧
      callName P n "num_grid_points" [.int d, .int mu] H = .ok (if mu = 1 then .int N else .flt (N : ℝ), H) := by
  obtain ⟨P, hP, H0⟩ := C115_num_grid_points_rows
  refine ⟨P, hP, fun d mu n hd hmu hn h => ?_⟩
  obtain ⟨M, inds, r, H, A, hi, -, he, e, hp, hA, hs, -⟩ := build_grid_text (mu := .iso mu) hP hd (by rcases hmu with rfl | rfl | rfl <;> simp [ValidMu]) hn h
  obtain ⟨inds', g, N, h1, h2, h3, h4⟩ := H0 n (by omega) d mu H hd hmu
  rw [he] at h1
  cases h1
  rw [buildGrid_ok hi] at h2
  cases h2
  simp only [ofRows, List.cons.injEq, and_true] at h3
  exact ⟨r, H, A, N, e, hA, by rw [hs, h3], h4⟩

/-- The hypotheses can be met, and the result is not trivial. -/
example : ∃ P, smolFile = some P ∧ ∃ r : List (List ℤ), callName P 20 "smol_inds" [.int 2, .int 1] ([] : Heap ℚ) =
    .ok (.list (r.map fun b => .list (b.map .int)), []) ∧ [2, 1] ∈ r ∧ [2, 2] ∉ r := by
  obtain ⟨P, hP, H⟩ := C117_smol_inds_admissible (K := ℚ)
  refine ⟨P, hP, ?_⟩
  obtain ⟨r, h1, -, h2⟩ := H 2 (.iso 1) 20 le_rfl (by simp [ValidMu]) (by decide) []
  exact ⟨r, h1, (h2 _).mpr (by simp [Admissible]), fun h => absurd ((h2 _).mp h) (by simp [Admissible])⟩

example : ∃ P, smolFile = some P ∧ ∃ r H A, callName P 20 "build_grid" [.int 3, .int 1] ([] : Heap ℝ) = .ok (.arr r [none, none], H) ∧
    H[r]? = some A ∧ A.shape = [7, 3] := by
  obtain ⟨P, hP, H⟩ := C117_num_rows
  refine ⟨P, hP, ?_⟩
  obtain ⟨r, H', A, N, h1, h2, h3, h4⟩ := H 3 1 20 (by norm_num) (by simp) (by decide) []
  obtain ⟨P', hP', H5⟩ := C115_num_grid_points (K := ℝ) (by simp) (by simp)
  rw [hP] at hP'
  cases hP'
  have h6 := H5 20 (by norm_num) 3 1 H'
  have h7 : callName P 20 "num_grid_points" [.int (3 : ℕ), .int 1] H' = callName P 20 "num_grid_points" [.int 3, .int 1] H' := rfl
  rw [h7, h6] at h4
  simp at h4
  have : N = 7 := by omega
  subst this
  exact ⟨r, H', A, h1, h2, h3⟩

end Interp.Props
