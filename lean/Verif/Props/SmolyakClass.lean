import Verif.Props.SmolyakGrid

/-!
# `SmolyakGrid`, `cheby2n` and the domain maps: C68, C71–C73
-/

set_option linter.unusedSectionVars false
set_option linter.unusedSimpArgs false

namespace Interp.Props
open Interp.Spec Interp.Smolyak
open Interp.CompletePoly (transpose dot rangeN)

/-! ### Exact linear algebra exists -/

/-- Linear algebra over the reals that satisfies the assumptions. -/
noncomputable def exactLA : LinAlg ℝ where
  lu A := match A.shape with
    | [n, m] => if n = m then .ok (A, ⟨[n, n], fun idx => if idx.getD 0 0 = idx.getD 1 0 then 1 else 0⟩)
      else .error .value
    | _ => .error .value
  solve A b := match A.shape with
    | [n, m] => if h : n = m ∧ (toMat A n).det ≠ 0 then
        .ok ⟨b.shape, fun idx => match idx with
          | [] => 0
          | i :: idx => if hi : i < n then ∑ j : Fin n, (toMat A n)⁻¹ ⟨i, hi⟩ j * b.get (j :: idx) else 0⟩
      else .error .linAlg
    | _ => .error .linAlg

theorem exactLA_ok : LinAlgOK exactLA where
  lu A n hA := by
    refine ⟨A, ⟨[n, n], fun idx => if idx.getD 0 0 = idx.getD 1 0 then 1 else 0⟩,
      by simp only [exactLA, hA, if_true], hA, rfl, ?_⟩
    have : toMat (⟨[n, n], fun idx => if idx.getD 0 0 = idx.getD 1 0 then 1 else 0⟩ : NdArray ℝ) n = 1 := by
      funext i j
      simp only [toMat, List.getD_cons_zero, List.getD_cons_succ, Matrix.one_apply, Fin.ext_iff]
    rw [this, mul_one]
  solve A b n t hA hb _ hdet := by
    refine ⟨⟨b.shape, fun idx => match idx with
      | [] => 0
      | i :: idx => if hi : i < n then ∑ j : Fin n, (toMat A n)⁻¹ ⟨i, hi⟩ j * b.get (j :: idx) else 0⟩,
      by simp only [exactLA, hA, hdet, ne_eq, not_false_eq_true, and_self, dite_true], hb, ?_⟩
    intro i idx _
    simp only [Fin.is_lt, dite_true]
    have h1 : (toMat A n).mulVec ((toMat A n)⁻¹.mulVec fun j => b.get ((j : ℕ) :: idx)) i
        = b.get ((i : ℕ) :: idx) := by
      rw [Matrix.mulVec_mulVec, Matrix.mul_nonsing_inv _ (isUnit_iff_ne_zero.mpr hdet), Matrix.one_mulVec]
    exact h1

/-! ### C72: validation -/

section
variable {K : Type} [Add K] [Sub K] [Mul K] [Div K] [Neg K] [Zero K] [One K] [NatCast K] [IntCast K]
  [LT K] [DecidableLT K] [Trig K]

/-- A bound given as an array of the wrong length. -/
def WrongLength (d : ℤ) : Bound K → Prop
  | .array l => (l.length : ℤ) ≠ d
  | _ => False

/-- **C72**, in any arithmetic: invalid parameters raise `ValueError`. -/
theorem C72_rejects (la : LinAlg K) (d : ℤ) (mu : Mu) (lb ub : Bound K)
    (h : d ≤ 1 ∨ ¬ ValidMu d.toNat mu ∨ WrongLength d lb ∨ WrongLength d ub) :
    Grid.new la d mu lb ub = .error .value := by
  have hb : ∀ (x : K) (b : Bound K), (∃ o, boundOf d x b = .ok o ∧ ¬ WrongLength d b) ∨
      boundOf d x b = .error .value := by
    intro x b
    cases b with
    | default =>
      rw [boundOf]; split
      · exact Or.inr rfl
      · exact Or.inl ⟨_, rfl, fun h => h⟩
    | scalar y =>
      rw [boundOf]; split
      · exact Or.inr rfl
      · exact Or.inl ⟨_, rfl, fun h => h⟩
    | array l =>
      rw [boundOf]; split
      · rename_i hl; exact Or.inl ⟨_, rfl, fun h => h hl⟩
      · exact Or.inr rfl
    | other => exact Or.inl ⟨_, rfl, fun h => h⟩
  rw [Grid.new]
  rcases hb (-1) lb with ⟨o, e1, w1⟩ | e1
  swap
  · rw [e1]; rfl
  rcases hb 1 ub with ⟨o', e2, w2⟩ | e2
  swap
  · rw [e1, ok_bind, e2]; rfl
  rw [e1, ok_bind, e2, ok_bind]
  by_cases hd : d ≤ 1
  · simp [hd]
  · simp only [hd, if_false, pure_eq_ok, ok_bind]
    rcases h with h | h | h | h
    · exact absurd h hd
    · have : checkMu d.toNat mu = .error .value := by
        have := (validMu_check d.toNat mu).not.mpr h
        cases mu with
        | iso m =>
          rw [checkMu] at this ⊢
          split
          · rfl
          · rename_i hm; rw [if_neg hm] at this; exact absurd rfl this
        | aniso ms =>
          rw [checkMu] at this ⊢
          split
          · rfl
          · rename_i hm
            rw [if_neg hm] at this
            split
            · rfl
            · rename_i hm'; rw [if_neg hm'] at this; exact absurd rfl this
      rw [this]; rfl
    · exact absurd h w1
    · exact absurd h w2

end

/-- The entry `i` of a bound, in the documentation's terms. -/
def boundEntry (deflt : ℝ) (i : ℕ) : Bound ℝ → Option ℝ
  | .default => some deflt
  | .scalar x => some x
  | .array l => l[i]?
  | .other => none

/-- **C72**, over the reals: valid parameters are accepted. -/
theorem C72_accepts (la : LinAlg ℝ) (hla : LinAlgOK la) (d : ℕ) (mu : Mu) (lb ub : Bound ℝ) (hd : 2 ≤ d)
    (hv : ValidMu d mu) (hl : lb ≠ .other ∧ ¬ WrongLength d lb) (hu : ub ≠ .other ∧ ¬ WrongLength d ub) :
    ∃ sg, Grid.new la d mu lb ub = .ok sg ∧ sg.d = d ∧ sg.mu = mu ∧
      (∀ i < d, sg.lb[i]? = boundEntry (-1) i lb) ∧
      (∀ i < d, sg.ub[i]? = boundEntry 1 i ub) := by
  have hb : ∀ (x : ℝ) (b : Bound ℝ), b ≠ .other ∧ ¬ WrongLength d b → ∃ l, BoundIs d x b l ∧ ∀ i < d,
      l[i]? = boundEntry x i b := by
    intro x b hb
    cases b with
    | default => exact ⟨_, .default, fun i hi => by simp [boundEntry, hi]⟩
    | scalar y => exact ⟨_, .scalar y, fun i hi => by simp [boundEntry, hi]⟩
    | array l =>
      have : l.length = d := by
        by_contra hc
        exact hb.2 (fun e => hc (by omega))
      exact ⟨l, .array l this, fun i hi => rfl⟩
    | other => exact absurd rfl hb.1
  obtain ⟨l, hl1, hl2⟩ := hb (-1) lb hl
  obtain ⟨u, hu1, hu2⟩ := hb 1 ub hu
  obtain ⟨sg, M, e, e1, e2, e3, e4, _⟩ := new_ok la hla d mu lb ub l u hd hv hl1 hu1
  exact ⟨sg, e, e1, e2, by rw [e3]; exact hl2, by rw [e4]; exact hu2⟩

/-- A grid exists for every valid choice of parameters. -/
example : ∃ sg, Grid.new exactLA 2 (.aniso [1, 3]) (.array [0, 1]) (.scalar 5) = .ok sg ∧
    sg.lb = [0, 1] ∧ sg.ub = [5, 5] := by
  obtain ⟨sg, _, e, _, _, e3, e4, _⟩ := new_ok exactLA exactLA_ok 2 (.aniso [1, 3]) (.array [0, 1]) (.scalar 5)
    [0, 1] [5, 5] le_rfl (by simp [ValidMu]) (.array _ rfl) (.scalar 5)
  exact ⟨sg, e, e3, e4⟩

/-- A bound that is neither a number nor an array (e.g. a tuple) leaves the attribute unset:
`AttributeError`. -/
theorem C72_other_bound (la : LinAlg ℝ) (d : ℕ) (mu : Mu) (ub : Bound ℝ) (hd : 2 ≤ d)
    (hv : ValidMu d mu) (hu : ¬ WrongLength d ub) :
    Grid.new la d mu .other ub = .error .attribute := by
  obtain ⟨M, inds, e, hi, hMu⟩ := exists_inds d mu hd hv
  have hb : ∃ o, boundOf (d : ℤ) 1 ub = .ok o := by
    cases ub with
    | default => exact ⟨_, by rw [boundOf, if_neg (by omega)]; rfl⟩
    | scalar y => exact ⟨_, by rw [boundOf, if_neg (by omega)]; rfl⟩
    | array l =>
      have : (l.length : ℤ) = d := by by_contra hc; exact hu hc
      exact ⟨_, by rw [boundOf, if_pos this]; rfl⟩
    | other => exact ⟨_, rfl⟩
  obtain ⟨o, ho⟩ := hb
  rw [Grid.new, show boundOf (d : ℤ) (-1 : ℝ) .other = .ok none from rfl, ok_bind, ho, ok_bind]
  simp only [show ¬ ((d : ℤ) ≤ 1) by omega, if_false, Int.toNat_natCast, pure_eq_ok, ok_bind,
    (validMu_check d mu).mpr hv, e, polyInds_ok hi, buildGrid_ok hi, attr]
  rfl

/-! ### C71: constant vector `mu` -/

theorem allLe_replicate (m : ℤ) : ∀ (el : List ℤ), (∀ e ∈ el, e ≤ m + 1) →
    allLe el (List.replicate el.length m) = true
  | [], _ => by simp [allLe]
  | e :: el, h => by
    have := allLe_replicate m el fun e' h' => h e' (by simp [h'])
    simp only [allLe, List.length_cons, List.replicate_succ, List.zipWith_cons_cons, List.all_cons, id_eq,
      Bool.and_eq_true, decide_eq_true_eq] at this ⊢
    exact ⟨h e (by simp), this⟩

theorem pyMaxList_replicate (d : ℕ) (m : ℤ) (hd : 1 ≤ d) : pyMaxList (List.replicate d m) = .ok m := by
  obtain ⟨M, h1, h2, _⟩ := pyMaxList_ok (List.replicate d m) (by intro h; simp at h; omega)
  rw [h1, List.eq_of_mem_replicate h2]

theorem mapM_congr_mem {α β : Type} (f g : α → Py β) : ∀ l : List α, (∀ a ∈ l, f a = g a) → l.mapM f = l.mapM g
  | [], _ => rfl
  | a :: l, h => by
    rw [List.mapM_cons, List.mapM_cons, h a (by simp), mapM_congr_mem f g l fun b hb => h b (by simp [hb])]

/-- **C71**, indices: the same list, in the same order. -/
theorem C71_smol_inds (d : ℕ) (m : ℤ) (hd : 2 ≤ d) :
    smolInds d (.aniso (List.replicate d m)) = smolInds d (.iso m) := by
  have h1 : maxMu d (.aniso (List.replicate d m)) = .ok m := by
    rw [maxMu, if_neg (by simp), pyMaxList_replicate d m (by omega)]
  have h2 : maxMu d (.iso m) = .ok m := rfl
  rw [smolInds, smolInds, h1, h2, ok_bind, ok_bind]
  simp only []
  congr 1
  have hmem : ∀ val ∈ candidates d m, (do
      let ps ← permute val
      pure (ps.filter (permFilter (.aniso (List.replicate d m)))) : Py (List (List ℤ))) = (do
      let ps ← permute val
      pure (ps.filter (permFilter (.iso m)))) := by
    intro val hval
    obtain ⟨a1, a2, _, a3, a4⟩ := (mem_candidates d m val).mp hval
    obtain ⟨e1, _, e3⟩ := mem_okPermute (val := val) (c := val) (by omega)
    rw [e1, ok_bind, ok_bind]
    congr 1
    refine List.filter_congr fun c hc => ?_
    have hp := (e3 c).mp hc
    simp only [permFilter]
    rw [← a1, ← hp.length_eq]
    refine allLe_replicate m c fun e he => ?_
    have := entry_le val a2 e (hp.mem_iff.mp he)
    omega
  exact mapM_congr_mem _ _ _ hmem

section
variable {K : Type} [Add K] [Sub K] [Mul K] [Div K] [Neg K] [Zero K] [One K] [NatCast K] [IntCast K]
  [LT K] [DecidableLT K] [Trig K]

/-- **C71**, in any arithmetic: a vector `mu` with all entries equal to `m` gives the same object as
the scalar `m`, except for the attribute `mu`. -/
theorem C71_grid (la : LinAlg K) (d : ℕ) (m : ℤ) (hd : 2 ≤ d) (lb ub : Bound K) :
    Grid.new la d (.aniso (List.replicate d m)) lb ub
      = (Grid.new la d (.iso m) lb ub).map fun g => { g with mu := .aniso (List.replicate d m) } := by
  have hmax : muMax (.aniso (List.replicate d m)) = muMax (.iso m) := by
    show pyMaxList (List.replicate d m) = .ok m
    exact pyMaxList_replicate d m (by omega)
  have hchk : checkMu d (.aniso (List.replicate d m)) = checkMu d (.iso m) := by
    rw [checkMu, checkMu]
    by_cases hm : m < 1
    · rw [if_pos hm, if_pos]
      rw [List.any_eq_true]
      exact ⟨m, by simp; omega, by simpa using hm⟩
    · rw [if_neg hm, if_neg, if_neg (by simp)]
      rw [List.any_eq_true]
      rintro ⟨x, hx, h⟩
      rw [List.eq_of_mem_replicate hx] at h
      exact hm (by simpa using h)
  have hg : ∀ i, buildGrid (K := K) d (.aniso (List.replicate d m)) (some i) = buildGrid d (.iso m) (some i) := by
    intro i; simp only [buildGrid, indsOr, hmax]
  have hp : ∀ i, polyInds d (.aniso (List.replicate d m)) (some i) = polyInds d (.iso m) (some i) := by
    intro i; simp only [polyInds, indsOr, hmax]
  have hB : ∀ (x : NdArray K) i, buildB d (.aniso (List.replicate d m)) x (some i) = buildB d (.iso m) x (some i) := by
    intro x i; simp only [buildB, pindsOr, hmax]
  simp only [Grid.new, Int.toNat_natCast, hchk, C71_smol_inds d m hd, hg, hp, hB]
  have hmap : ∀ {α β γ : Type} (x : Py α) (f : α → Py β) (g : β → γ),
      (x >>= f).map g = x >>= fun a => (f a).map g := by
    intro α β γ x f g; cases x <;> rfl
  simp only [hmap]
  by_cases h1 : (d : ℤ) ≤ 1
  · omega
  · simp only [h1, if_false, hmap]
    rfl

end

example : Grid.new exactLA 3 (.aniso [2, 2, 2]) .default .default
    = (Grid.new exactLA 3 (.iso 2) .default .default).map fun g => { g with mu := .aniso [2, 2, 2] } :=
  C71_grid exactLA 3 2 (by omega) .default .default

/-! ### C68: domain maps -/

section
variable {F : Type} [Field F] [LinearOrder F] [IsStrictOrderedRing F]

theorem alongLast_ok {op : F → F → F → F} {lb ub : List F} {pts : NdArray F} {sh : List ℕ} {m : ℕ}
    (hp : pts.shape = sh ++ [m]) (hl : lb.length = m) (hu : ub.length = m) :
    alongLast op lb ub pts = .ok ⟨sh ++ [m], fun idx =>
      op (pts.get idx) (lb.getD (idx.getLastD 0) 0) (ub.getD (idx.getLastD 0) 0)⟩ := by
  simp [alongLast, hl, hu, hp, pure_eq_ok]

variable (lb ub : List F) (sh : List ℕ) (d : ℕ) (hl : lb.length = d) (hu : ub.length = d)
  (hb : ∀ i < d, lb.getD i 0 < ub.getD i 0) (pts : NdArray F) (hp : pts.shape = sh ++ [d])
include hl hu hb hp

/-- **C68.** `cube2dom` and `dom2cube` are inverse to each other, on arrays of points of any shape. -/
theorem C68_inverse : ∃ a b c e : NdArray F, cube2dom lb ub pts = .ok a ∧ dom2cube lb ub a = .ok b ∧
    dom2cube lb ub pts = .ok c ∧ cube2dom lb ub c = .ok e ∧ b.shape = sh ++ [d] ∧ e.shape = sh ++ [d] ∧
    ∀ r i, i < d → b.get (r ++ [i]) = pts.get (r ++ [i]) ∧ e.get (r ++ [i]) = pts.get (r ++ [i]) := by
  refine ⟨_, _, _, _, alongLast_ok hp hl hu, alongLast_ok rfl hl hu, alongLast_ok hp hl hu,
    alongLast_ok rfl hl hu, rfl, rfl, fun r i hi => ?_⟩
  have hlast : (r ++ [i]).getLastD 0 = i := by simp
  have hr : radius (lb.getD i 0) (ub.getD i 0) ≠ 0 := by
    have := hb i hi
    rw [radius]; push_cast
    exact div_ne_zero (sub_ne_zero.mpr (ne_of_gt this)) two_ne_zero
  simp only [hlast]
  constructor
  · show (pts.get (r ++ [i]) * radius (lb.getD i 0) (ub.getD i 0) + center (lb.getD i 0) (ub.getD i 0)
      - center (lb.getD i 0) (ub.getD i 0)) / radius (lb.getD i 0) (ub.getD i 0) = _
    field_simp
    ring
  · show (pts.get (r ++ [i]) - center (lb.getD i 0) (ub.getD i 0)) / radius (lb.getD i 0) (ub.getD i 0)
      * radius (lb.getD i 0) (ub.getD i 0) + center (lb.getD i 0) (ub.getD i 0) = _
    field_simp
    ring

/-- **C68.** A point is in `[-1, 1]^d` exactly when its image by `cube2dom` is in `[lb, ub]`; the corners
go to the bounds. -/
theorem C68_onto : ∃ a : NdArray F, cube2dom lb ub pts = .ok a ∧ a.shape = sh ++ [d] ∧ ∀ r i, i < d →
    ((-1 ≤ pts.get (r ++ [i]) ∧ pts.get (r ++ [i]) ≤ 1) ↔ (lb.getD i 0 ≤ a.get (r ++ [i]) ∧ a.get (r ++ [i]) ≤ ub.getD i 0)) ∧
    (pts.get (r ++ [i]) = -1 → a.get (r ++ [i]) = lb.getD i 0) ∧ (pts.get (r ++ [i]) = 1 → a.get (r ++ [i]) = ub.getD i 0) := by
  refine ⟨_, alongLast_ok hp hl hu, rfl, fun r i hi => ?_⟩
  have hbi := hb i hi
  have hlast : (r ++ [i]).getLastD 0 = i := by simp
  simp only [hlast]
  show ((-1 ≤ pts.get (r ++ [i]) ∧ pts.get (r ++ [i]) ≤ 1) ↔
    (lb.getD i 0 ≤ pts.get (r ++ [i]) * radius (lb.getD i 0) (ub.getD i 0) + center (lb.getD i 0) (ub.getD i 0) ∧
      pts.get (r ++ [i]) * radius (lb.getD i 0) (ub.getD i 0) + center (lb.getD i 0) (ub.getD i 0) ≤ ub.getD i 0)) ∧
    (_ → pts.get (r ++ [i]) * radius (lb.getD i 0) (ub.getD i 0) + center (lb.getD i 0) (ub.getD i 0) = _) ∧
    (_ → pts.get (r ++ [i]) * radius (lb.getD i 0) (ub.getD i 0) + center (lb.getD i 0) (ub.getD i 0) = _)
  rw [radius, center]
  push_cast
  generalize pts.get (r ++ [i]) = t at *
  generalize lb.getD i 0 = l at *
  generalize ub.getD i 0 = u at *
  have h2 : 0 < u - l := by linarith
  refine ⟨⟨fun ⟨h3, h4⟩ => ⟨?_, ?_⟩, fun ⟨h3, h4⟩ => ⟨?_, ?_⟩⟩, fun h => ?_, fun h => ?_⟩
  · nlinarith
  · nlinarith
  · by_contra hc; nlinarith
  · by_contra hc; nlinarith
  · rw [h]; ring
  · rw [h]; ring

omit hb hp in
/-- **C68.** Points of another dimension are rejected with `ValueError` (numpy repeats a single
coordinate, and a grid has at least two dimensions). -/
theorem C68_shape_error (m : ℕ) (hm : pts.shape = sh ++ [m]) (h1 : m ≠ 1) (hd : 2 ≤ d) (hmd : m ≠ d) :
    cube2dom lb ub pts = .error .value ∧ dom2cube lb ub pts = .error .value := by
  have h2 : ¬ d = 1 := by omega
  constructor <;> simp [cube2dom, dom2cube, alongLast, hl, hu, hm, h1, hmd, h2] <;> rfl

end

example : ∃ a, cube2dom [(0 : ℚ), 2] [1, 6] ⟨[1, 2], fun idx => if idx = [0, 0] then 1 else 0⟩ = .ok a ∧
    a.get [0, 0] = 1 ∧ a.get [0, 1] = 4 := by
  refine ⟨_, alongLast_ok (sh := [1]) rfl rfl rfl, ?_, ?_⟩ <;> norm_num [radius, center]

/-- C68 for one point, not in a matrix. -/
example : ∃ a, dom2cube [(0 : ℚ), 2] [1, 6] ⟨[2], fun idx => if idx = [0] then 1 else 4⟩ = .ok a ∧
    a.get [0] = 1 ∧ a.get [1] = 0 := by
  refine ⟨_, alongLast_ok (sh := []) rfl rfl rfl, ?_, ?_⟩ <;> norm_num [radius, center]

example : dom2cube [(0 : ℚ), 2] [1, 6] ⟨[5, 3], fun _ => 0⟩ = .error .value :=
  (C68_shape_error [(0 : ℚ), 2] [1, 6] [5] 2 rfl rfl _ 3 rfl (by omega) (by omega) (by omega)).2

/-! ### C73: Chebyshev recursion -/

/-- **C73.** Row `k` of `cheby2n(x, n)` is the Chebyshev polynomial of degree `k` at `x`: at `cos t` it
is `cos (k t)`, and at any `x` the polynomial `T_k`. -/
theorem C73_first_kind (x : NdArray ℝ) (n : ℕ) (hn : 1 ≤ n) :
    ∃ T, cheby2n x n 1 = .ok T ∧ T.shape = (n + 1) :: x.shape ∧ ∀ k ≤ n, ∀ idx,
      T.get (k :: idx) = (Polynomial.Chebyshev.T ℝ k).eval (x.get idx) ∧
      ∀ t, x.get idx = Real.cos t → T.get (k :: idx) = Real.cos (k * t) := by
  obtain ⟨T, e, s, g⟩ := cheby2n_ok x n hn (1 : ℝ)
  refine ⟨T, e, s, fun k hk idx => ⟨?_, fun t ht => ?_⟩⟩
  · rw [g k hk, chebRec_T]; rfl
  · rw [g k hk, chebRec_T, chebT, ht, Polynomial.Chebyshev.T_real_cos]; simp

/-- **C73**, second kind: at `cos t`, row `k` times `sin t` is `sin ((k + 1) t)`. -/
theorem C73_second_kind (x : NdArray ℝ) (n : ℕ) (hn : 1 ≤ n) :
    ∃ U, cheby2n x n 2 = .ok U ∧ U.shape = (n + 1) :: x.shape ∧ ∀ k ≤ n, ∀ idx,
      U.get (k :: idx) = (Polynomial.Chebyshev.U ℝ k).eval (x.get idx) ∧
      ∀ t, x.get idx = Real.cos t → U.get (k :: idx) * Real.sin t = Real.sin ((k + 1) * t) := by
  obtain ⟨U, e, s, g⟩ := cheby2n_ok x n hn ((2 : ℕ) : ℝ)
  refine ⟨U, by simpa using e, s, fun k hk idx => ⟨?_, fun t ht => ?_⟩⟩
  · rw [g k hk, chebRec_U]
  · rw [g k hk, chebRec_U, ht]
    have := Polynomial.Chebyshev.U_real_cos t k
    push_cast at this
    exact this

/-- With `n = 0` the assignment to row 1 raises `IndexError`. -/
theorem C73_degree_zero (x : NdArray ℝ) (kind : ℝ) : cheby2n x 0 kind = .error .index := by
  simp [cheby2n, setHead, NdArray.zeros, wrapIndex]

end Interp.Props
