import Verif.Spec.Interp
import Verif.Proofs.LinearMulti
import Verif.Proofs.Cartesian
import Verif.Proofs.ExceptLemmas

/-! What `mlinterp` and `interp` compute. -/

set_option linter.unusedSectionVars false
set_option linter.unusedSimpArgs false

namespace Interp.Mlinterp
open Interp.Codegen Interp.Spec
open Interp.Filter (pyFor_cons pyFor_nil)

section any
variable {K : Type} [Add K] [Sub K] [Mul K] [Div K] [Neg K] [Zero K] [One K] [NatCast K]
  [IntCast K] [LT K] [DecidableLT K] [BEq K] [IntFloor K]

/-- Index of the cell. -/
def cellI : GridDim K → K → ℤ
  | .uniform a b n, x => clamp (IntFloor.ifloordiv (x - a) ((b - a) / ((n - 1 : ℤ) : K))) 0 (n - 2)
  | .array gc, x => clamp ((searchsorted gc x : ℤ) - 1) 0 ((gc.length : ℤ) - 2)

/-- Barycentric coordinate. -/
def lamI : GridDim K → K → K
  | .uniform a b n, x =>
    ((x - a) - ((cellI (.uniform a b n) x : ℤ) : K) * ((b - a) / ((n - 1 : ℤ) : K))) /
      ((b - a) / ((n - 1 : ℤ) : K))
  | .array gc, x => (x - gc.getD (cellI (.array gc) x).toNat 0) /
      (gc.getD ((cellI (.array gc) x).toNat + 1) 0 - gc.getD (cellI (.array gc) x).toNat 0)

/-- Value at a point. -/
def mlVal : List (GridDim K) → (List ℕ → K) → List K → K
  | g :: G, c, x :: xs =>
    (1 - lamI g x) * mlVal G (fun r => c ((cellI g x).toNat :: r)) xs +
      lamI g x * mlVal G (fun r => c (((cellI g x).toNat + 1) :: r)) xs
  | _, c, _ => c []

theorem rd_ok (l : List K) (j : ℕ) (h : j < l.length) : listRead l (j : ℤ) = .ok (l.getD j 0) := by
  rw [listRead_of_lt l j (by omega) (by omega), List.getD_eq_getElem _ _ h]
  rfl

theorem clamp_bounds (i n : ℤ) (hn : 2 ≤ n) : 0 ≤ clamp i 0 (n - 2) ∧ clamp i 0 (n - 2) + 1 < n := by
  rw [clamp, pyMinZ_eq, pyMaxZ_eq]
  omega

theorem cellI_bounds {g : GridDim K} (h : NoZeroDiv g) (x : K) :
    0 ≤ cellI g x ∧ cellI g x + 1 < axisLen g := by
  cases g with
  | uniform a b n =>
    have := clamp_bounds (IntFloor.ifloordiv (x - a) ((b - a) / ((n - 1 : ℤ) : K))) n h.1
    refine ⟨this.1, ?_⟩
    have h2 := h.1
    show cellI _ _ + 1 < (n.toNat : ℤ)
    rw [Int.toNat_of_nonneg (by omega)]
    exact this.2
  | array l =>
    exact clamp_bounds _ _ (by have := h.1; omega)

theorem getIndex_ok {g : GridDim K} (h : NoZeroDiv g) (x : K) :
    getIndex g x = .ok (cellI g x, lamI g x) := by
  have hb := cellI_bounds h x
  cases g with
  | uniform a b n =>
    simp only [getIndex, pyDiv, h.2.1, h.2.2, ok_bind, pure_eq_ok, Bool.false_eq_true, if_false]
    rfl
  | array l =>
    have hb2 : cellI (.array l) x + 1 < (l.length : ℤ) := hb.2
    obtain ⟨j, hj⟩ : ∃ j : ℕ, cellI (.array l) x = j := ⟨_, (Int.toNat_of_nonneg hb.1).symm⟩
    have hj2 : clamp ((searchsorted l x : ℤ) - 1) 0 ((l.length : ℤ) - 2) = j := hj
    have h0 := rd_ok l j (by omega)
    have h1 := rd_ok l (j + 1) (by omega)
    push_cast at h1
    have h2 := h.2 j (by omega)
    simp only [getIndex, hj2, h0, h1, ok_bind, pyDiv, h2, pure_eq_ok, lamI, hj, Int.toNat_natCast,
      Bool.false_eq_true, if_false]

theorem getIndices_ok : ∀ (G : List (GridDim K)) (x : List K), (∀ g ∈ G, NoZeroDiv g) →
    getIndices G x = .ok (List.zipWith (fun g t => (cellI g t, lamI g t)) G x)
  | [], _, _ => rfl
  | _ :: _, [], _ => rfl
  | g :: G, t :: x, h => by
    rw [getIndices, getIndex_ok (h g (by simp)), ok_bind,
      getIndices_ok G x (fun g hg => h g (by simp [hg])), ok_bind]
    rfl

/-- The tensor reduction as a function of the leaves. -/
def redF : (List Bool → Py K) → List K → Py K
  | f, [] => f []
  | f, h :: q => do
    let e0 ← redF (fun r => f (false :: r)) q
    let e1 ← redF (fun r => f (true :: r)) q
    pure ((1 - h) * e0 + h * e1)

theorem tensorReduction_eq (T : Tup K) : ∀ (q : List K) (inds : List Bool),
    tensorReduction T q inds = redF (fun r => T.at (inds ++ r)) q
  | [], inds => by rw [tensorReduction, redF, List.append_nil]
  | h :: q, inds => by
    rw [tensorReduction, redF, tensorReduction_eq T q, tensorReduction_eq T q]
    simp only [List.append_assoc, List.singleton_append]

theorem coeffs_ok (X : NdArray K) : ∀ (G : List (GridDim K)) (xs : List K) (p : List ℕ),
    (∀ g ∈ G, NoZeroDiv g) → xs.length = G.length →
    (∀ idx, InShape (G.map axisLen) idx → InShape X.shape (p ++ idx)) →
    ∃ T, getCoeffs X (List.zipWith cellI G xs) (p.map Int.ofNat) = .ok T ∧
      redF T.at (List.zipWith lamI G xs) = .ok (mlVal G (fun r => X.get (p ++ r)) xs)
  | [], [], p, _, _, hp => by
    have := hp [] trivial
    rw [List.append_nil] at this
    refine ⟨.leaf (X.get p), ?_, ?_⟩
    · rw [List.zipWith_nil_left, getCoeffs, X.read_ok p this, ok_bind]; rfl
    · simp only [List.zipWith_nil_left, redF, mlVal, List.append_nil]; rfl
  | [], _ :: _, _, _, h, _ => by simp at h
  | _ :: _, [], _, _, h, _ => by simp at h
  | g :: G, t :: xs, p, h, hx, hp => by
    have hb := cellI_bounds (h g (by simp)) t
    obtain ⟨j, hj⟩ : ∃ j : ℕ, cellI g t = j := ⟨_, (Int.toNat_of_nonneg hb.1).symm⟩
    have hG := fun g' hg' => h g' (List.mem_cons_of_mem _ hg')
    have hx' : xs.length = G.length := by simpa using hx
    obtain ⟨T0, a1, a2⟩ := coeffs_ok X G xs (p ++ [j]) hG hx' (fun idx hidx => by
      rw [List.append_assoc]
      exact hp (j :: idx) ⟨by omega, hidx⟩)
    obtain ⟨T1, b1, b2⟩ := coeffs_ok X G xs (p ++ [j + 1]) hG hx' (fun idx hidx => by
      rw [List.append_assoc]
      exact hp ((j + 1) :: idx) ⟨by omega, hidx⟩)
    refine ⟨.node T0 T1, ?_, ?_⟩
    · rw [List.zipWith_cons_cons, getCoeffs, hj]
      have e1 : p.map Int.ofNat ++ [(j : ℤ)] = (p ++ [j]).map Int.ofNat := by simp
      have e2 : p.map Int.ofNat ++ [(j : ℤ) + 1] = (p ++ [j + 1]).map Int.ofNat := by simp
      rw [e1, e2, a1, ok_bind, b1, ok_bind]; rfl
    · rw [List.zipWith_cons_cons, redF]
      have e1 : (fun r => (Tup.node T0 T1).at (false :: r)) = T0.at := rfl
      have e2 : (fun r => (Tup.node T0 T1).at (true :: r)) = T1.at := rfl
      rw [e1, e2, a2, ok_bind, b2, ok_bind, mlVal, hj]
      simp only [List.append_assoc, List.singleton_append, Int.toNat_natCast]
      rfl

theorem mlPoint_ok (G : List (GridDim K)) (C : NdArray K) (x : List K) (h : ∀ g ∈ G, NoZeroDiv g)
    (hx : x.length = G.length) (hC : C.shape = G.map axisLen) :
    mlPoint G C x = .ok (mlVal G C.get x) := by
  obtain ⟨T, h1, h2⟩ := coeffs_ok C G x [] h hx (fun idx hidx => by rwa [hC])
  rw [mlPoint, getIndices_ok G x h, ok_bind]
  have e1 : (List.zipWith (fun g t => (cellI g t, lamI g t)) G x).map Prod.fst
      = List.zipWith cellI G x := by rw [List.map_zipWith]
  have e2 : (List.zipWith (fun g t => (cellI g t, lamI g t)) G x).map Prod.snd
      = List.zipWith lamI G x := by rw [List.map_zipWith]
  simp only [e1, e2]
  rw [List.map_nil] at h1
  rw [h1, ok_bind, tensorReduction_eq]
  exact h2

/-- Projection on an axis. -/
def projI : GridDim K → K → K
  | .array gc, x => pyMin (pyMax x (gc.getD 0 0)) (gc.getD (gc.length - 1) 0)
  | .uniform a b _, x => pyMin (pyMax x a) b

theorem project_ok : ∀ (G : List (GridDim K)) (x : List K), (∀ g ∈ G, NoZeroDiv g) →
    G.length ≤ x.length → project G x = .ok (List.zipWith projI G x)
  | [], _, _, _ => rfl
  | _ :: _, [], _, h => by simp at h
  | .uniform a b n :: G, t :: x, h, hx => by
    rw [project, project_ok G x (fun g hg => h g (by simp [hg])) (by simpa using hx)]
    rfl
  | .array l :: G, t :: x, h, hx => by
    have h2 : 2 ≤ l.length := (h (.array l) (by simp)).1
    have h0 := rd_ok l 0 (by omega)
    have h1 := rd_ok l (l.length - 1) (by omega)
    have e : ((l.length - 1 : ℕ) : ℤ) = (l.length : ℤ) - 1 := by omega
    rw [e] at h1
    rw [project, project_ok G x (fun g hg => h g (by simp [hg])) (by simpa using hx)]
    simp only [Nat.cast_zero] at h0
    simp only [h0, h1, ok_bind]
    rfl

/-- Value returned by `interp` at a point. -/
def ival (G : List (GridDim K)) (C : NdArray K) (x : List K) : K :=
  mlVal G C.get (List.zipWith projI G x)

theorem projected_ok (G : List (GridDim K)) (C : NdArray K) (x : List K) (h : ∀ g ∈ G, NoZeroDiv g)
    (hx : G.length ≤ x.length) (hC : C.shape = G.map axisLen) :
    projected G C x = .ok (ival G C x) := by
  rw [projected, project_ok G x h hx, ok_bind, mlPoint_ok G C _ h (by simp; omega) hC]
  rfl

theorem tabulate_ok (N : ℕ) (f : ℕ → Py K) (w : ℕ → K) (h : ∀ n < N, f n = .ok (w n)) :
    ∃ R, tabulate N f = .ok R ∧ R.shape = [N] ∧ ∀ i < N, R.get [i] = w i := by
  obtain ⟨R, h1, h2, h3⟩ := pyFor_writes [N] (fun idx => w (idx.headD 0))
    (fun n res => do
      let v ← f n
      res.write [(n : ℤ)] v)
    (fun n idx => idx = [n]) (List.range N) (NdArray.zeros [N]) rfl (by
      intro n hn B hB
      rw [List.mem_range] at hn
      simp only [h n hn, ok_bind]
      exact Wr.write B [n] _ (by rw [hB]; exact ⟨hn, trivial⟩) _ rfl)
  exact ⟨R, h1, h2, fun i hi => (h3 [i]).1 ⟨i, List.mem_range.mpr hi, rfl⟩⟩

theorem extractRow_ok (A : NdArray K) (N d n : ℕ) (m : ℕ) (hA : A.shape = [N, m]) (hd : d ≤ m)
    (hn : n < N) :
    extractRow A n d = .ok ((List.range d).map fun j => A.get [n, j]) := by
  rw [extractRow]
  refine mapM_ok _ _ _ fun i hi => ?_
  rw [List.mem_range] at hi
  exact A.read_ok [n, i] (by rw [hA]; exact ⟨hn, by omega, trivial⟩)

/-! ### Types -/

theorem dim_axis (g : GridDim K) : (tyOf (axisArg g)).dim ≤ 1 := by
  cases g <;> simp [axisArg, tyOf, Ty.dim]

theorem foldl_pyMax (l : List ℤ) (a : ℤ) : a ≤ l.foldl pyMax a ∧ (∀ b ∈ l, b ≤ l.foldl pyMax a) ∧
    (l.foldl pyMax a = a ∨ l.foldl pyMax a ∈ l) := by
  induction l generalizing a with
  | nil => simp
  | cons b l ih =>
    obtain ⟨h1, h2, h3⟩ := ih (pyMax a b)
    rw [List.foldl_cons]
    have e : pyMax a b = max a b := pyMaxZ_eq a b
    refine ⟨le_trans (by rw [e]; exact le_max_left _ _) h1, ?_, ?_⟩
    · intro c hc
      rcases List.mem_cons.mp hc with rfl | hc
      · exact le_trans (by rw [e]; exact le_max_right _ _) h1
      · exact h2 c hc
    · rcases h3 with h3 | h3
      · rw [h3, e]
        rcases le_total a b with h | h
        · rw [max_eq_right h]; simp
        · rw [max_eq_left h]; simp
      · simp [h3]

/-- Position of the coefficients when they have more dimensions than what precedes, and at least as
many as what follows. -/
theorem idxOf_max (pre post : List ℤ) (c : ℤ) (h1 : ∀ a ∈ pre, a < c) (h2 : ∀ a ∈ post, a ≤ c) :
    ∃ x l, pre ++ c :: post = x :: l ∧ (pre ++ c :: post).idxOf (l.foldl pyMax x) = pre.length := by
  have key : ∀ x l, pre ++ c :: post = x :: l → l.foldl pyMax x = c := by
    intro x l h
    obtain ⟨a1, a2, a3⟩ := foldl_pyMax l x
    have hall : ∀ a ∈ pre ++ c :: post, a ≤ c := by
      intro a ha
      rw [List.mem_append, List.mem_cons] at ha
      rcases ha with h | h | h
      · exact (h1 a h).le
      · exact h.le
      · exact h2 a h
    have hmem : l.foldl pyMax x ∈ pre ++ c :: post := by
      rw [h]; rcases a3 with a3 | a3
      · rw [a3]; simp
      · simp [a3]
    have hc : c ≤ l.foldl pyMax x := by
      have : c ∈ x :: l := by rw [← h]; simp
      rcases List.mem_cons.mp this with rfl | h
      · exact a1
      · exact a2 c h
    exact le_antisymm (hall _ hmem) hc
  obtain ⟨x, l, h⟩ : ∃ x l, pre ++ c :: post = x :: l := by
    cases pre with
    | nil => exact ⟨_, _, rfl⟩
    | cons a pre => exact ⟨_, _, rfl⟩
  refine ⟨x, l, h, ?_⟩
  rw [key x l h, List.idxOf_append_of_notMem (fun hm => lt_irrefl _ (h1 c hm)), List.idxOf_cons_self]
  rfl

/-- Detection when the coefficients have `d` or `d + 1` dimensions. -/
theorem detect_ok (pre post : List Ty) (n : ℕ) (hpre : pre ≠ [])
    (h1 : 2 ≤ pre.length → ∀ t ∈ pre, t.dim < n) (h1' : pre.length = 1 → post.length = 1)
    (h2 : 2 ≤ pre.length → ∀ t ∈ post, t.dim ≤ n) (hpost : post ≠ [])
    (hn : n = pre.length ∨ n = pre.length + 1) :
    detectTypes (pre ++ .arr n :: post) = (do
      let e ← evalType post
      pure ⟨pre.length, if n = pre.length then .scalar else .vector, e⟩) := by
  have hlen : 0 < pre.length := List.length_pos_iff.mpr hpre
  have hpl : 0 < post.length := List.length_pos_iff.mpr hpost
  have hne : ∃ x l, (pre ++ .arr n :: post).map Ty.dim = x :: l ∧
      (if (pre ++ Ty.arr n :: post).length = 3 then 1
        else ((pre ++ Ty.arr n :: post).map Ty.dim).idxOf (l.foldl pyMax x)) = pre.length := by
    by_cases hp : pre.length = 1
    · obtain ⟨t, rfl⟩ := List.length_eq_one_iff.mp hp
      refine ⟨_, _, rfl, ?_⟩
      rw [if_pos (by simp [h1' hp])]; rfl
    · obtain ⟨x, l, e1, e2⟩ := idxOf_max (pre.map Ty.dim) (post.map Ty.dim) n
        (by
          intro a ha
          obtain ⟨t, ht, rfl⟩ := List.mem_map.mp ha
          exact h1 (by omega) t ht)
        (by
          intro a ha
          obtain ⟨t, ht, rfl⟩ := List.mem_map.mp ha
          exact h2 (by omega) t ht)
      have e3 : (pre ++ .arr n :: post).map Ty.dim = pre.map Ty.dim ++ (n : ℤ) :: post.map Ty.dim := by
        simp [Ty.dim]
      refine ⟨x, l, e3.trans e1, ?_⟩
      rw [if_neg (by simp; omega), e3, e2, List.length_map]
  obtain ⟨x, l, e1, e2⟩ := hne
  have e3 : (pre ++ Ty.arr n :: post)[pre.length]? = some (Ty.arr n) := by
    rw [List.getElem?_append_right le_rfl]; simp
  have e4 : (pre ++ Ty.arr n :: post).drop (pre.length + 1) = post := by
    rw [← List.drop_drop]; simp
  simp only [detectTypes]
  rw [show maxDim ((pre ++ Ty.arr n :: post).map Ty.dim) = .ok (l.foldl pyMax x) by rw [e1]; rfl,
    ok_bind, e2, e4, ndimAt, e3]
  simp only [Ty.ndim, pure_eq_ok, ok_bind, valuesType]
  by_cases h : n = pre.length
  · rw [if_pos h, if_pos h, ok_bind]
  · rw [if_neg h, if_neg h, if_pos (by omega), ok_bind]

end any

end Interp.Mlinterp
