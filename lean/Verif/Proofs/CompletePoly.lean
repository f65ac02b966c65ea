import Verif.Model.CompletePoly
import Verif.Proofs.Cartesian
import Verif.Proofs.Loops
import Mathlib.Data.Nat.Choose.Basic
import Mathlib.Data.Nat.Factorial.BigOperators
import Mathlib.Tactic.IntervalCases
import Mathlib.Algebra.BigOperators.Group.List.Basic
import Mathlib.Algebra.BigOperators.Ring.Nat

/-! What `complete_poly.py` computes. -/

set_option linter.unusedSectionVars false
set_option linter.unusedSimpArgs false

namespace Interp.CompletePoly
open Interp.Filter (pyFor_cons pyFor_nil pyFor_append pyFor_map)

/-! ### `n_complete` -/

theorem rangeZ_zero (d : ℕ) : rangeZ 0 (d : ℤ) = (List.range d).map Int.ofNat := by
  simp only [rangeZ, sub_zero, Int.toNat_natCast]
  exact List.map_congr_left fun i _ => zero_add _

theorem tmp_eq (n i : ℕ) : (rangeZ 0 ((i : ℤ) + 1)).foldl (fun tmp j => tmp * ((n : ℤ) + j)) 1
    = (n.ascFactorial (i + 1) : ℤ) := by
  have : ∀ k : ℕ, ((List.range k).map Int.ofNat).foldl (fun tmp j => tmp * ((n : ℤ) + j)) 1
      = (n.ascFactorial k : ℤ) := by
    intro k
    induction k with
    | zero => simp
    | succ k ih =>
      rw [List.range_succ, List.map_append, List.foldl_append, ih, Nat.ascFactorial_succ]
      simp [mul_comm]
  rw [show ((i : ℤ) + 1) = ((i + 1 : ℕ) : ℤ) by push_cast; rfl, rangeZ_zero]
  exact this _

theorem nComplete_eq (n d : ℕ) : nComplete n d = ((n + d).choose d : ℤ) := by
  have key : ∀ d : ℕ, ((List.range d).map Int.ofNat).foldl (fun (s : ℤ × ℤ) i =>
      let denom := s.2 * (i + 1)
      let tmp := (rangeZ 0 (i + 1)).foldl (fun tmp j => tmp * ((n : ℤ) + j)) 1
      (s.1 + Int.fdiv tmp denom, denom)) (1, 1) = (((n + d).choose d : ℤ), (d.factorial : ℤ)) := by
    intro d
    induction d with
    | zero => simp
    | succ d ih =>
      rw [List.range_succ, List.map_append, List.foldl_append, ih]
      simp only [List.map_cons, List.map_nil, List.foldl_cons, List.foldl_nil, Int.ofNat_eq_natCast]
      have e : (d.factorial : ℤ) * ((d : ℤ) + 1) = ((d + 1).factorial : ℤ) := by
        rw [Nat.factorial_succ]; push_cast; ring
      rw [tmp_eq, e, Nat.ascFactorial_eq_factorial_mul_choose']
      have hne : ((d + 1).factorial : ℤ) ≠ 0 := by exact_mod_cast (Nat.factorial_pos _).ne'
      have : Int.fdiv (((d + 1).factorial * (n + (d + 1) - 1).choose (d + 1) : ℕ) : ℤ)
          ((d + 1).factorial : ℤ) = ((n + d).choose (d + 1) : ℤ) := by
        push_cast
        rw [Int.mul_fdiv_cancel_left _ hne]; rfl
      rw [this, ← add_assoc n d 1, Nat.choose_succ_succ (n + d) d]
      push_cast; rfl
  rw [nComplete, rangeZ_zero, key]

/-! ### The order of the monomials -/

/-- Nonempty nondecreasing lists of at most `k` indices, starting at `i` or later, in the order of
the nested loops. -/
def sub (n : ℕ) : ℕ → ℕ → List (List ℕ)
  | 0, _ => []
  | k + 1, i => (rangeN i n).flatMap fun j => [j] :: (sub n k j).map (j :: ·)

/-- The rows: constant, first order, then the nested loops. -/
def rows (n d : ℕ) : List (List ℕ) :=
  [] :: ((if 1 ≤ d then (List.range n).map ([·]) else []) ++
    (List.range n).flatMap fun i => (sub n (d - 1) i).map (i :: ·))

theorem mem_rangeN {lo hi j : ℕ} : j ∈ rangeN lo hi ↔ lo ≤ j ∧ j < hi := by
  rw [rangeN, List.mem_range'_1]; omega

theorem mem_sub (n : ℕ) : ∀ (k i : ℕ) (t : List ℕ), t ∈ sub n k i ↔
    t ≠ [] ∧ t.length ≤ k ∧ (i :: t).Pairwise (· ≤ ·) ∧ ∀ j ∈ t, j < n
  | 0, i, t => by
    cases t <;> simp [sub]
  | k + 1, i, t => by
    simp only [sub, List.mem_flatMap, List.mem_cons, List.mem_map, mem_rangeN]
    constructor
    · rintro ⟨j, ⟨h1, h2⟩, rfl | ⟨t, ht, rfl⟩⟩
      · simp [h1, h2]
      · obtain ⟨h3, h4, h5, h6⟩ := (mem_sub n k j t).mp ht
        refine ⟨by simp, by simpa using h4, List.Pairwise.cons ?_ h5, ?_⟩
        · intro a ha
          rcases List.mem_cons.mp ha with rfl | ha
          · exact h1
          · exact h1.trans ((List.pairwise_cons.mp h5).1 a ha)
        · intro a ha
          rcases List.mem_cons.mp ha with rfl | ha
          · exact h2
          · exact h6 a ha
    · rintro ⟨h1, h2, h3, h4⟩
      cases t with
      | nil => exact absurd rfl h1
      | cons j t =>
        refine ⟨j, ⟨(List.pairwise_cons.mp h3).1 j (by simp), h4 j (by simp)⟩, ?_⟩
        by_cases ht : t = []
        · left; rw [ht]
        · right
          refine ⟨t, (mem_sub n k j t).mpr ⟨ht, by simpa using h2, (List.pairwise_cons.mp h3).2,
            fun a ha => h4 a (by simp [ha])⟩, rfl⟩

theorem nodup_sub (n : ℕ) : ∀ k i : ℕ, (sub n k i).Nodup
  | 0, i => by simp [sub]
  | k + 1, i => by
    rw [sub, List.nodup_flatMap]
    refine ⟨fun j _ => List.nodup_cons.mpr ⟨?_, (nodup_sub n k j).map fun a b h => by simpa using h⟩,
      List.Pairwise.imp (R := (· ≠ ·)) ?_ List.nodup_range'⟩
    · intro h
      obtain ⟨t, ht, e⟩ := List.mem_map.mp h
      have := ((mem_sub n k j t).mp ht).1
      simp at e; exact this e
    · intro a b hab
      simp only [Function.onFun, List.disjoint_left, List.mem_cons, List.mem_map]
      rintro x h1 h2
      have : x.head? = some a := by rcases h1 with rfl | ⟨t, _, rfl⟩ <;> rfl
      have : x.head? = some b := by rcases h2 with rfl | ⟨t, _, rfl⟩ <;> rfl
      simp_all

theorem mem_rows (n d : ℕ) (t : List ℕ) :
    t ∈ rows n d ↔ t.length ≤ d ∧ t.Pairwise (· ≤ ·) ∧ ∀ j ∈ t, j < n := by
  simp only [rows, List.mem_cons, List.mem_append, List.mem_flatMap, List.mem_range, List.mem_map]
  constructor
  · rintro (rfl | h | ⟨i, hi, t, ht, rfl⟩)
    · simp
    · split at h
      · obtain ⟨j, hj, rfl⟩ := List.mem_map.mp h
        simp only [List.mem_range] at hj
        simp [hj]; omega
      · simp at h
    · obtain ⟨h1, h2, h3, h4⟩ := (mem_sub n (d - 1) i t).mp ht
      have : 1 ≤ t.length := List.length_pos_iff.mpr h1
      refine ⟨by simp; omega, h3, fun j hj => ?_⟩
      rcases List.mem_cons.mp hj with rfl | hj
      · exact hi
      · exact h4 j hj
  · rintro ⟨h1, h2, h3⟩
    rcases t with _ | ⟨i, _ | ⟨j, t⟩⟩
    · left; rfl
    · right; left
      simp at h1 h3
      rw [if_pos h1]
      simp [h3]
    · right; right
      refine ⟨i, h3 i (by simp), j :: t, (mem_sub n _ _ _).mpr ⟨by simp, ?_, h2,
        fun a ha => h3 a (List.mem_cons_of_mem _ ha)⟩, rfl⟩
      simp at h1 ⊢; omega

theorem nodup_rows (n d : ℕ) : (rows n d).Nodup := by
  rw [rows, List.nodup_cons]
  refine ⟨?_, List.Nodup.append ?_ ?_ ?_⟩
  · simp only [List.mem_append, not_or]
    refine ⟨?_, by simp⟩
    split <;> simp
  · split
    · exact List.nodup_range.map fun a b h => by simpa using h
    · exact List.nodup_nil
  · rw [List.nodup_flatMap]
    refine ⟨fun j _ => (nodup_sub n _ j).map fun a b h => by simpa using h,
      List.Pairwise.imp (R := (· ≠ ·)) ?_ List.nodup_range⟩
    intro a b hab
    simp only [Function.onFun, List.disjoint_left, List.mem_map]
    rintro x ⟨t, _, rfl⟩ ⟨t', _, h⟩
    simp at h; exact hab h.1.symm
  · rw [List.disjoint_left]
    intro x h1 h2
    have h1 : x.length = 1 := by
      split at h1
      · obtain ⟨j, _, rfl⟩ := List.mem_map.mp h1; rfl
      · simp at h1
    simp only [List.mem_flatMap, List.mem_map] at h2
    obtain ⟨i, _, t, ht, rfl⟩ := h2
    have := ((mem_sub n _ _ _).mp ht).1
    simp at h1; exact this h1

/-- Number of lists: `sub n k i` has `C(m + k, k) - 1` elements for `m = n - i`. -/
theorem length_sub (n : ℕ) : ∀ k i : ℕ, (sub n k i).length + 1 = (n - i + k).choose k
  | 0, i => by simp [sub]
  | k + 1, i => by
    have gen : ∀ m i, n - i = m → (sub n (k + 1) i).length + 1 = (m + (k + 1)).choose (k + 1) := by
      intro m
      induction m with
      | zero =>
        intro i hi
        have : rangeN i n = [] := by rw [rangeN, hi]; rfl
        simp [sub, this]
      | succ m ih =>
        intro i hi
        have e : rangeN i n = i :: rangeN (i + 1) n := by
          rw [rangeN, hi, List.range'_succ, rangeN, show n - (i + 1) = m by omega]
        have h1 := ih (i + 1) (by omega)
        have h2 := length_sub n k i
        rw [hi] at h2
        have h3 : (sub n (k + 1) i).length
            = ((sub n k i).length + 1) + (sub n (k + 1) (i + 1)).length := by
          rw [sub, e, List.flatMap_cons, List.length_append, List.length_cons, List.length_map, sub]
        rw [h3, show m + 1 + (k + 1) = (m + 1 + k) + 1 by omega, Nat.choose_succ_succ, ← h2,
          show m + 1 + k = m + (k + 1) by omega, ← h1]
        ring
    exact gen _ i rfl

theorem length_rows (n d : ℕ) : (rows n d).length = (n + d).choose d := by
  cases d with
  | zero => simp [rows, sub]
  | succ d =>
    have h := length_sub n (d + 1) 0
    rw [Nat.sub_zero] at h
    rw [← h, rows, if_pos (by omega), List.length_cons, List.length_append, List.length_map,
      List.length_range, Nat.add_sub_cancel]
    congr 1
    rw [sub]
    have : rangeN 0 n = List.range n := by rw [rangeN, Nat.sub_zero, List.range_eq_range']
    rw [this]
    simp only [List.length_flatMap, List.length_map, List.length_cons]
    rw [List.sum_map_add]
    simp [add_comm]

/-! ### Running the loops -/

theorem pyFor_flatMap {α β S : Type} (l : List α) (f : α → List β) (body : β → S → Py S) (s : S) :
    pyFor (l.flatMap f) body s = pyFor l (fun a => pyFor (f a) body) s := by
  induction l generalizing s with
  | nil => rfl
  | cons a l ih =>
    rw [List.flatMap_cons, pyFor_append, pyFor_cons]
    congr 1
    funext t
    exact ih t

/-- The nested loops. -/
def nest {S : Type} (n : ℕ) (P : List ℕ → S → Py S) : ℕ → List ℕ → ℕ → S → Py S
  | 0, _, _, s => pure s
  | k + 1, p, i, s => pyFor (rangeN i n) (fun j s => do
      let s ← P (p ++ [j]) s
      nest n P k (p ++ [j]) j s) s

theorem nest_eq {S : Type} (n : ℕ) (P : List ℕ → S → Py S) : ∀ (k : ℕ) (p : List ℕ) (i : ℕ) (s : S),
    nest n P k p i s = pyFor ((sub n k i).map (p ++ ·)) P s
  | 0, p, i, s => rfl
  | k + 1, p, i, s => by
    rw [nest, sub, List.map_flatMap, pyFor_flatMap]
    congr 1
    funext j s
    rw [List.map_cons, pyFor_cons]
    congr 1
    funext s
    rw [nest_eq n P k]
    simp [List.map_map, Function.comp_def]

theorem nests_eq {S : Type} (n : ℕ) (P : List ℕ → S → Py S) (k : ℕ) (s : S) :
    pyFor (List.range n) (fun i => nest n P k [i] i) s
      = pyFor ((List.range n).flatMap fun i => (sub n k i).map (i :: ·)) P s := by
  rw [pyFor_flatMap]
  congr 1
  funext i s
  rw [nest_eq]; rfl

section
variable {K : Type} [Mul K] [Zero K] [One K] [NatCast K] [Pow K ℕ]

/-- `P l` stores, in the next row, the values `val tail l`. -/
def GoodPut (P : List ℕ → ℕ × NdArray K → Py (ℕ × NdArray K)) (n N : ℕ) (t : List ℕ)
    (val : List ℕ → List ℕ → K) : Prop :=
  ∀ l : List ℕ, 2 ≤ l.length → (∀ i ∈ l, i < n) → ∀ (ix : ℕ) (A : NdArray K) (f : List ℕ → K),
    A.shape = N :: t → ix + 1 < N →
    (∀ tail, InShape t tail → f ((ix + 1) :: tail) = val tail l) →
    ∃ A', P l (ix, A) = .ok (ix + 1, A') ∧
      Wr A A' (fun idx => ∃ tail, InShape t tail ∧ idx = (ix + 1) :: tail) f

theorem puts {P : List ℕ → ℕ × NdArray K → Py (ℕ × NdArray K)} {n N : ℕ} {t : List ℕ}
    {val : List ℕ → List ℕ → K} (hP : GoodPut P n N t val) (f : List ℕ → K) :
    ∀ (L : List (List ℕ)) (ix : ℕ) (A : NdArray K), (∀ l ∈ L, 2 ≤ l.length ∧ ∀ i ∈ l, i < n) →
    A.shape = N :: t → ix + L.length < N →
    (∀ j l, L[j]? = some l → ∀ tail, InShape t tail → f ((ix + 1 + j) :: tail) = val tail l) →
    ∃ A', pyFor L P (ix, A) = .ok (ix + L.length, A') ∧
      Wr A A' (fun idx => ∃ j < L.length, ∃ tail, InShape t tail ∧ idx = (ix + 1 + j) :: tail) f
  | [], ix, A, _, _, _, _ => ⟨A, rfl, rfl, fun idx => by simp⟩
  | l :: L, ix, A, hL, hA, hN, hf => by
    simp only [List.length_cons] at hN
    obtain ⟨A1, h1, h2, h3⟩ := hP l (hL l (by simp)).1 (hL l (by simp)).2 ix A f hA (by omega)
      (fun tail ht => by have := hf 0 l (by simp) tail ht; simpa using this)
    obtain ⟨A2, h4, h5, h6⟩ := puts hP f L (ix + 1) A1 (fun l' hl' => hL l' (by simp [hl']))
      (h2.trans hA) (by omega) (fun j l' hl' tail ht => by
        have := hf (j + 1) l' (by simpa using hl') tail ht
        rwa [show ix + 1 + (j + 1) = ix + 1 + 1 + j by omega] at this)
    refine ⟨A2, ?_, h5.trans h2, fun idx => ⟨?_, ?_⟩⟩
    · rw [pyFor_cons, h1, ok_bind, h4]
      simp [add_comm, add_left_comm]
    · rintro ⟨j, hj, tail, ht, rfl⟩
      cases j with
      | zero =>
        rw [(h6 _).2 (by
          rintro ⟨j', _, tail', _, h⟩
          simp only [List.cons.injEq] at h; omega)]
        exact (h3 _).1 ⟨tail, ht, rfl⟩
      | succ j =>
        exact (h6 _).1 ⟨j, by simpa using hj, tail, ht, by congr 1; omega⟩
    · intro hn
      rw [(h6 _).2 (by
        rintro ⟨j, hj, tail, ht, rfl⟩
        exact hn ⟨j + 1, by simpa using hj, tail, ht, by congr 1; omega⟩)]
      exact (h3 _).2 (by
        rintro ⟨tail, ht, rfl⟩
        exact hn ⟨0, by simp, tail, ht, rfl⟩)

/-- The rows beyond the first order. -/
def tailRows (n d : ℕ) : List (List ℕ) :=
  (List.range n).flatMap fun i => (sub n (d - 1) i).map (i :: ·)

theorem rows_getElem? (n d r : ℕ) : (rows n d)[r]? =
    if r = 0 then some []
    else if 1 ≤ d then (if r ≤ n then some [r - 1] else (tailRows n d)[r - 1 - n]?)
    else none := by
  cases r with
  | zero => rfl
  | succ r =>
    rw [if_neg (by omega), rows, List.getElem?_cons_succ]
    by_cases hd : 1 ≤ d
    · rw [if_pos hd, if_pos hd]
      by_cases hr : r < n
      · rw [List.getElem?_append_left (by simpa using hr), if_pos (by omega)]
        simp [hr]
      · rw [List.getElem?_append_right (by simpa using hr), if_neg (by omega)]
        simp [tailRows]
    · rw [if_neg hd, if_neg hd]
      have : d - 1 = 0 := by omega
      simp [this, sub]

/-- From an array whose first rows are right to the final one. -/
theorem finish {P : List ℕ → ℕ × NdArray K → Py (ℕ × NdArray K)} {n d : ℕ} {t : List ℕ}
    {val : List ℕ → List ℕ → K} (hP : GoodPut P n (rows n d).length t val) (hd : 1 ≤ d)
    (A : NdArray K) (hA : A.shape = (rows n d).length :: t)
    (h0 : ∀ r ≤ n, ∀ l, (rows n d)[r]? = some l → ∀ tail, InShape t tail →
      A.get (r :: tail) = val tail l) :
    ∃ A' ix, pyFor (List.range n) (fun i => nest n P (d - 1) [i] i) (n, A) = .ok (ix, A') ∧
      A'.shape = A.shape ∧ ∀ r l, (rows n d)[r]? = some l → ∀ tail, InShape t tail →
        A'.get (r :: tail) = val tail l := by
  have hlen : (rows n d).length = 1 + n + (tailRows n d).length := by
    rw [rows, if_pos hd]; simp [tailRows]; omega
  have hin : ∀ l ∈ tailRows n d, 2 ≤ l.length ∧ ∀ i ∈ l, i < n := by
    intro l hl
    have hm : l ∈ rows n d := by
      rw [rows]; exact List.mem_cons_of_mem _ (List.mem_append_right _ hl)
    refine ⟨?_, ((mem_rows n d l).mp hm).2.2⟩
    simp only [tailRows, List.mem_flatMap, List.mem_map] at hl
    obtain ⟨i, _, t, ht, rfl⟩ := hl
    have := List.length_pos_iff.mpr ((mem_sub n _ _ _).mp ht).1
    simp; omega
  obtain ⟨A', h1, h2, h3⟩ := puts hP
    (fun idx => val idx.tail ((rows n d).getD (idx.headD 0) [])) (tailRows n d) n A hin hA (by omega)
    (fun j l hl tail ht => by
      simp only [List.headD_cons, List.tail_cons]
      have : (rows n d)[n + 1 + j]? = some l := by
        rw [rows_getElem?, if_neg (by omega), if_pos hd, if_neg (by omega),
          show n + 1 + j - 1 - n = j by omega, hl]
      rw [List.getD_eq_getElem?_getD, this]; rfl)
  refine ⟨A', n + (tailRows n d).length, ?_, h2, ?_⟩
  · rw [nests_eq]; exact h1
  · intro r l hl tail ht
    by_cases hr : r ≤ n
    · rw [(h3 _).2 (by
        rintro ⟨j, _, tail', _, h⟩
        simp only [List.cons.injEq] at h; omega)]
      exact h0 r hr l hl tail ht
    · have hr' : r < (rows n d).length := (List.getElem?_eq_some_iff.mp hl).1
      rw [(h3 _).1 ⟨r - (n + 1), by omega, tail, ht, by congr 1; omega⟩]
      simp only [List.headD_cons, List.tail_cons]
      rw [List.getD_eq_getElem?_getD, hl]; rfl

/-! ### Pure values -/

/-- `z[i1] * z[i2] * ...`. -/
def mono (z : ℕ → K) : List ℕ → K
  | [] => 1
  | i :: l => l.foldl (fun acc j => acc * z j) (z i)

def stepP (z : ℕ → K) (der i c : ℕ) : ℕ × K := if i = der then (c + 1, 1) else (c, z i)

def dval (z : ℕ → K) (der c : ℕ) (ts : List K) : K :=
  if 0 < c then ts.foldl (· * ·) (c : K) * z der ^ (c - 1) else 0

def dentry (z : ℕ → K) (der : ℕ) : ℕ → List K → List ℕ → K
  | c, ts, [] => dval z der c ts
  | c, ts, i :: l => dentry z der (stepP z der i c).1 (ts ++ [(stepP z der i c).2]) l

variable {n : ℕ} {zr : ℕ → Py K} {zf : ℕ → K}

theorem prodOf_ok (hz : ∀ i < n, zr i = .ok (zf i)) (l : List ℕ) (hl : ∀ i ∈ l, i < n) :
    prodOf zr l = .ok (mono zf l) := by
  cases l with
  | nil => rfl
  | cons i l =>
    rw [prodOf, hz i (hl i (by simp)), ok_bind, mono]
    generalize zf i = v
    replace hl : ∀ i ∈ l, i < n := fun j hj => hl j (by simp [hj])
    induction l generalizing v with
    | nil => rfl
    | cons j l ih =>
      rw [List.foldlM_cons, hz j (hl j (by simp)), ok_bind]
      exact ih (v * zf j) fun k hk => hl k (by simp [hk])

theorem step_ok (hz : ∀ i < n, zr i = .ok (zf i)) {i : ℕ} (hi : i < n) (der c : ℕ) :
    step zr der i c = .ok (stepP zf der i c) := by
  unfold step stepP
  split
  · rfl
  · rw [hz i hi]; rfl

theorem derVal_ok (hz : ∀ i < n, zr i = .ok (zf i)) {der : ℕ} (hd : der < n) (c : ℕ) (ts : List K) :
    derVal zr der c ts = .ok (dval zf der c ts) := by
  unfold derVal dval
  split
  · rw [hz der hd]; rfl
  · rfl

theorem derEntry_ok (hz : ∀ i < n, zr i = .ok (zf i)) {der : ℕ} (hd : der < n) :
    ∀ (l : List ℕ) (c : ℕ) (ts : List K), (∀ i ∈ l, i < n) →
    derEntry zr der c ts l = .ok (dentry zf der c ts l)
  | [], c, ts, _ => derVal_ok hz hd c ts
  | i :: l, c, ts, hl => by
    rw [derEntry, step_ok hz (hl i (by simp)), ok_bind, dentry]
    exact derEntry_ok hz hd l _ _ fun j hj => hl j (by simp [hj])

/-! ### Storing -/

theorem goodPut_vec (v : List ℕ → Py K) (n N : ℕ) (val : List ℕ → K)
    (hv : ∀ l, 2 ≤ l.length → (∀ i ∈ l, i < n) → v l = .ok (val l)) :
    GoodPut (fun l => putVec (v l)) n N [] (fun _ l => val l) := by
  intro l hl2 hl ix A f hA hN hf
  obtain ⟨A', h1, h2⟩ := Wr.write A [ix + 1] (val l) (by rw [hA]; exact ⟨hN, trivial⟩) f
    (hf [] trivial)
  refine ⟨A', ?_, h2.mono fun idx => ?_⟩
  · simp only [putVec, hv l hl2 hl, ok_bind]
    rw [show [((ix + 1 : ℕ) : ℤ)] = [ix + 1].map Int.ofNat from rfl, h1]
    rfl
  · constructor
    · rintro rfl; exact ⟨[], trivial, rfl⟩
    · rintro ⟨tail, ht, rfl⟩
      rw [inShape_nil_iff.mp ht]

theorem writeRow {N nobs r : ℕ} (A : NdArray K) (hA : A.shape = [N, nobs]) (hr : r < N)
    (v : ℕ → Py K) (f : List ℕ → K) (hv : ∀ k < nobs, v k = .ok (f [r, k])) (i : ℤ) (hi : i = r) :
    ∃ A', pyFor (List.range nobs) (fun k out => do
        let v ← v k
        out.write [i, (k : ℤ)] v) A = .ok A' ∧
      Wr A A' (fun idx => ∃ tail, InShape [nobs] tail ∧ idx = r :: tail) f := by
  obtain ⟨A', h1, h2⟩ := pyFor_writes [N, nobs] f
    (fun (k : ℕ) (out : NdArray K) => (do
      let v ← v k
      out.write [i, (k : ℤ)] v : Py (NdArray K)))
    (fun k idx => idx = [r, k]) (List.range nobs) A hA (by
      intro k hk A1 hA1
      rw [List.mem_range] at hk
      simp only [hv k hk, ok_bind]
      rw [hi]
      exact Wr.write A1 [r, k] _ (by rw [hA1]; exact ⟨hr, hk, trivial⟩) f rfl)
  refine ⟨A', h1, h2.mono fun idx => ?_⟩
  constructor
  · rintro ⟨k, hk, rfl⟩
    exact ⟨[k], ⟨by simpa using hk, trivial⟩, rfl⟩
  · rintro ⟨tail, ht, rfl⟩
    obtain ⟨k, rest, rfl, hk, hrest⟩ := inShape_cons_iff.mp ht
    rw [inShape_nil_iff.mp hrest]
    exact ⟨k, by simpa using hk, rfl⟩

theorem goodPut_mat (v : List ℕ → ℕ → Py K) (n N nobs : ℕ) (val : List ℕ → List ℕ → K)
    (hv : ∀ l, 2 ≤ l.length → (∀ i ∈ l, i < n) → ∀ k < nobs, v l k = .ok (val [k] l)) :
    GoodPut (fun l => putMat nobs (v l)) n N [nobs] val := by
  intro l hl2 hl ix A f hA hN hf
  obtain ⟨A', h1, h2⟩ := writeRow A hA hN (v l) f (fun k hk => by
    rw [hv l hl2 hl k hk, hf [k] ⟨hk, trivial⟩]) ((ix + 1 : ℕ) : ℤ) rfl
  refine ⟨A', ?_, h2⟩
  simp only [putMat]
  rw [h1]; rfl

/-! ### The nests of the source -/

theorem nest2 {S : Type} (n : ℕ) (P : List ℕ → S → Py S) :
    (fun i1 => pyFor (rangeN i1 n) fun i2 => P [i1, i2]) = fun i => nest n P 1 [i] i := by
  funext i s; simp only [nest, bind_pure]; rfl

theorem nest3 {S : Type} (n : ℕ) (P : List ℕ → S → Py S) :
    (fun i1 => pyFor (rangeN i1 n) fun i2 s => do
      let s ← P [i1, i2] s
      pyFor (rangeN i2 n) (fun i3 => P [i1, i2, i3]) s) = fun i => nest n P 2 [i] i := by
  funext i s; simp only [nest, bind_pure]; rfl

theorem nest4 {S : Type} (n : ℕ) (P : List ℕ → S → Py S) :
    (fun i1 => pyFor (rangeN i1 n) fun i2 s => do
      let s ← P [i1, i2] s
      pyFor (rangeN i2 n) (fun i3 s => do
        let s ← P [i1, i2, i3] s
        pyFor (rangeN i3 n) (fun i4 => P [i1, i2, i3, i4]) s) s) = fun i => nest n P 3 [i] i := by
  funext i s; simp only [nest, bind_pure]; rfl

theorem nest5 {S : Type} (n : ℕ) (P : List ℕ → S → Py S) :
    (fun i1 => pyFor (rangeN i1 n) fun i2 s => do
      let s ← P [i1, i2] s
      pyFor (rangeN i2 n) (fun i3 s => do
        let s ← P [i1, i2, i3] s
        pyFor (rangeN i3 n) (fun i4 s => do
          let s ← P [i1, i2, i3, i4] s
          pyFor (rangeN i4 n) (fun i5 => P [i1, i2, i3, i4, i5]) s) s) s)
      = fun i => nest n P 4 [i] i := by
  funext i s; simp only [nest, bind_pure]; rfl

/-- `n_complete` is the number of rows. -/
theorem nComplete_rows (n d : ℕ) : (nComplete n d).toNat = (rows n d).length := by
  rw [nComplete_eq, length_rows, Int.toNat_natCast]

/-- What the four implementations end with: the rows contain the values. -/
def Filled (n d : ℕ) (t : List ℕ) (val : List ℕ → List ℕ → K) (A : NdArray K) : Prop :=
  A.shape = (rows n d).length :: t ∧ ∀ r l, (rows n d)[r]? = some l → ∀ tail, InShape t tail →
    A.get (r :: tail) = val tail l

theorem rows_pos (n d : ℕ) : 0 < (rows n d).length := by rw [rows]; simp

theorem rows_first {n d r : ℕ} (hd : 1 ≤ d) (hr : r ≤ n) : r < (rows n d).length := by
  rw [rows, if_pos hd]; simp; omega

theorem filled_zero {n : ℕ} {t : List ℕ} {val : List ℕ → List ℕ → K} {A : NdArray K}
    (hs : A.shape = (rows n 0).length :: t) (h : ∀ tail, InShape t tail → A.get (0 :: tail) = val tail []) :
    Filled n 0 t val A := by
  refine ⟨hs, fun r l hl tail ht => ?_⟩
  rw [rows_getElem?] at hl
  split at hl
  · rename_i h0; subst h0
    injection hl with hl; subst hl; exact h tail ht
  · simp at hl

/-- The array before the nested loops. -/
def Started (n d : ℕ) (t : List ℕ) (val : List ℕ → List ℕ → K) (A : NdArray K) : Prop :=
  A.shape = (rows n d).length :: t ∧ ∀ r ≤ n, ∀ l, (rows n d)[r]? = some l →
    ∀ tail, InShape t tail → A.get (r :: tail) = val tail l

theorem Started.one {n : ℕ} {t : List ℕ} {val : List ℕ → List ℕ → K} {A : NdArray K}
    (h : Started n 1 t val A) : Filled n 1 t val A := by
  refine ⟨h.1, fun r l hl tail ht => h.2 r ?_ l hl tail ht⟩
  have := (List.getElem?_eq_some_iff.mp hl).1
  have h2 : (rows n 1).length = n + 1 := by rw [length_rows]; simp
  omega

/-- The nested loops fill the rest. -/
theorem Started.finish {P : List ℕ → ℕ × NdArray K → Py (ℕ × NdArray K)} {n d : ℕ} {t : List ℕ}
    {val : List ℕ → List ℕ → K} {A : NdArray K} (h : Started n d t val A) (hd : 1 ≤ d)
    (hP : GoodPut P n (rows n d).length t val) :
    ∃ A', (do
      let s ← pyFor (List.range n) (fun i => nest n P (d - 1) [i] i) (n, A)
      pure s.2 : Py (NdArray K)) = .ok A' ∧ Filled n d t val A' := by
  obtain ⟨A', ix, h1, h2, h3⟩ := CompletePoly.finish hP hd A h.1 h.2
  exact ⟨A', by rw [h1]; rfl, h2.trans h.1, h3⟩

/-! ### The four implementations -/

theorem implVec_ok (z A : NdArray K) (n d : ℕ) (hz : z.shape = [n]) (hd : d ≤ 5)
    (hA : A.shape = [(rows n d).length]) :
    ∃ A', implVec z d A = .ok A' ∧ Filled n d [] (fun _ l => mono (fun i => z.get [i]) l) A' := by
  have hzr : ∀ i < n, rdVec z i = .ok (z.get [i]) := by
    intro i hi
    exact z.read_ok [i] (by rw [hz]; exact ⟨hi, trivial⟩)
  have hP := goodPut_vec (fun l => prodOf (rdVec z) l) n (rows n d).length
    (mono (fun i => z.get [i])) (fun l _ hl => prodOf_ok hzr l hl)
  obtain ⟨A1, e1, e2, e3⟩ := Wr.write A [0] 1 (by rw [hA]; exact ⟨rows_pos n d, trivial⟩)
    (fun _ => 1) rfl
  have e1' : A.write [0] 1 = .ok A1 := e1
  have hn : z.shape.getD 0 0 = n := by rw [hz]; rfl
  by_cases h0 : d = 0
  · subst h0
    refine ⟨A1, ?_, filled_zero (e2.trans hA) ?_⟩
    · simp [implVec, e1']
    · intro tail ht
      rw [inShape_nil_iff.mp ht, (e3 [0]).1 rfl]; rfl
  · have hd1 : 1 ≤ d := by omega
    obtain ⟨A2, f1, f2, f3⟩ := pyFor_writes [(rows n d).length] (fun idx => z.get [idx.headD 0 - 1])
      (fun (i : ℕ) (out : NdArray K) => (do
        let v ← z.read [(i : ℤ) - 1]
        out.write [(i : ℤ)] v : Py (NdArray K)))
      (fun i idx => idx = [i]) (rangeN 1 (n + 1)) A1 (e2.trans hA) (by
        intro i hi B hB
        rw [mem_rangeN] at hi
        obtain ⟨j, rfl⟩ : ∃ j, i = j + 1 := ⟨i - 1, by omega⟩
        have hr : z.read [((j + 1 : ℕ) : ℤ) - 1] = .ok (z.get [j]) := by
          have := hzr j (by omega)
          rw [rdVec] at this
          rw [← this]; congr 2; omega
        simp only [hr, ok_bind]
        exact Wr.write B [j + 1] _ (by rw [hB]; exact ⟨rows_first hd1 (by omega), trivial⟩) _ rfl)
    have hS : Started n d [] (fun _ l => mono (fun i => z.get [i]) l) A2 := by
      refine ⟨(f2.trans e2).trans hA, fun r hr l hl tail ht => ?_⟩
      rw [inShape_nil_iff.mp ht]
      rw [rows_getElem?, if_pos hd1] at hl
      by_cases hr0 : r = 0
      · subst hr0
        injection hl with hl; subst hl
        rw [(f3 [0]).2 (by
          rintro ⟨a, ha, h⟩
          rw [mem_rangeN] at ha
          simp at h; omega), (e3 [0]).1 rfl]; rfl
      · rw [if_neg hr0, if_pos hr] at hl
        injection hl with hl; subst hl
        rw [(f3 [r]).1 ⟨r, by rw [mem_rangeN]; omega, rfl⟩]; rfl
    obtain ⟨A', g1, g2⟩ := hS.finish hd1 hP
    interval_cases d
    · refine ⟨A2, ?_, hS.one⟩
      simp only [implVec, e1', hn, ok_bind, Nat.cast_one]
      norm_num
      rw [f1]; rfl
    · refine ⟨A', ?_, g2⟩
      rw [← g1]
      simp only [implVec, e1', hn, ok_bind, Nat.cast_ofNat]
      norm_num
      rw [f1, ok_bind]
      exact congrArg (fun q => (do
        let s ← pyFor (List.range n) q (n, A2)
        Except.ok s.2 : Py (NdArray K))) (nest2 n fun l => putVec (prodOf (rdVec z) l))
    · refine ⟨A', ?_, g2⟩
      rw [← g1]
      simp only [implVec, e1', hn, ok_bind, Nat.cast_ofNat]
      norm_num
      rw [f1, ok_bind]
      exact congrArg (fun q => (do
        let s ← pyFor (List.range n) q (n, A2)
        Except.ok s.2 : Py (NdArray K))) (nest3 n fun l => putVec (prodOf (rdVec z) l))
    · refine ⟨A', ?_, g2⟩
      rw [← g1]
      simp only [implVec, e1', hn, ok_bind, Nat.cast_ofNat]
      norm_num
      rw [f1, ok_bind]
      exact congrArg (fun q => (do
        let s ← pyFor (List.range n) q (n, A2)
        Except.ok s.2 : Py (NdArray K))) (nest4 n fun l => putVec (prodOf (rdVec z) l))
    · refine ⟨A', ?_, g2⟩
      rw [← g1]
      simp only [implVec, e1', hn, ok_bind, Nat.cast_ofNat]
      norm_num
      rw [f1, ok_bind]
      exact congrArg (fun q => (do
        let s ← pyFor (List.range n) q (n, A2)
        Except.ok s.2 : Py (NdArray K))) (nest5 n fun l => putVec (prodOf (rdVec z) l))

theorem row_zero_write {N nobs : ℕ} (A : NdArray K) (hA : A.shape = [N, nobs]) {r : ℕ} (hr : r < N)
    (v : K) (i : ℤ) (hi : i = r) :
    ∃ A', pyFor (List.range nobs) (fun k out => out.write [i, (k : ℤ)] v) A = .ok A' ∧
      Wr A A' (fun idx => ∃ tail, InShape [nobs] tail ∧ idx = r :: tail) (fun _ => v) :=
  writeRow A hA hr (fun _ => .ok v) (fun _ => v) (fun _ _ => rfl) i hi

theorem implMat_ok (z A : NdArray K) (n nobs d : ℕ) (hz : z.shape = [n, nobs]) (hd : d ≤ 5)
    (hA : A.shape = [(rows n d).length, nobs]) :
    ∃ A', implMat z d A = .ok A' ∧
      Filled n d [nobs] (fun tail l => mono (fun i => z.get (i :: tail)) l) A' := by
  have hzr : ∀ k < nobs, ∀ i < n, rdMat z k i = .ok (z.get [i, k]) := by
    intro k hk i hi
    exact z.read_ok [i, k] (by rw [hz]; exact ⟨hi, hk, trivial⟩)
  have hP := goodPut_mat (fun l k => prodOf (rdMat z k) l) n (rows n d).length nobs
    (fun tail l => mono (fun i => z.get (i :: tail)) l)
    (fun l _ hl k hk => prodOf_ok (hzr k hk) l hl)
  obtain ⟨A1, e1, e2, e3⟩ := row_zero_write A hA (rows_pos n d) 1 0 rfl
  have hn : z.shape.getD 0 0 = n := by rw [hz]; rfl
  have hn' : z.shape.getD 1 0 = nobs := by rw [hz]; rfl
  by_cases h0 : d = 0
  · subst h0
    refine ⟨A1, ?_, filled_zero (e2.trans hA) ?_⟩
    · simp only [implMat, hn', e1, ok_bind, Nat.cast_zero]
      norm_num
    · intro tail ht
      rw [(e3 _).1 ⟨tail, ht, rfl⟩]; rfl
  · have hd1 : 1 ≤ d := by omega
    obtain ⟨A2, f1, f2, f3⟩ := pyFor_writes [(rows n d).length, nobs]
      (fun idx => z.get ((idx.headD 0 - 1) :: idx.tail))
      (fun (i : ℕ) => pyFor (List.range nobs) fun k out => (do
        let v ← z.read [(i : ℤ) - 1, (k : ℤ)]
        out.write [(i : ℤ), (k : ℤ)] v : Py (NdArray K)))
      (fun i idx => ∃ tail, InShape [nobs] tail ∧ idx = i :: tail) (rangeN 1 (n + 1)) A1
      (e2.trans hA) (by
        intro i hi B hB
        rw [mem_rangeN] at hi
        obtain ⟨j, rfl⟩ : ∃ j, i = j + 1 := ⟨i - 1, by omega⟩
        refine writeRow B hB (rows_first hd1 (by omega)) _ _ ?_ _ rfl
        intro k hk
        have := hzr k hk j (by omega)
        rw [rdMat] at this
        simp only [List.headD_cons, List.tail_cons, Nat.add_sub_cancel]
        rw [← this]; congr 2; omega)
    have hS : Started n d [nobs] (fun tail l => mono (fun i => z.get (i :: tail)) l) A2 := by
      refine ⟨(f2.trans e2).trans hA, fun r hr l hl tail ht => ?_⟩
      rw [rows_getElem?, if_pos hd1] at hl
      by_cases hr0 : r = 0
      · subst hr0
        injection hl with hl; subst hl
        rw [(f3 _).2 (by
          rintro ⟨a, ha, _, _, h⟩
          rw [mem_rangeN] at ha
          simp at h; omega), (e3 _).1 ⟨tail, ht, rfl⟩]; rfl
      · rw [if_neg hr0, if_pos hr] at hl
        injection hl with hl; subst hl
        rw [(f3 _).1 ⟨r, by rw [mem_rangeN]; omega, tail, ht, rfl⟩]; rfl
    obtain ⟨A', g1, g2⟩ := hS.finish hd1 hP
    interval_cases d
    · refine ⟨A2, ?_, hS.one⟩
      simp only [implMat, hn', e1, hn, ok_bind, Nat.cast_one]
      norm_num
      rw [f1]; rfl
    · refine ⟨A', ?_, g2⟩
      rw [← g1]
      simp only [implMat, hn', e1, hn, ok_bind, Nat.cast_ofNat]
      norm_num
      rw [f1, ok_bind]
      exact congrArg (fun q => (do
        let s ← pyFor (List.range n) q (n, A2)
        Except.ok s.2 : Py (NdArray K))) (nest2 n fun l => putMat nobs (fun k => prodOf (rdMat z k) l))
    · refine ⟨A', ?_, g2⟩
      rw [← g1]
      simp only [implMat, hn', e1, hn, ok_bind, Nat.cast_ofNat]
      norm_num
      rw [f1, ok_bind]
      exact congrArg (fun q => (do
        let s ← pyFor (List.range n) q (n, A2)
        Except.ok s.2 : Py (NdArray K))) (nest3 n fun l => putMat nobs (fun k => prodOf (rdMat z k) l))
    · refine ⟨A', ?_, g2⟩
      rw [← g1]
      simp only [implMat, hn', e1, hn, ok_bind, Nat.cast_ofNat]
      norm_num
      rw [f1, ok_bind]
      exact congrArg (fun q => (do
        let s ← pyFor (List.range n) q (n, A2)
        Except.ok s.2 : Py (NdArray K))) (nest4 n fun l => putMat nobs (fun k => prodOf (rdMat z k) l))
    · refine ⟨A', ?_, g2⟩
      rw [← g1]
      simp only [implMat, hn', e1, hn, ok_bind, Nat.cast_ofNat]
      norm_num
      rw [f1, ok_bind]
      exact congrArg (fun q => (do
        let s ← pyFor (List.range n) q (n, A2)
        Except.ok s.2 : Py (NdArray K))) (nest5 n fun l => putMat nobs (fun k => prodOf (rdMat z k) l))

/-! ### Derivatives -/

/-- Value stored for a row by the derivative functions. -/
def dmono (z : ℕ → K) (der : ℕ) : List ℕ → K
  | [] => 0
  | [i] => if i = der then 1 else 0
  | i :: j :: l => dentry z der 0 [] (i :: j :: l)

theorem dmono_two (z : ℕ → K) (der : ℕ) (l : List ℕ) (h : 2 ≤ l.length) :
    dmono z der l = dentry z der 0 [] l := by
  rcases l with _ | ⟨i, _ | ⟨j, l⟩⟩
  · simp at h
  · simp at h
  · rfl

/-- The nested loops of the vector version, with the exponents and factors carried along. -/
def nestD (zr : ℕ → Py K) (der n : ℕ) : ℕ → ℕ → List K → ℕ → ℕ × NdArray K → Py (ℕ × NdArray K)
  | 0, _, _, _, s => pure s
  | k + 1, c, ts, i, s => pyFor (rangeN i n) (fun j s => do
      let (c', t) ← step zr der j c
      let s ← putVec (derVal zr der c' (ts ++ [t])) s
      nestD zr der n k c' (ts ++ [t]) j s) s

theorem nestD_eq (hz : ∀ i < n, zr i = .ok (zf i)) (der : ℕ) :
    ∀ (k c : ℕ) (ts : List K) (p : List ℕ) (i : ℕ) (s : ℕ × NdArray K),
    (∀ l, derEntry zr der 0 [] (p ++ l) = derEntry zr der c ts l) →
    nestD zr der n k c ts i s = nest n (fun l => putVec (derEntry zr der 0 [] l)) k p i s
  | 0, _, _, _, _, _, _ => rfl
  | k + 1, c, ts, p, i, s, hp => by
    rw [nestD, nest]
    refine pyFor_congr _ _ _ _ fun j hj s => ?_
    rw [mem_rangeN] at hj
    have e : ∀ l, derEntry zr der 0 [] (p ++ [j] ++ l)
        = derEntry zr der (stepP zf der j c).1 (ts ++ [(stepP zf der j c).2]) l := by
      intro l
      rw [List.append_assoc, hp, List.singleton_append, derEntry, step_ok hz hj.2, ok_bind]
    rw [step_ok hz hj.2, ok_bind]
    have e0 := e []
    rw [List.append_nil] at e0
    simp only [e0, derEntry]
    congr 1
    funext s'
    exact nestD_eq hz der k _ _ _ _ _ e

theorem nestsD_eq (hz : ∀ i < n, zr i = .ok (zf i)) (der k : ℕ) (s : ℕ × NdArray K) :
    pyFor (List.range n) (fun i s => do
      let (c, t) ← step zr der i 0
      nestD zr der n k c [t] i s) s
    = pyFor (List.range n) (fun i => nest n (fun l => putVec (derEntry zr der 0 [] l)) k [i] i) s := by
  refine pyFor_congr _ _ _ _ fun i hi s => ?_
  rw [List.mem_range] at hi
  rw [step_ok hz hi, ok_bind]
  refine nestD_eq hz der k _ _ _ _ _ fun l => ?_
  rw [List.singleton_append, derEntry, step_ok hz hi, ok_bind]
  rfl

theorem derImplVec_ok (z A : NdArray K) (n d der : ℕ) (hz : z.shape = [n]) (hd : d ≤ 5)
    (hder : der < n) (hA : A.shape = [(rows n d).length]) :
    ∃ A', derImplVec z d der A = .ok A' ∧
      Filled n d [] (fun _ l => dmono (fun i => z.get [i]) der l) A' := by
  have hzr : ∀ i < n, rdVec z i = .ok (z.get [i]) := by
    intro i hi
    exact z.read_ok [i] (by rw [hz]; exact ⟨hi, trivial⟩)
  have hP := goodPut_vec (fun l => derEntry (rdVec z) der 0 [] l) n (rows n d).length
    (dmono (fun i => z.get [i]) der) (fun l hl2 hl => by
      rw [dmono_two _ _ _ hl2]; exact derEntry_ok hzr hder l 0 [] hl)
  obtain ⟨A1, e1, e2, e3⟩ := Wr.write A [0] 0 (by rw [hA]; exact ⟨rows_pos n d, trivial⟩)
    (fun _ => 0) rfl
  have e1' : A.write [0] 0 = .ok A1 := e1
  have hn : z.shape.getD 0 0 = n := by rw [hz]; rfl
  by_cases h0 : d = 0
  · subst h0
    refine ⟨A1, ?_, filled_zero (e2.trans hA) ?_⟩
    · simp [derImplVec, e1']
    · intro tail ht
      rw [inShape_nil_iff.mp ht, (e3 [0]).1 rfl]; rfl
  · have hd1 : 1 ≤ d := by omega
    obtain ⟨A1', f1, f2, f3⟩ := pyFor_writes [(rows n d).length] (fun _ => 0)
      (fun (i : ℕ) (out : NdArray K) => out.write [(i : ℤ) + 1] 0)
      (fun i idx => idx = [i + 1]) (List.range n) A1 (e2.trans hA) (by
        intro i hi B hB
        rw [List.mem_range] at hi
        exact Wr.write B [i + 1] _ (by rw [hB]; exact ⟨rows_first hd1 (by omega), trivial⟩) _ rfl)
    obtain ⟨A2, f4, f5, f6⟩ := Wr.write A1' [der + 1] 1
      (by rw [f2, e2, hA]; exact ⟨rows_first hd1 (by omega), trivial⟩) (fun _ => 1) rfl
    have f4' : A1'.write [(der : ℤ) + 1] 1 = .ok A2 := f4
    have hS : Started n d [] (fun _ l => dmono (fun i => z.get [i]) der l) A2 := by
      refine ⟨((f5.trans f2).trans e2).trans hA, fun r hr l hl tail ht => ?_⟩
      rw [inShape_nil_iff.mp ht]
      rw [rows_getElem?, if_pos hd1] at hl
      by_cases hr0 : r = 0
      · subst hr0
        injection hl with hl; subst hl
        rw [(f6 [0]).2 (by simp), (f3 [0]).2 (by
          rintro ⟨a, ha, h⟩
          simp at h), (e3 [0]).1 rfl]; rfl
      · rw [if_neg hr0, if_pos hr] at hl
        injection hl with hl; subst hl
        by_cases hrd : r = der + 1
        · subst hrd
          rw [(f6 _).1 rfl]
          simp [dmono]
        · rw [(f6 _).2 (by simpa using hrd), (f3 [r]).1 ⟨r - 1, by simp; omega, by congr 1; omega⟩]
          simp [dmono, show r - 1 ≠ der by omega]
    obtain ⟨A', g1, g2⟩ := hS.finish hd1 hP
    rw [← nestsD_eq hzr] at g1
    interval_cases d
    · refine ⟨A2, ?_, hS.one⟩
      simp only [derImplVec, e1', hn, ok_bind, Nat.cast_one]
      norm_num
      rw [f1, ok_bind, f4']; rfl
    · refine ⟨A', ?_, g2⟩
      rw [← g1]
      simp only [derImplVec, e1', hn, ok_bind, Nat.cast_ofNat]
      norm_num
      rw [f1, ok_bind, f4', ok_bind]
      simp only [nestD, bind_pure]
      rfl
    · refine ⟨A', ?_, g2⟩
      rw [← g1]
      simp only [derImplVec, e1', hn, ok_bind, Nat.cast_ofNat]
      norm_num
      rw [f1, ok_bind, f4', ok_bind]
      simp only [nestD, bind_pure]
      rfl
    · refine ⟨A', ?_, g2⟩
      rw [← g1]
      simp only [derImplVec, e1', hn, ok_bind, Nat.cast_ofNat]
      norm_num
      rw [f1, ok_bind, f4', ok_bind]
      simp only [nestD, bind_pure]
      rfl
    · refine ⟨A', ?_, g2⟩
      rw [← g1]
      simp only [derImplVec, e1', hn, ok_bind, Nat.cast_ofNat]
      norm_num
      rw [f1, ok_bind, f4', ok_bind]
      simp only [nestD, bind_pure]
      rfl

theorem derImplMat_ok (z A : NdArray K) (n nobs d der : ℕ) (hz : z.shape = [n, nobs]) (hd : d ≤ 5)
    (hder : der < n) (hA : A.shape = [(rows n d).length, nobs]) :
    ∃ A', derImplMat z d der A = .ok A' ∧
      Filled n d [nobs] (fun tail l => dmono (fun i => z.get (i :: tail)) der l) A' := by
  have hzr : ∀ k < nobs, ∀ i < n, rdMat z k i = .ok (z.get [i, k]) := by
    intro k hk i hi
    exact z.read_ok [i, k] (by rw [hz]; exact ⟨hi, hk, trivial⟩)
  have hP := goodPut_mat (fun l k => derEntry (rdMat z k) der 0 [] l) n (rows n d).length nobs
    (fun tail l => dmono (fun i => z.get (i :: tail)) der l)
    (fun l hl2 hl k hk => by
      rw [dmono_two _ _ _ hl2]; exact derEntry_ok (hzr k hk) hder l 0 [] hl)
  obtain ⟨A1, e1, e2, e3⟩ := row_zero_write A hA (rows_pos n d) 0 0 rfl
  have hn : z.shape.getD 0 0 = n := by rw [hz]; rfl
  have hn' : z.shape.getD 1 0 = nobs := by rw [hz]; rfl
  by_cases h0 : d = 0
  · subst h0
    refine ⟨A1, ?_, filled_zero (e2.trans hA) ?_⟩
    · simp only [derImplMat, hn', e1, ok_bind, Nat.cast_zero]
      norm_num
    · intro tail ht
      rw [(e3 _).1 ⟨tail, ht, rfl⟩]; rfl
  · have hd1 : 1 ≤ d := by omega
    obtain ⟨A1', f0, f2, f3⟩ := pyFor_writes [(rows n d).length, nobs] (fun _ => 0)
      (fun (i : ℕ) => pyFor (List.range nobs) fun k (out : NdArray K) =>
        out.write [(i : ℤ) + 1, (k : ℤ)] 0)
      (fun i idx => ∃ tail, InShape [nobs] tail ∧ idx = (i + 1) :: tail) (List.range n) A1
      (e2.trans hA) (by
        intro i hi B hB
        rw [List.mem_range] at hi
        exact row_zero_write B hB (rows_first hd1 (by omega)) 0 ((i : ℤ) + 1) (by push_cast; rfl))
    obtain ⟨A2, f4, f5, f6⟩ := row_zero_write A1' ((f2.trans e2).trans hA)
      (r := der + 1) (rows_first hd1 (by omega)) 1 ((der : ℤ) + 1) (by push_cast; rfl)
    have hS : Started n d [nobs] (fun tail l => dmono (fun i => z.get (i :: tail)) der l) A2 := by
      refine ⟨((f5.trans f2).trans e2).trans hA, fun r hr l hl tail ht => ?_⟩
      rw [rows_getElem?, if_pos hd1] at hl
      by_cases hr0 : r = 0
      · subst hr0
        injection hl with hl; subst hl
        rw [(f6 _).2 (by
          rintro ⟨_, _, h⟩
          simp at h), (f3 _).2 (by
          rintro ⟨a, ha, _, _, h⟩
          simp at h), (e3 _).1 ⟨tail, ht, rfl⟩]; rfl
      · rw [if_neg hr0, if_pos hr] at hl
        injection hl with hl; subst hl
        by_cases hrd : r = der + 1
        · subst hrd
          rw [(f6 _).1 ⟨tail, ht, rfl⟩]
          simp [dmono]
        · rw [(f6 _).2 (by
            rintro ⟨_, _, h⟩
            simp at h; omega),
            (f3 _).1 ⟨r - 1, by simp; omega, tail, ht, by congr 1; omega⟩]
          simp [dmono, show r - 1 ≠ der by omega]
    obtain ⟨A', g1, g2⟩ := hS.finish hd1 hP
    interval_cases d
    · refine ⟨A2, ?_, hS.one⟩
      simp only [derImplMat, hn', e1, hn, ok_bind, Nat.cast_one]
      norm_num
      rw [f0, ok_bind, f4]; rfl
    · refine ⟨A', ?_, g2⟩
      rw [← g1]
      simp only [derImplMat, hn', e1, hn, ok_bind, Nat.cast_ofNat]
      norm_num
      rw [f0, ok_bind, f4, ok_bind]
      exact congrArg (fun q => (do
        let s ← pyFor (List.range n) q (n, A2)
        Except.ok s.2 : Py (NdArray K))) (nest2 n fun l => putMat nobs (fun k => derEntry (rdMat z k) der 0 [] l))
    · refine ⟨A', ?_, g2⟩
      rw [← g1]
      simp only [derImplMat, hn', e1, hn, ok_bind, Nat.cast_ofNat]
      norm_num
      rw [f0, ok_bind, f4, ok_bind]
      exact congrArg (fun q => (do
        let s ← pyFor (List.range n) q (n, A2)
        Except.ok s.2 : Py (NdArray K))) (nest3 n fun l => putMat nobs (fun k => derEntry (rdMat z k) der 0 [] l))
    · refine ⟨A', ?_, g2⟩
      rw [← g1]
      simp only [derImplMat, hn', e1, hn, ok_bind, Nat.cast_ofNat]
      norm_num
      rw [f0, ok_bind, f4, ok_bind]
      exact congrArg (fun q => (do
        let s ← pyFor (List.range n) q (n, A2)
        Except.ok s.2 : Py (NdArray K))) (nest4 n fun l => putMat nobs (fun k => derEntry (rdMat z k) der 0 [] l))
    · refine ⟨A', ?_, g2⟩
      rw [← g1]
      simp only [derImplMat, hn', e1, hn, ok_bind, Nat.cast_ofNat]
      norm_num
      rw [f0, ok_bind, f4, ok_bind]
      exact congrArg (fun q => (do
        let s ← pyFor (List.range n) q (n, A2)
        Except.ok s.2 : Py (NdArray K))) (nest5 n fun l => putMat nobs (fun k => derEntry (rdMat z k) der 0 [] l))

end
end Interp.CompletePoly
