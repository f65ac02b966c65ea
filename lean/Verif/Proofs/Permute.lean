import Verif.Model.Permute
import Verif.Proofs.ExceptLemmas
import Mathlib.Data.List.Lex
import Mathlib.Data.List.Permutation
import Mathlib.Data.Finset.Card
import Mathlib.Data.List.Sort
import Mathlib.Tactic.Linarith

/-!
# The next-permutation loop
-/

set_option linter.unusedSectionVars false

namespace Interp.Smolyak

section list
variable {α : Type}

theorem pyGet_ok (l : List α) (i : ℕ) (h : i < l.length) : pyGet l (i : ℤ) = .ok l[i] := by
  rw [pyGet, wrapIndex_of_lt (by omega) (by omega)]
  simp only [Int.toNat_natCast, List.getElem?_eq_getElem h, pure_eq_ok]

theorem pySet_ok (l : List α) (i : ℕ) (v : α) (h : i < l.length) :
    pySet l (i : ℤ) v = .ok (l.set i v) := by
  rw [pySet, wrapIndex_of_lt (by omega) (by omega)]
  simp only [Int.toNat_natCast, pure_eq_ok]

end list

variable {α : Type} [LinearOrder α]

/-! ### Lexicographic order -/

theorem cons_lt_iff {a b : α} {l m : List α} : a :: l < b :: m ↔ a < b ∨ (a = b ∧ l < m) :=
  List.cons_lt_cons_iff

theorem append_lt_iff (p l m : List α) : p ++ l < p ++ m ↔ l < m := by
  induction p with
  | nil => rfl
  | cons a p ih => rw [List.cons_append, List.cons_append, cons_lt_iff, ih]; simp

/-- An increasing list is the least of its rearrangements. -/
theorem sorted_le_perm : ∀ (s c : List α), s.Pairwise (· ≤ ·) → c.Perm s → ¬ c < s
  | [], c, _, h => by rw [List.perm_nil.mp h]; exact lt_irrefl _
  | x :: s, [], _, h => by simp at h
  | x :: s, z :: c, hs, h => by
    rw [cons_lt_iff]
    rw [List.pairwise_cons] at hs
    have hz : z ∈ x :: s := h.subset (by simp)
    have hxz : x ≤ z := by
      rcases List.mem_cons.mp hz with rfl | hz
      · exact le_rfl
      · exact hs.1 z hz
    rintro (h1 | ⟨rfl, h1⟩)
    · exact absurd h1 hxz.not_gt
    · exact sorted_le_perm s c hs.2 (List.Perm.cons_inv h) h1

/-- A decreasing list is the greatest of its rearrangements. -/
theorem perm_le_desc : ∀ (s c : List α), s.Pairwise (· ≥ ·) → c.Perm s → ¬ s < c
  | [], c, _, h => by rw [List.perm_nil.mp h]; exact lt_irrefl _
  | x :: s, [], _, h => by simp at h
  | x :: s, z :: c, hs, h => by
    rw [cons_lt_iff]
    rw [List.pairwise_cons] at hs
    have hz : z ∈ x :: s := h.subset (by simp)
    have hxz : z ≤ x := by
      rcases List.mem_cons.mp hz with rfl | hz
      · exact le_rfl
      · exact hs.1 z hz
    rintro (h1 | ⟨rfl, h1⟩)
    · exact absurd h1 hxz.not_gt
    · exact perm_le_desc s c hs.2 (List.Perm.cons_inv h) h1

/-- The list `a = p x s1 y s2` and its successor `p y (s1 x s2)ʳ`. -/
structure NextOf (a b : List α) : Prop where
  ex : ∃ p x s1 y s2, a = p ++ x :: (s1 ++ y :: s2) ∧ b = p ++ y :: (s1 ++ x :: s2).reverse ∧
    (s1 ++ y :: s2).Pairwise (· ≥ ·) ∧ x < y ∧ ∀ z ∈ s2, z ≤ x

theorem NextOf.perm {a b : List α} (h : NextOf a b) : b.Perm a := by
  obtain ⟨p, x, s1, y, s2, rfl, rfl, -⟩ := h.ex
  refine List.Perm.append_left p ?_
  calc y :: (s1 ++ x :: s2).reverse
      |>.Perm (y :: (s1 ++ x :: s2)) := (List.reverse_perm _).cons y
    _ |>.Perm (y :: x :: (s1 ++ s2)) := (List.perm_middle).cons y
    _ |>.Perm (x :: y :: (s1 ++ s2)) := List.Perm.swap _ _ _
    _ |>.Perm (x :: (s1 ++ y :: s2)) := (List.perm_middle.symm).cons x

theorem NextOf.lt {a b : List α} (h : NextOf a b) : a < b := by
  obtain ⟨p, x, s1, y, s2, rfl, rfl, -, hxy, -⟩ := h.ex
  rw [append_lt_iff, cons_lt_iff]
  exact Or.inl hxy

/-- A list greater than one that starts with `p` starts with `p` or exceeds every such list. -/
theorem lt_prefix : ∀ (p l c : List α), p ++ l < c →
    (∃ m, c = p ++ m) ∨ ∀ m : List α, p ++ m < c
  | [], l, c, _ => Or.inl ⟨c, rfl⟩
  | a :: p, l, [], h => by simp at h
  | a :: p, l, b :: c, h => by
    rw [List.cons_append, cons_lt_iff] at h
    rcases h with h | ⟨rfl, h⟩
    · right; intro m; rw [List.cons_append, cons_lt_iff]; exact Or.inl h
    · rcases lt_prefix p l c h with ⟨m, rfl⟩ | h'
      · exact Or.inl ⟨m, rfl⟩
      · right; intro m; rw [List.cons_append, cons_lt_iff]; exact Or.inr ⟨rfl, h' m⟩

theorem NextOf.next {a b : List α} (h : NextOf a b) (c : List α) (hc : c.Perm a) (hac : a < c) :
    ¬ c < b := by
  obtain ⟨p, x, s1, y, s2, rfl, rfl, hs, hxy, hz⟩ := h.ex
  rcases lt_prefix p _ c hac with ⟨m, rfl⟩ | h'
  · rw [append_lt_iff] at hac ⊢
    have hm := (List.perm_append_left_iff p).mp hc
    cases m with
    | nil => simp at hac
    | cons z r =>
      rw [cons_lt_iff] at hac ⊢
      rcases hac with hxz | ⟨rfl, hr⟩
      · -- `z` is one of the elements greater than `x`, the least of which is `y`
        have hzs : z ∈ s1 ++ y :: s2 := by
          rcases List.mem_cons.mp (hm.subset (List.mem_cons_self)) with rfl | h1
          · exact absurd hxz (lt_irrefl _)
          · exact h1
        have hyz : y ≤ z := by
          rw [List.pairwise_append, List.pairwise_cons] at hs
          rcases List.mem_append.mp hzs with h1 | h1
          · exact hs.2.2 z h1 y (by simp)
          · rcases List.mem_cons.mp h1 with rfl | h1
            · exact le_rfl
            · exact absurd (hz z h1) hxz.not_ge
        rintro (h1 | ⟨rfl, h1⟩)
        · exact absurd h1 hyz.not_gt
        · refine sorted_le_perm _ r ?_ ?_ h1
          · rw [List.pairwise_reverse]
            rw [List.pairwise_append, List.pairwise_cons] at hs ⊢
            refine ⟨hs.1, ⟨hz, hs.2.1.2⟩, fun u hu v hv => ?_⟩
            rcases List.mem_cons.mp hv with rfl | hv
            · exact hxy.le.trans (hs.2.2 u hu z (by simp))
            · exact hs.2.2 u hu v (by simp [hv])
          · have h2 : (z :: r).Perm (z :: x :: (s1 ++ s2)) :=
              hm.trans (((List.perm_middle).cons x).trans (List.Perm.swap _ _ _))
            exact (h2.cons_inv.trans List.perm_middle.symm).trans (List.reverse_perm _).symm
      · exact absurd hr (perm_le_desc _ r hs hm.cons_inv)
  · exact (h' _).not_gt

/-! ### The loops -/

theorem scanJ_ok (a : List α) (i : ℕ) (hi : i < a.length) :
    ∀ (f j : ℕ), j < a.length → i < j → j ≤ f → (∃ k, i < k ∧ k ≤ j ∧ ∃ h : k < a.length, a[i] < a[k]) →
    ∃ k, ∃ h : k < a.length, scanJ a i f j = .ok (k : ℤ) ∧ i < k ∧ k ≤ j ∧ a[i] < a[k] ∧
      ∀ l, k < l → l ≤ j → ∀ h : l < a.length, a[l] ≤ a[i]
  | 0, j, hj, hij, hf, hk => by omega
  | f + 1, j, hj, hij, hf, ⟨k, h1, h2, h3, h4⟩ => by
    simp only [scanJ, pyGet_ok a i hi, pyGet_ok a j hj, ok_bind]
    by_cases h : a[i] < a[j]
    · rw [if_pos h]
      exact ⟨j, hj, rfl, hij, le_rfl, h, fun l _ _ => by omega⟩
    · rw [if_neg h]
      have hkj : k ≠ j := by rintro rfl; exact h h4
      have e : ((j : ℤ) - 1) = ((j - 1 : ℕ) : ℤ) := by omega
      rw [e]
      obtain ⟨k', g0, g1, g2, g3, g4, g5⟩ := scanJ_ok a i hi f (j - 1) (by omega) (by omega) (by omega)
        ⟨k, h1, by omega, h3, h4⟩
      refine ⟨k', g0, g1, g2, by omega, g4, fun l hl1 hl2 hl3 => ?_⟩
      rcases Nat.lt_or_ge (j - 1) l with h' | h'
      · have : l = j := by omega
        subst this
        exact not_lt.mp h
      · exact g5 l hl1 h' hl3

/-- One pass of the outer loop yields the successor, or stops at the decreasing list. -/
theorem scanI_ok (a : List α) (h2 : 2 ≤ a.length) :
    ∀ (f i : ℕ), 1 ≤ i → i < a.length → i ≤ f → (a.drop i).Pairwise (· ≥ ·) →
    (scanI a f i = .ok none ∧ a.Pairwise (· ≥ ·)) ∨ ∃ b, scanI a f i = .ok (some b) ∧ NextOf a b
  | 0, i, h1, _, hf, _ => by omega
  | f + 1, i, h1, hi, hf, hs => by
    obtain ⟨i, rfl⟩ : ∃ k, i = k + 1 := ⟨i - 1, by omega⟩
    have e : (((i + 1 : ℕ) : ℤ) - 1) = ((i : ℕ) : ℤ) := by omega
    have e' : ((i : ℤ) + 1) = ((i + 1 : ℕ) : ℤ) := by omega
    have hi' : i < a.length := by omega
    have hd : a.drop i = a[i] :: a.drop (i + 1) := List.drop_eq_getElem_cons hi'
    have hd1 : a.drop (i + 1) = a[i + 1] :: a.drop (i + 2) := List.drop_eq_getElem_cons hi
    simp only [scanI, e, e', pyGet_ok a i hi', pyGet_ok a (i + 1) hi, ok_bind]
    by_cases h : a[i] < a[i + 1]
    · rw [if_pos h]
      right
      have el : ((a.length : ℤ) - 1) = ((a.length - 1 : ℕ) : ℤ) := by omega
      rw [el]
      obtain ⟨k, g0, g1, g2, g3, g4, g5⟩ := scanJ_ok a i hi' (a.length + 1) (a.length - 1)
        (by omega) (by omega) (by omega) ⟨i + 1, by omega, by omega, hi, h⟩
      have es : (a.set i a[k]).length = a.length := by simp
      simp only [g1, ok_bind, swapReverse, pyGet_ok a k g0, pyGet_ok a i hi', pySet_ok a i _ hi',
        pySet_ok (a.set i a[k]) k _ (by rw [es]; exact g0), pure_eq_ok, e', Int.toNat_natCast]
      refine ⟨_, rfl, ⟨?_⟩⟩
      -- decompose
      have hp : a = a.take i ++ a[i] :: a.drop (i + 1) := by
        rw [← hd, List.take_append_drop]
      obtain ⟨m, hm⟩ : ∃ m, k = i + 1 + m := ⟨k - (i + 1), by omega⟩
      subst hm
      have hml : m < (a.drop (i + 1)).length := by rw [List.length_drop]; omega
      have hgm : (a.drop (i + 1))[m] = a[i + 1 + m] := by rw [List.getElem_drop]
      have hq : a.drop (i + 1) = (a.drop (i + 1)).take m ++ a[i + 1 + m] :: (a.drop (i + 1)).drop (m + 1) := by
        rw [← hgm, ← List.drop_eq_getElem_cons hml, List.take_append_drop]
      refine ⟨a.take i, a[i], (a.drop (i + 1)).take m, a[i + 1 + m], (a.drop (i + 1)).drop (m + 1),
        ?_, ?_, ?_, g4, ?_⟩
      · rw [← hq]; exact hp
      · have hl : (a.take i).length = i := by rw [List.length_take]; omega
        have hl2 : ((a.drop (i + 1)).take m).length = m := by rw [List.length_take]; omega
        generalize hP : a.take i = P at *
        generalize hS1 : (a.drop (i + 1)).take m = S1 at *
        generalize hS2 : (a.drop (i + 1)).drop (m + 1) = S2 at *
        generalize hx : a[i] = x at *
        generalize hy : a[i + 1 + m] = y at *
        have ha : a = P ++ x :: (S1 ++ y :: S2) := by rw [← hq]; exact hp
        have h3 : (a.set i y).set (i + 1 + m) x = P ++ y :: (S1 ++ x :: S2) := by
          rw [ha]
          rw [List.set_append_right _ _ (by omega), hl, Nat.sub_self, List.set_cons_zero,
            List.set_append_right _ _ (by omega), hl,
            show i + 1 + m - i = m + 1 by omega, List.set_cons_succ,
            List.set_append_right _ _ (by omega), hl2, Nat.sub_self, List.set_cons_zero]
        rw [h3]
        have h4 : (P ++ y :: (S1 ++ x :: S2)).take (i + 1) = P ++ [y] := by
          rw [show P ++ y :: (S1 ++ x :: S2) = (P ++ [y]) ++ (S1 ++ x :: S2) by simp,
            List.take_left' (by simp [hl])]
        have h5 : (P ++ y :: (S1 ++ x :: S2)).drop (i + 1) = S1 ++ x :: S2 := by
          rw [show P ++ y :: (S1 ++ x :: S2) = (P ++ [y]) ++ (S1 ++ x :: S2) by simp,
            List.drop_left' (by simp [hl])]
        rw [h4, h5]; simp
      · rw [← hq]; exact hs
      · intro z hz
        rw [List.drop_drop] at hz
        obtain ⟨n, hn, rfl⟩ := List.getElem_of_mem hz
        rw [List.length_drop] at hn
        rw [List.getElem_drop]
        exact g5 _ (by omega) (by omega) (by omega)
    · rw [if_neg h]
      have hs' : (a.drop i).Pairwise (· ≥ ·) := by
        rw [hd, List.pairwise_cons]
        refine ⟨fun z hz => ?_, hs⟩
        rw [hd1] at hz hs
        rw [List.pairwise_cons] at hs
        rcases List.mem_cons.mp hz with rfl | hz
        · exact not_lt.mp h
        · exact (hs.1 z hz).trans (not_lt.mp h)
      by_cases h0 : i = 0
      · subst h0
        rw [if_pos (by simp)]
        exact Or.inl ⟨rfl, by simpa using hs'⟩
      · rw [if_neg (by omega)]
        exact scanI_ok a h2 f i (by omega) hi' (by omega) hs'

theorem scanI_ok' (a : List α) (h2 : 2 ≤ a.length) :
    (scanI a (a.length + 1) ((a.length : ℤ) - 1) = .ok none ∧ a.Pairwise (· ≥ ·)) ∨
      ∃ b, scanI a (a.length + 1) ((a.length : ℤ) - 1) = .ok (some b) ∧ NextOf a b := by
  have el : ((a.length : ℤ) - 1) = ((a.length - 1 : ℕ) : ℤ) := by omega
  rw [el]
  refine scanI_ok a h2 _ (a.length - 1) (by omega) (by omega) (by omega) ?_
  obtain ⟨x, hx⟩ : ∃ x, a.drop (a.length - 1) = [x] := by
    apply List.length_eq_one_iff.mp
    rw [List.length_drop]; omega
  rw [hx]; simp

/-- The rearrangements of `a` greater than `a`. -/
def above (a : List α) : Finset (List α) := a.permutations.toFinset.filter (a < ·)

theorem mem_above {a c : List α} : c ∈ above a ↔ c.Perm a ∧ a < c := by
  simp [above, List.mem_permutations]

theorem permLoop_ok : ∀ (f : ℕ) (a : List α), 2 ≤ a.length → (above a).card < f →
    ∃ r, permLoop f a = .ok r ∧ (a :: r).Pairwise (· < ·) ∧ (∀ c ∈ r, c.Perm a) ∧
      ∀ c, c.Perm a → a < c → c ∈ r
  | 0, a, _, hf => by omega
  | f + 1, a, h2, hf => by
    rcases scanI_ok' a h2 with ⟨h, hd⟩ | ⟨b, h, hn⟩
    · refine ⟨[], by simp only [permLoop, h, ok_bind, pure_eq_ok], by simp, by simp, ?_⟩
      intro c hc hac
      exact absurd hac (perm_le_desc a c hd hc)
    · have hlt : (above b).card < (above a).card := by
        apply Finset.card_lt_card
        refine ⟨fun c hc => ?_, fun hsub => ?_⟩
        · rw [mem_above] at hc ⊢
          exact ⟨hc.1.trans hn.perm, hn.lt.trans hc.2⟩
        · have := hsub (mem_above.mpr ⟨hn.perm, hn.lt⟩)
          exact lt_irrefl _ (mem_above.mp this).2
      obtain ⟨r, r1, r2, r3, r4⟩ := permLoop_ok f b (by rw [hn.perm.length_eq]; exact h2) (by omega)
      refine ⟨b :: r, by simp only [permLoop, h, ok_bind, r1, pure_eq_ok], ?_, ?_, ?_⟩
      · rw [List.pairwise_cons]
        refine ⟨fun c hc => ?_, r2⟩
        rw [List.pairwise_cons] at r2
        rcases List.mem_cons.mp hc with rfl | hc
        · exact hn.lt
        · exact hn.lt.trans (r2.1 c hc)
      · intro c hc
        rcases List.mem_cons.mp hc with rfl | hc
        · exact hn.perm
        · exact (r3 c hc).trans hn.perm
      · intro c hc hac
        have := hn.next c hc hac
        rcases lt_or_eq_of_le (not_lt.mp this) with h' | rfl
        · exact List.mem_cons_of_mem _ (r4 c (hc.trans hn.perm.symm) h')
        · simp

theorem pySort_perm (a : List α) : (pySort a).Perm a := List.mergeSort_perm _ _

theorem pySort_sorted (a : List α) : (pySort a).Pairwise (· ≤ ·) := by
  have := List.pairwise_mergeSort (le := fun x y : α => decide ¬ y < x)
    (by intro x y z h1 h2; simp only [decide_eq_true_eq, not_lt] at *; exact h1.trans h2)
    (by intro x y; simp only [Bool.or_eq_true, decide_eq_true_eq, not_lt]; exact le_total x y) a
  simpa [pySort] using this

theorem permute_ok (a : List α) (h2 : 2 ≤ a.length) :
    ∃ r, permute a = .ok r ∧ r.Pairwise (· < ·) ∧ ∀ c, c ∈ r ↔ c.Perm a := by
  have hp := pySort_perm a
  have hs := pySort_sorted a
  have hl : 2 ≤ (pySort a).length := by rw [hp.length_eq]; exact h2
  have hc : (above (pySort a)).card < (pySort a).length.factorial := by
    have h1 : above (pySort a) ⊂ (pySort a).permutations.toFinset := by
      refine ⟨Finset.filter_subset _ _, fun h => ?_⟩
      have := h (show pySort a ∈ (pySort a).permutations.toFinset by simp [List.mem_permutations])
      exact lt_irrefl _ (mem_above.mp this).2
    calc (above (pySort a)).card < _ := Finset.card_lt_card h1
      _ ≤ (pySort a).permutations.length := List.toFinset_card_le _
      _ = _ := List.length_permutations _
  obtain ⟨r, r1, r2, r3, r4⟩ := permLoop_ok _ _ hl hc
  refine ⟨pySort a :: r, by simp only [permute, r1, ok_bind, pure_eq_ok], r2, fun c => ⟨?_, ?_⟩⟩
  · intro h
    rcases List.mem_cons.mp h with rfl | h
    · exact hp
    · exact (r3 c h).trans hp
  · intro h
    have h' := h.trans hp.symm
    rcases lt_trichotomy c (pySort a) with h1 | rfl | h1
    · exact absurd h1 (sorted_le_perm _ c hs h')
    · simp
    · exact List.mem_cons_of_mem _ (r4 c h' h1)

end Interp.Smolyak
