import Verif.Model.Smolyak
import Verif.Proofs.Permute
import Mathlib.Data.List.Nodup
import Mathlib.Tactic.NormNum
import Mathlib.Algebra.Order.BigOperators.Group.List

/-!
# Smolyak index sets
-/

set_option linter.unusedSectionVars false

namespace Interp.Smolyak

/-- The values of `r` or nothing. -/
def okOr {α : Type} (x : Py (List α)) : List α :=
  match x with
  | .ok r => r
  | .error _ => []

theorem mem_combsRep : ∀ (l : List ℤ) (k : ℕ), l.Pairwise (· < ·) → ∀ el : List ℤ,
    el ∈ combsRep l k ↔ el.length = k ∧ (∀ e ∈ el, e ∈ l) ∧ el.Pairwise (· ≤ ·)
  | l, 0, _, el => by
    rw [combsRep, List.mem_singleton]
    constructor
    · rintro rfl; simp
    · intro h; exact List.length_eq_zero_iff.mp h.1
  | [], k + 1, _, el => by
    rw [combsRep]
    constructor
    · simp
    · rintro ⟨h1, h2, -⟩
      cases el with
      | nil => simp at h1
      | cons e el => exact absurd (h2 e (by simp)) (by simp)
  | x :: l, k + 1, hl, el => by
    have hl' := List.pairwise_cons.mp hl
    rw [combsRep, List.mem_append, List.mem_map, mem_combsRep l (k + 1) hl'.2]
    constructor
    · rintro (⟨a, ha, rfl⟩ | ⟨h1, h2, h3⟩)
      · rw [mem_combsRep (x :: l) k hl] at ha
        obtain ⟨h1, h2, h3⟩ := ha
        refine ⟨by simp [h1], ?_, ?_⟩
        · intro e he
          rcases List.mem_cons.mp he with rfl | he
          · simp
          · exact h2 e he
        · rw [List.pairwise_cons]
          refine ⟨fun e he => ?_, h3⟩
          rcases List.mem_cons.mp (h2 e he) with rfl | h
          · exact le_rfl
          · exact (hl'.1 e h).le
      · exact ⟨h1, fun e he => by simp [h2 e he], h3⟩
    · rintro ⟨h1, h2, h3⟩
      cases el with
      | nil => simp at h1
      | cons e el =>
        rw [List.pairwise_cons] at h3
        rcases List.mem_cons.mp (h2 e (by simp)) with rfl | he
        · left
          refine ⟨el, (mem_combsRep (e :: l) k hl el).mpr ⟨by simpa using h1, ?_, h3.2⟩, rfl⟩
          exact fun e' he' => h2 e' (by simp [he'])
        · right
          refine ⟨h1, fun e' he' => ?_, List.pairwise_cons.mpr h3⟩
          rcases List.mem_cons.mp (h2 e' he') with rfl | h
          · have h4 : e ≤ e' := by
              rcases List.mem_cons.mp he' with h5 | h5
              · rw [h5]
              · exact h3.1 e' h5
            exact absurd (hl'.1 e he) (by omega)
          · exact h
termination_by l k => (k, l.length)

theorem nodup_combsRep : ∀ (l : List ℤ) (k : ℕ), l.Pairwise (· < ·) → (combsRep l k).Nodup
  | l, 0, _ => by simp [combsRep]
  | [], k + 1, _ => by simp [combsRep]
  | x :: l, k + 1, hl => by
    have hl' := List.pairwise_cons.mp hl
    rw [combsRep, List.nodup_append']
    refine ⟨(nodup_combsRep (x :: l) k hl).map (List.cons_injective), nodup_combsRep l (k + 1) hl'.2,
      ?_⟩
    intro el h1 h2
    obtain ⟨a, -, rfl⟩ := List.mem_map.mp h1
    rw [mem_combsRep l _ hl'.2] at h2
    exact absurd (hl'.1 x (h2.2.1 x (by simp))) (lt_irrefl x)
termination_by l k => (k, l.length)

theorem rangeZ_sorted (lo hi : ℤ) : (rangeZ lo hi).Pairwise (· < ·) := by
  rw [rangeZ, List.pairwise_map]
  refine List.Pairwise.imp ?_ List.pairwise_lt_range
  intro a b h
  simp only [Int.ofNat_eq_natCast]; omega

theorem mem_rangeZ {lo hi x : ℤ} : x ∈ rangeZ lo hi ↔ lo ≤ x ∧ x < hi := by
  rw [rangeZ, List.mem_map]
  constructor
  · rintro ⟨a, ha, rfl⟩
    rw [List.mem_range] at ha
    simp only [Int.ofNat_eq_natCast]; omega
  · rintro ⟨h1, h2⟩
    exact ⟨(x - lo).toNat, by rw [List.mem_range]; omega, by simp only [Int.ofNat_eq_natCast]; omega⟩

/-- Entries at least one. -/
theorem sum_ge_length : ∀ (el : List ℤ), (∀ e ∈ el, 1 ≤ e) → (el.length : ℤ) ≤ el.sum
  | [], _ => by simp
  | e :: el, h => by
    have := sum_ge_length el fun e' h' => h e' (by simp [h'])
    have := h e (by simp)
    simp only [List.length_cons, List.sum_cons]; push_cast; omega

theorem entry_le : ∀ (el : List ℤ), (∀ e ∈ el, 1 ≤ e) → ∀ e ∈ el, e + el.length ≤ el.sum + 1
  | [], _, e, he => by simp at he
  | a :: el, h, e, he => by
    have h1 := sum_ge_length el fun e' h' => h e' (by simp [h'])
    have h2 := h a (by simp)
    simp only [List.length_cons, List.sum_cons]; push_cast
    rcases List.mem_cons.mp he with rfl | he
    · omega
    · have := entry_le el (fun e' h' => h e' (by simp [h'])) e he
      omega

theorem eq_ones : ∀ (el : List ℤ), (∀ e ∈ el, 1 ≤ e) → el.sum = el.length →
    el = List.replicate el.length 1
  | [], _, _ => rfl
  | a :: el, h, hs => by
    have h1 := sum_ge_length el fun e' h' => h e' (by simp [h'])
    have h2 := h a (by simp)
    simp only [List.length_cons, List.sum_cons] at hs; push_cast at hs
    have h3 : a = 1 := by omega
    rw [List.length_cons, List.replicate_succ, ← eq_ones el (fun e' h' => h e' (by simp [h'])) (by omega),
      h3]

theorem sum_ones (d : ℕ) : (List.replicate d (1 : ℤ)).sum = d := by simp

/-- The candidate index vectors, sorted. -/
def candidates (d : ℕ) (M : ℤ) : List (List ℤ) :=
  (combsRep (rangeZ 1 (M + 2)) d).filter fun el => decide ((d : ℤ) < el.sum ∧ el.sum ≤ d + M)

theorem mem_candidates (d : ℕ) (M : ℤ) (el : List ℤ) : el ∈ candidates d M ↔
    el.length = d ∧ (∀ e ∈ el, 1 ≤ e) ∧ el.Pairwise (· ≤ ·) ∧ (d : ℤ) < el.sum ∧ el.sum ≤ d + M := by
  rw [candidates, List.mem_filter, mem_combsRep _ _ (rangeZ_sorted _ _), decide_eq_true_eq]
  constructor
  · rintro ⟨⟨h1, h2, h3⟩, h4⟩
    exact ⟨h1, fun e he => (mem_rangeZ.mp (h2 e he)).1, h3, h4⟩
  · rintro ⟨h1, h2, h3, h4⟩
    refine ⟨⟨h1, fun e he => mem_rangeZ.mpr ⟨h2 e he, ?_⟩, h3⟩, h4⟩
    have := entry_le el h2 e he
    omega

theorem mem_okPermute {val c : List ℤ} (h : 2 ≤ val.length) :
    permute val = .ok (okOr (permute val)) ∧ (okOr (permute val)).Pairwise (· < ·) ∧
      ∀ c, c ∈ okOr (permute val) ↔ c.Perm val := by
  obtain ⟨r, h1, h2, h3⟩ := permute_ok val h
  rw [h1]
  exact ⟨rfl, h2, h3⟩

/-- The result of `smol_inds`. -/
theorem smolInds_ok (d : ℕ) (mu : Mu) (M : ℤ) (hd : 2 ≤ d) (hM : maxMu d mu = .ok M) :
    ∃ l, smolInds d mu = .ok (l ++ [List.replicate d 1]) ∧ l.Nodup ∧
      ∀ el, el ∈ l ↔ el.length = d ∧ (∀ e ∈ el, 1 ≤ e) ∧ (d : ℤ) < el.sum ∧ el.sum ≤ d + M ∧
        permFilter mu el = true := by
  have hlen : ∀ val ∈ candidates d M, 2 ≤ val.length := by
    intro val hv
    rw [((mem_candidates d M val).mp hv).1]; exact hd
  have hmap := mapM_ok (fun val => (do
      let ps ← permute val
      pure (ps.filter (permFilter mu)) : Py (List (List ℤ))))
    (fun val => (okOr (permute val)).filter (permFilter mu)) (candidates d M) (by
      intro val hv
      rw [(mem_okPermute (c := val) (hlen val hv)).1]
      rfl)
  refine ⟨((candidates d M).map fun val => (okOr (permute val)).filter (permFilter mu)).flatten,
    ?_, ?_, ?_⟩
  · simp only [smolInds, hM, ok_bind]
    have hmap' := hmap
    simp only [candidates] at hmap'
    rw [hmap', ok_bind, pure_eq_ok, List.flatten_append]
    rfl
  · rw [List.nodup_flatten, List.pairwise_map]
    constructor
    · intro l hl
      obtain ⟨val, hv, rfl⟩ := List.mem_map.mp hl
      exact (((mem_okPermute (c := val) (hlen val hv)).2.1).imp fun h => ne_of_lt h).filter _
    · have hn : (candidates d M).Nodup := (nodup_combsRep _ _ (rangeZ_sorted _ _)).filter _
      refine List.Pairwise.imp_of_mem ?_ hn
      intro u v hu hv hne el h1 h2
      have h1' := ((mem_okPermute (c := el) (hlen u hu)).2.2 el).mp (List.mem_filter.mp h1).1
      have h2' := ((mem_okPermute (c := el) (hlen v hv)).2.2 el).mp (List.mem_filter.mp h2).1
      exact hne ((h1'.symm.trans h2').eq_of_pairwise' ((mem_candidates d M u).mp hu).2.2.1
        ((mem_candidates d M v).mp hv).2.2.1)
  · intro el
    rw [List.mem_flatten]
    constructor
    · rintro ⟨_, hl, hel⟩
      obtain ⟨val, hv, rfl⟩ := List.mem_map.mp hl
      obtain ⟨h1, h2⟩ := List.mem_filter.mp hel
      have hp := ((mem_okPermute (c := el) (hlen val hv)).2.2 el).mp h1
      obtain ⟨c1, c2, c3, c4, c5⟩ := (mem_candidates d M val).mp hv
      exact ⟨by rw [hp.length_eq, c1], fun e he => c2 e (hp.subset he), by rw [hp.sum_eq]; exact c4,
        by rw [hp.sum_eq]; exact c5, h2⟩
    · rintro ⟨h1, h2, h3, h4, h5⟩
      have hp := pySort_perm el
      have hv : pySort el ∈ candidates d M := by
        rw [mem_candidates]
        exact ⟨by rw [hp.length_eq, h1], fun e he => h2 e (hp.subset he), pySort_sorted el,
          by rw [hp.sum_eq]; exact h3, by rw [hp.sum_eq]; exact h4⟩
      refine ⟨_, List.mem_map_of_mem hv, List.mem_filter.mpr ⟨?_, h5⟩⟩
      exact ((mem_okPermute (c := el) (hlen _ hv)).2.2 el).mpr hp.symm

theorem allLe_iff : ∀ (el ms : List ℤ), el.length = ms.length →
    (allLe el ms = true ↔ List.Forall₂ (fun e m => e ≤ m + 1) el ms)
  | [], [], _ => by simp [allLe]
  | [], _ :: _, h => by simp at h
  | _ :: _, [], h => by simp at h
  | e :: el, m :: ms, h => by
    have := allLe_iff el ms (by simpa using h)
    rw [List.forall₂_cons, ← this]
    simp [allLe]

theorem foldl_max (l : List ℤ) (x : ℤ) : l.foldl pyMax x ∈ x :: l ∧ ∀ y ∈ x :: l, y ≤ l.foldl pyMax x := by
  induction l generalizing x with
  | nil => simp
  | cons a l ih =>
    obtain ⟨h1, h2⟩ := ih (pyMax x a)
    rw [List.foldl_cons]
    have hm : pyMax x a = x ∨ pyMax x a = a := by unfold pyMax; split <;> simp
    have hx : x ≤ pyMax x a ∧ a ≤ pyMax x a := by unfold pyMax; split <;> omega
    constructor
    · rcases List.mem_cons.mp h1 with h | h
      · rw [h]; rcases hm with h' | h' <;> simp [h']
      · simp [h]
    · intro y hy
      have h0 := h2 (pyMax x a) (by simp)
      rcases List.mem_cons.mp hy with rfl | hy
      · omega
      · rcases List.mem_cons.mp hy with rfl | hy
        · omega
        · exact h2 y (by simp [hy])

theorem pyMaxList_ok (ms : List ℤ) (h : ms ≠ []) :
    ∃ M, pyMaxList ms = .ok M ∧ M ∈ ms ∧ ∀ m ∈ ms, m ≤ M := by
  cases ms with
  | nil => exact absurd rfl h
  | cons x l => exact ⟨_, rfl, (foldl_max l x).1, (foldl_max l x).2⟩

end Interp.Smolyak
