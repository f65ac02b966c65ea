import Verif.Model.Looper

/-!
# Loop positions: C93
-/

namespace Interp.Props
open Interp.Looper

variable {α β : Type}

theorem iterFrom_eq (a : List α) : ∀ b : List α, iterFrom (a ++ b) a.length b.length =
    .ok (b.zipIdx.map fun p => (⟨a ++ b, a.length + p.2⟩, p.1))
  | [] => rfl
  | x :: b => by
    have h := iterFrom_eq (a ++ [x]) b
    rw [List.append_assoc, List.singleton_append, List.length_append] at h
    rw [List.length_cons, iterFrom]
    rw [List.getElem?_append_right le_rfl, Nat.sub_self]
    simp only [List.getElem?_cons_zero]
    rw [show [x].length = 1 from rfl] at h
    rw [h, List.zipIdx_cons, List.zipIdx_succ]
    simp [bind, Except.bind, pure, Except.pure, Function.comp_def, Nat.add_assoc, Nat.add_comm 1]

/-- C93. `looper(seq)` gives every item once, in order, with its position. -/
theorem C93_looper (seq : List α) : looper seq = .ok (seq.zipIdx.map fun p => (⟨seq, p.2⟩, p.1)) := by
  have := iterFrom_eq [] seq
  simpa [looper] using this

/-- C93. At the item `x` with items `a` before and `b` after it: index, number, item, neighbours, parity, first, last, length. -/
theorem C93_position (a b : List α) (x : α) :
    let l : LoopPos α := ⟨a ++ x :: b, a.length⟩
    l.index = a.length ∧ l.number = a.length + 1 ∧ l.item = .ok x ∧ l.next = b.head? ∧ l.previous = .ok a.getLast? ∧
      (l.odd = true ↔ Odd l.number) ∧ (l.even ≠ 0 ↔ Even l.number) ∧ (l.first = true ↔ a = []) ∧
      (l.last = true ↔ b = []) ∧ l.length = a.length + 1 + b.length := by
  intro l
  refine ⟨rfl, rfl, ?_, ?_, ?_, ?_, ?_, ?_, ?_, ?_⟩
  · simp [LoopPos.item, l]
  · simp only [LoopPos.next, l]
    rw [List.getElem?_append_right (by omega)]
    simp [List.head?_eq_getElem?]
  · simp only [LoopPos.previous, l]
    cases h : a.getLast? with
    | none =>
      rw [List.getLast?_eq_none_iff] at h
      subst h; rfl
    | some y =>
      have h0 : a ≠ [] := by rintro rfl; simp at h
      have hl : 0 < a.length := List.length_pos_iff.2 h0
      rw [if_neg (by omega), List.getElem?_append_left (by omega), ← List.getLast?_eq_getElem?, h]
  · simp only [LoopPos.odd, LoopPos.number, l, Nat.odd_iff]
    rcases Nat.mod_two_eq_zero_or_one a.length with h | h <;> simp [h] <;> omega
  · simp only [LoopPos.even, LoopPos.number, l, Nat.even_iff]
    omega
  · simp [LoopPos.first, l]
  · simp only [LoopPos.last, l, List.length_append, List.length_cons, beq_iff_eq]
    rw [← List.length_eq_zero_iff]
    omega
  · simp only [LoopPos.length, l, List.length_append, List.length_cons]
    omega

/-- C93. Groups: an item starts a group if it is the first or differs in the getter's value from the one before; it ends a group
if it is the last or differs from the one after. -/
theorem C93_groups [DecidableEq β] (g : α → β) (a b : List α) (x : α) :
    let l : LoopPos α := ⟨a ++ x :: b, a.length⟩
    (∃ r, l.firstGroup g = .ok r ∧ (r = true ↔ ∀ y ∈ a.getLast?, g x ≠ g y)) ∧
      ∃ r, l.lastGroup g = .ok r ∧ (r = true ↔ ∀ y ∈ b.head?, g x ≠ g y) := by
  intro l
  obtain ⟨_, _, h1, h2, h3, _, _, h4, h5, _⟩ := C93_position a b x
  constructor
  · unfold LoopPos.firstGroup
    by_cases ha : a = []
    · rw [if_pos (h4.2 ha)]
      exact ⟨true, rfl, by simp [ha]⟩
    · rw [if_neg (fun h => ha (h4.1 h)), h1, h3]
      rw [List.getLast?_eq_some_getLast ha]
      exact ⟨_, rfl, by simp⟩
  · unfold LoopPos.lastGroup
    by_cases hb : b = []
    · rw [if_pos (h5.2 hb)]
      exact ⟨true, rfl, by simp [hb]⟩
    · rw [if_neg (fun h => hb (h5.1 h)), h1, h2]
      rw [List.head?_eq_some_head hb]
      exact ⟨_, rfl, by simp⟩

/-- C93: three items in two groups. -/
example : let l : LoopPos ℕ := ⟨[10, 11, 20], 1⟩
    l.number = 2 ∧ l.next = some 20 ∧ l.previous = .ok (some 10) ∧ l.last = false :=
  let h := C93_position [10] [20] 11
  ⟨h.2.1, h.2.2.2.1, h.2.2.2.2.1, by decide⟩

example : (∃ r, (⟨[10, 11, 20], 1⟩ : LoopPos ℕ).lastGroup (· / 10) = .ok r ∧ (r = true ↔ ∀ y ∈ [20].head?, 11 / 10 ≠ y / 10)) :=
  (C93_groups (· / 10) [10] [20] 11).2

end Interp.Props
