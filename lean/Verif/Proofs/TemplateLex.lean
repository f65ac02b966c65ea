import Verif.Spec.Templates
import Verif.Proofs.ExceptLemmas
import Mathlib.Data.List.Infix
import Mathlib.Data.List.TakeWhile

/-!
# The lexer of the template engine
-/

namespace Interp.Tempita

open Spec.Templates

theorem noDelim_cons {c : Char} {s : Str} (h : NoDelim (c :: s)) :
    NoDelim s ∧ ¬ (c = '{' ∧ s.head? = some '{') ∧ ¬ (c = '}' ∧ s.head? = some '}') := by
  refine ⟨⟨fun h' => h.1 (h'.trans (List.suffix_cons c s).isInfix),
    fun h' => h.2 (h'.trans (List.suffix_cons c s).isInfix)⟩, ?_, ?_⟩
  · rintro ⟨rfl, hs⟩
    obtain ⟨s', rfl⟩ := List.head?_eq_some_iff.1 hs
    exact h.1 ⟨[], s', rfl⟩
  · rintro ⟨rfl, hs⟩
    obtain ⟨s', rfl⟩ := List.head?_eq_some_iff.1 hs
    exact h.2 ⟨[], s', rfl⟩

theorem noDelim_nil : NoDelim [] := by constructor <;> simp

theorem infix_pair_cons {a c : Char} {s : Str} : [a, a] <:+: c :: s ↔ (c = a ∧ s.head? = some a) ∨ [a, a] <:+: s := by
  rw [List.infix_cons_iff]
  constructor
  · rintro (h | h)
    · left
      cases s with
      | nil => simp at h
      | cons d s =>
        rw [List.cons_prefix_cons, List.cons_prefix_cons] at h
        exact ⟨h.1.symm, by simp [h.2.1]⟩
    · exact Or.inr h
  · rintro (⟨rfl, h⟩ | h)
    · left
      obtain ⟨s', rfl⟩ := List.head?_eq_some_iff.1 h
      exact ⟨s', rfl⟩
    · exact Or.inr h

theorem noDelim_of_cons {c : Char} {s : Str} (h : NoDelim s) (h1 : ¬ (c = '{' ∧ s.head? = some '{'))
    (h2 : ¬ (c = '}' ∧ s.head? = some '}')) : NoDelim (c :: s) := by
  unfold NoDelim at *
  rw [infix_pair_cons, infix_pair_cons]
  tauto

theorem scan_cons {acc s : Str} {c : Char} (h1 : ¬ (c = '{' ∧ s.head? = some '{'))
    (h2 : ¬ (c = '}' ∧ s.head? = some '}')) : scan acc (c :: s) = scan (c :: acc) s := by
  rw [scan]
  · rintro s' rfl hs
    exact h1 ⟨rfl, by simp [hs]⟩
  · rintro s' rfl hs
    exact h2 ⟨rfl, by simp [hs]⟩

theorem scan_rest : ∀ (acc s : Str), NoDelim s → scan acc s = ([], acc.reverse ++ s)
  | acc, [], _ => by simp [scan]
  | acc, c :: s, h => by
    obtain ⟨h0, h1, h2⟩ := noDelim_cons h
    rw [scan_cons h1 h2, scan_rest _ s h0]
    simp

theorem head_append {p q : Str} {a : Char} (h : (p ++ q).head? = some a) : p.head? = some a ∨ p = [] ∧ q.head? = some a := by
  cases p with
  | nil => exact Or.inr ⟨rfl, h⟩
  | cons b p => exact Or.inl h

theorem scan_opening : ∀ (acc part s : Str), NoDelim part → part.getLast? ≠ some '{' →
    scan acc (part ++ '{' :: '{' :: s) = ((acc.reverse ++ part, .opening) :: (scan [] s).1, (scan [] s).2)
  | acc, [], s, _, _ => by simp [scan]
  | acc, c :: part, s, h, hl => by
    obtain ⟨h0, h1, h2⟩ := noDelim_cons h
    rw [List.cons_append, scan_cons, scan_opening _ part s h0]
    · simp
    · intro h'
      apply hl
      cases part with
      | nil => simp at h'
      | cons d part => simpa using h'
    · rintro ⟨rfl, h'⟩
      rcases head_append h' with h' | ⟨rfl, _⟩
      · exact h1 ⟨rfl, h'⟩
      · simp at hl
    · rintro ⟨rfl, h'⟩
      rcases head_append h' with h' | ⟨rfl, h'⟩
      · exact h2 ⟨rfl, h'⟩
      · simp at h'

theorem scan_closing : ∀ (acc part s : Str), NoDelim part → part.getLast? ≠ some '}' →
    scan acc (part ++ '}' :: '}' :: s) = ((acc.reverse ++ part, .closing) :: (scan [] s).1, (scan [] s).2)
  | acc, [], s, _, _ => by simp [scan]
  | acc, c :: part, s, h, hl => by
    obtain ⟨h0, h1, h2⟩ := noDelim_cons h
    rw [List.cons_append, scan_cons, scan_closing _ part s h0]
    · simp
    · intro h'
      apply hl
      cases part with
      | nil => simp at h'
      | cons d part => simpa using h'
    · rintro ⟨rfl, h'⟩
      rcases head_append h' with h' | ⟨rfl, h'⟩
      · exact h1 ⟨rfl, h'⟩
      · simp at h'
    · rintro ⟨rfl, h'⟩
      rcases head_append h' with h' | ⟨rfl, _⟩
      · exact h2 ⟨rfl, h'⟩
      · simp at hl

/-- The first delimiter of a text. -/
theorem first_delim : ∀ s : Str, NoDelim s ∨
    (∃ part rest, s = part ++ '{' :: '{' :: rest ∧ NoDelim part ∧ part.getLast? ≠ some '{') ∨
    ∃ part rest, s = part ++ '}' :: '}' :: rest ∧ NoDelim part ∧ part.getLast? ≠ some '}'
  | [] => Or.inl noDelim_nil
  | c :: s => by
    by_cases h1 : c = '{' ∧ s.head? = some '{'
    · obtain ⟨rfl, hs⟩ := h1
      obtain ⟨s', rfl⟩ := List.head?_eq_some_iff.1 hs
      exact Or.inr (Or.inl ⟨[], s', rfl, noDelim_nil, by simp⟩)
    by_cases h2 : c = '}' ∧ s.head? = some '}'
    · obtain ⟨rfl, hs⟩ := h2
      obtain ⟨s', rfl⟩ := List.head?_eq_some_iff.1 hs
      exact Or.inr (Or.inr ⟨[], s', rfl, noDelim_nil, by simp⟩)
    rcases first_delim s with h | ⟨part, rest, rfl, hp, hl⟩ | ⟨part, rest, rfl, hp, hl⟩
    · exact Or.inl (noDelim_of_cons h h1 h2)
    · refine Or.inr (Or.inl ⟨c :: part, rest, rfl, noDelim_of_cons hp ?_ ?_, ?_⟩)
      · rintro ⟨rfl, h⟩
        obtain ⟨p', rfl⟩ := List.head?_eq_some_iff.1 h
        exact h1 ⟨rfl, rfl⟩
      · rintro ⟨rfl, h⟩
        obtain ⟨p', rfl⟩ := List.head?_eq_some_iff.1 h
        exact h2 ⟨rfl, rfl⟩
      · cases part with
        | nil =>
          rintro h
          have : c = '{' := by simpa using h
          exact h1 ⟨this, rfl⟩
        | cons d part => simpa using hl
    · refine Or.inr (Or.inr ⟨c :: part, rest, rfl, noDelim_of_cons hp ?_ ?_, ?_⟩)
      · rintro ⟨rfl, h⟩
        obtain ⟨p', rfl⟩ := List.head?_eq_some_iff.1 h
        exact h1 ⟨rfl, rfl⟩
      · rintro ⟨rfl, h⟩
        obtain ⟨p', rfl⟩ := List.head?_eq_some_iff.1 h
        exact h2 ⟨rfl, rfl⟩
      · cases part with
        | nil =>
          rintro h
          have : c = '}' := by simpa using h
          exact h2 ⟨this, rfl⟩
        | cons d part => simpa using hl

/-! ### Positions -/

theorem findPosition_after (b s : Str) : findPosition s (posAfter b) = posAfter (b ++ s) := by
  unfold findPosition posAfter
  dsimp only
  rw [List.reverse_append, List.count_append]
  by_cases h : '\n' ∈ s
  · rw [if_pos (List.count_pos_iff.2 h), List.takeWhile_append, if_neg]
    · refine Prod.ext ?_ rfl
      show b.count '\n' + 1 + s.count '\n' = b.count '\n' + s.count '\n' + 1
      omega
    · intro hl
      have := (List.takeWhile_prefix (l := s.reverse) (fun c => decide (c ≠ '\n'))).eq_of_length hl
      have h2 : '\n' ∈ s.reverse.takeWhile (fun c => decide (c ≠ '\n')) := by rw [this]; simpa using h
      have h2 := List.mem_takeWhile_imp h2
      simp at h2
  · rw [if_neg (by simpa [List.count_pos_iff] using h), List.takeWhile_append_of_pos]
    · rw [List.count_eq_zero_of_not_mem h, List.length_append, List.length_reverse]
      refine Prod.ext rfl ?_
      show _ + 1 + s.length = s.length + _ + 1
      omega
    · intro a ha
      simp only [decide_eq_true_eq]
      rintro rfl
      exact h (by simpa using ha)

theorem posAfter_nil : posAfter [] = (1, 1) := rfl

/-! ### Reading -/

/-- The lexer from a place on. -/
def lexFrom (s : Str) (inExpr : Bool) (b : Str) : Except TErr (List Chunk) :=
  lexLoop (scan [] s).1 (scan [] s).2 inExpr (posAfter b)

theorem lexFrom_rest {s : Str} (h : NoDelim s) (b : Str) :
    lexFrom s false b = .ok (if s = [] then [] else [.text s]) := by
  rw [lexFrom, scan_rest [] s h]; simp [lexLoop]; rfl

theorem lexFrom_rest_in {s : Str} (h : NoDelim s) (b : Str) :
    lexFrom s true b = .error (.template (posAfter b)) := by
  rw [lexFrom, scan_rest [] s h]; simp [lexLoop]; rfl

theorem lexFrom_open {part rest : Str} (h : NoDelim part) (hl : part.getLast? ≠ some '{') (b : Str) :
    lexFrom (part ++ '{' :: '{' :: rest) false b =
      (lexFrom rest true (b ++ part ++ ['{', '{'])).map fun cs => if part = [] then cs else .text part :: cs := by
  rw [lexFrom, scan_opening [] part rest h hl]
  simp only [lexLoop, List.reverse_nil, List.nil_append, findPosition_after, lexFrom, List.append_assoc]
  cases lexLoop (scan [] rest).1 (scan [] rest).2 true (posAfter (b ++ (part ++ ['{', '{']))) <;> rfl

theorem lexFrom_open_in {part rest : Str} (h : NoDelim part) (hl : part.getLast? ≠ some '{') (b : Str) :
    lexFrom (part ++ '{' :: '{' :: rest) true b = .error (.template (posAfter (b ++ part ++ ['{', '{']))) := by
  rw [lexFrom, scan_opening [] part rest h hl]
  simp only [lexLoop, List.reverse_nil, List.nil_append, findPosition_after, List.append_assoc]
  rfl

theorem lexFrom_close {part rest : Str} (h : NoDelim part) (hl : part.getLast? ≠ some '}') (b : Str) :
    lexFrom (part ++ '}' :: '}' :: rest) false b = .error (.template (posAfter (b ++ part ++ ['}', '}']))) := by
  rw [lexFrom, scan_closing [] part rest h hl]
  simp only [lexLoop, List.reverse_nil, List.nil_append, findPosition_after, List.append_assoc]
  rfl

theorem lexFrom_close_in {part rest : Str} (h : NoDelim part) (hl : part.getLast? ≠ some '}') (b : Str) :
    lexFrom (part ++ '}' :: '}' :: rest) true b =
      (lexFrom rest false (b ++ part ++ ['}', '}'])).map fun cs => .code part (posAfter b) :: cs := by
  rw [lexFrom, scan_closing [] part rest h hl]
  simp only [lexLoop, List.reverse_nil, List.nil_append, findPosition_after, lexFrom, List.append_assoc]
  cases lexLoop (scan [] rest).1 (scan [] rest).2 false (posAfter (b ++ (part ++ ['}', '}']))) <;> rfl

/-- Reading the source of a list of chunks gives the chunks. -/
theorem lexFrom_source {b : Str} {cs : List Chunk} (h : Chunks b cs) : lexFrom (source cs) false b = .ok cs := by
  induction h with
  | nil => simp [source, lexFrom_rest noDelim_nil]
  | last h0 h => simp [source, lexFrom_rest h, h0]
  | @code b s cs h hl _ ih =>
    have e : source (.code s (posAfter (b ++ ['{', '{'])) :: cs) =
        [] ++ '{' :: '{' :: (s ++ '}' :: '}' :: source cs) := by simp [source]
    rw [e, lexFrom_open noDelim_nil (by simp), lexFrom_close_in h hl]
    simp only [List.append_nil, ih]
    rfl
  | @text b t s cs h0 ht htl h hl _ ih =>
    have e : source (.text t :: .code s (posAfter (b ++ t ++ ['{', '{'])) :: cs) =
        t ++ '{' :: '{' :: (s ++ '}' :: '}' :: source cs) := by simp [source]
    rw [e, lexFrom_open ht htl, lexFrom_close_in h hl, ih]
    simp [Except.map, h0]

theorem lexFrom_complete : ∀ (n : ℕ) (s b : Str), s.length ≤ n →
    (∃ cs, lexFrom s false b = .ok cs ∧ source cs = s ∧ Chunks b cs) ∨
    ∃ a z, s = a ++ z ∧ (['{', '{'] <:+ a ∨ ['}', '}'] <:+ a) ∧
      lexFrom s false b = .error (.template (posAfter (b ++ a)))
  | n, s, b, hn => by
    rcases first_delim s with h | ⟨t, rest, rfl, ht, htl⟩ | ⟨t, rest, rfl, ht, htl⟩
    · left
      refine ⟨_, lexFrom_rest h b, ?_, ?_⟩
      · split_ifs with h0 <;> simp [source, h0]
      · split_ifs with h0
        · exact .nil
        · exact .last h0 h
    · rw [lexFrom_open ht htl]
      rcases first_delim rest with h | ⟨s, rest, rfl, hs, hsl⟩ | ⟨s, rest, rfl, hs, hsl⟩
      · right
        refine ⟨t ++ ['{', '{'], rest, by simp, Or.inl ⟨t, rfl⟩, ?_⟩
        rw [lexFrom_rest_in h]; simp [Except.map]
      · right
        refine ⟨t ++ ['{', '{'] ++ s ++ ['{', '{'], rest, by simp, Or.inl ⟨_, rfl⟩, ?_⟩
        rw [lexFrom_open_in hs hsl]; simp [Except.map]
      · rw [lexFrom_close_in hs hsl]
        cases n with
        | zero => simp at hn
        | succ n =>
          rcases lexFrom_complete n rest (b ++ t ++ ['{', '{'] ++ s ++ ['}', '}'])
            (by simp at hn; omega) with ⟨cs, h1, h2, h3⟩ | ⟨a, z, rfl, h1, h2⟩
          · left
            rw [h1]
            by_cases h0 : t = []
            · subst h0
              refine ⟨_, rfl, ?_, ?_⟩
              · simp [source, h2]
              · simpa using Chunks.code hs hsl (by simpa using h3)
            · refine ⟨_, rfl, ?_, ?_⟩
              · simp [source, h0, h2]
              · simpa [h0] using Chunks.text h0 ht htl hs hsl (by simpa using h3)
          · right
            refine ⟨t ++ ['{', '{'] ++ s ++ ['}', '}'] ++ a, z, by simp, ?_, ?_⟩
            · rcases h1 with h1 | h1
              · exact Or.inl (h1.trans (List.suffix_append _ _))
              · exact Or.inr (h1.trans (List.suffix_append _ _))
            · rw [h2]; simp [Except.map]
    · right
      refine ⟨t ++ ['}', '}'], rest, by simp, Or.inr ⟨t, rfl⟩, ?_⟩
      rw [lexFrom_close ht htl]; simp

theorem lexRaw_eq (s : Str) : lexRaw s = lexFrom s false [] := rfl

/-- The lexer reads `s` as `cs` exactly if `cs` spells `s`. -/
theorem lexRaw_iff (s : Str) (cs : List Chunk) : lexRaw s = .ok cs ↔ source cs = s ∧ Chunks [] cs := by
  constructor
  · intro h
    rw [lexRaw_eq] at h
    rcases lexFrom_complete _ s [] le_rfl with ⟨cs', h1, h2, h3⟩ | ⟨a, z, _, _, h2⟩
    · rw [h] at h1; cases h1; exact ⟨h2, h3⟩
    · rw [h] at h2; cases h2
  · rintro ⟨rfl, h⟩
    exact lexFrom_source h

theorem lexRaw_error {s : Str} {e : TErr} (h : lexRaw s = .error e) : ∃ a z, s = a ++ z ∧
    (['{', '{'] <:+ a ∨ ['}', '}'] <:+ a) ∧ e = .template (posAfter a) := by
  rw [lexRaw_eq] at h
  rcases lexFrom_complete _ s [] le_rfl with ⟨cs', h1, h2, h3⟩ | ⟨a, z, h1, h2, h3⟩
  · rw [h] at h1; cases h1
  · rw [h] at h3; cases h3; exact ⟨a, z, h1, h2, rfl⟩

end Interp.Tempita
