import Verif.Proofs.FungenRead
import Verif.Proofs.TemplateRun

/-!
# Printing of lines, and that functions on several lines are read back
-/

namespace Interp.PyParse
open Interp.Spec.PyLang
open Interp.Tempita (unlines isLines_unlines)
open Interp.Spec.Text (codeLines splitLines ignored)
open Interp.FungenText (join)

set_option linter.unusedSectionVars false

/-! ### Characters of a line -/

def noStr : Piece → Bool
  | .str _ _ => false
  | _ => true

theorem gap_noStr (b : Bool) : (gap b).all noStr = true := by cases b <;> rfl

theorem pr_noStr (e : PExpr) : ∀ st : Style, (pr st e).all noStr = true := by
  induction e with
  | name | int | float | str | full | nil => intro st; rfl
  | paren e ih => intro st; simpa [pr, noStr] using ih st
  | neg e ih => intro st; simpa [pr, noStr] using ih st
  | tuple es t ih =>
    intro st
    have := gap_noStr st.trail
    have hs := ih { st with comma := st.tup }
    cases t <;> simp only [pr, List.all_cons, List.all_append, hs, noStr, this, if_true, if_false, Bool.false_eq_true] <;> rfl
  | call f es h1 h2 => intro st; simp [pr, List.all_append, h1 st, h2 st, noStr]
  | index f es h1 h2 => intro st; simp only [pr, List.all_append, List.all_cons, h1 st, h2 _, noStr]; rfl
  | attr e s h => intro st; simp only [pr, List.all_append, List.all_cons, h st, noStr]; rfl
  | bin o a b h1 h2 => intro st; simp only [pr, List.all_append, List.all_cons, h1 st, h2 st, gap_noStr, noStr]; rfl
  | cons e es h1 h2 =>
    intro st
    by_cases hn : es = .nil
    · subst hn; exact h1 st
    · rw [pr_cons st e es hn]
      simp only [List.all_append, List.all_cons, h1 st, h2 st, gap_noStr, noStr]; rfl

theorem namesP_noStr (b : Bool) : ∀ ps : List Str, (namesP b ps).all noStr = true
  | [] => rfl
  | [_] => rfl
  | s :: s' :: ss => by
    have := namesP_noStr b (s' :: ss)
    simp only [namesP, List.all_append, List.all_cons, this, gap_noStr, noStr]; rfl

theorem newline_tok {t : Tok} (h : okTok t) : '\n' ∉ spellTok t := by
  intro hm
  cases t with
  | name s => have := h.chars _ hm; revert this; decide
  | int n =>
    have := Nat.isDigit_of_mem_toDigits (b := 10) (by decide) (by decide) hm
    revert this; decide
  | float n =>
    rw [spellTok] at hm
    rcases List.mem_append.mp hm with hm | hm
    · have := Nat.isDigit_of_mem_toDigits (b := 10) (by decide) (by decide) hm
      revert this; decide
    · revert hm; decide
  | str s => exact h.elim
  | op o => cases o <;> revert hm <;> decide

theorem newline_spell : ∀ ps : List Piece, chk ps → ps.all noStr = true → '\n' ∉ spell ps
  | [], _, _ => by simp [spell]
  | .sp :: ps, h, hn => by
    have := newline_spell ps h (by simpa [noStr] using hn)
    simpa [spell, Piece.spell] using this
  | .str _ _ :: ps, _, hn => by simp [noStr] at hn
  | .tok t :: ps, h, hn => by
    have := newline_spell ps h.2.2 (by simpa [noStr] using hn)
    have := newline_tok h.1
    simp_all [spell, Piece.spell]

theorem tok_code {t : Tok} (h : okTok t) : ∃ c r, spellTok t = c :: r ∧ c ≠ ' ' ∧ c ≠ '#' := by
  cases t with
  | name s => obtain ⟨c, r, h1, _, h2, h3⟩ := h.head; exact ⟨c, r, h1, h2, h3⟩
  | int n => obtain ⟨c, r, h1, h2⟩ := digits_cons n; exact ⟨c, r, h1, (digit_ne h2).1, by rintro rfl; revert h2; decide⟩
  | float n =>
    obtain ⟨c, r, h1, h2⟩ := digits_cons n
    exact ⟨c, r ++ ['.', '0'], by rw [spellTok, h1]; rfl, (digit_ne h2).1, by rintro rfl; revert h2; decide⟩
  | str s => exact h.elim
  | op o => cases o <;> exact ⟨_, _, rfl, by decide, by decide⟩

/-- A line that is read as `p`, contains no newline, is not a comment and is not continued. -/
structure CodeLine (l : Str) (p : ℕ × Spec.PyLang.Line) : Prop where
  reads : Reads l p
  nl : '\n' ∉ l
  code : ignored l = false
  back : l.getLast? ≠ some '\\'

theorem good_mk {k : ℕ} {t : Tok} {ps : List Piece} {C : Spec.PyLang.Line} (hc : chk (.tok t :: ps)) (hn : ps.all noStr = true)
    (hL : LineToks C (toksOf (.tok t :: ps))) : CodeLine (List.replicate k ' ' ++ spell (.tok t :: ps)) (k, C) := by
  obtain ⟨c, s, hs, h1, h2⟩ := tok_code hc.1
  have hh : spell (.tok t :: ps) = c :: (s ++ spell ps) := by simp [spell, Piece.spell, hs]
  refine ⟨reads (ok_of_chk hc) ?_ hL, ?_, ?_, ?_⟩
  · intro r hr
    rw [hh] at hr
    injection hr with h _
    exact h1 h
  · intro hm
    rcases List.mem_append.mp hm with hm | hm
    · exact absurd (List.eq_of_mem_replicate hm) (by decide)
    · exact newline_spell _ hc (by simpa [noStr] using hn) hm
  · rw [ignored, hh]
    have : (List.replicate k ' ' ++ c :: (s ++ spell ps)).dropWhile (fun c => c == ' ') = c :: (s ++ spell ps) := by
      induction k with
      | zero => simp [List.dropWhile_cons, h1]
      | succ k ih => rw [List.replicate_succ, List.cons_append, List.dropWhile_cons, if_pos (by simp), ih]
    rw [this]
    simpa using h2
  · intro h
    have := List.mem_of_getLast? h
    rcases List.mem_append.mp this with hm | hm
    · exact absurd (List.eq_of_mem_replicate hm) (by decide)
    · exact no_backslash _ (ok_of_chk hc) hm

/-! ### Printing of lines -/

def linePr (st : Style) : Spec.PyLang.Line → List Piece
  | .simple [.assign t e] => pr st t ++ .sp :: op .eq :: .sp :: pr st e
  | .simple [.ret e] => op .kReturn :: .sp :: pr st e
  | .header (.forH x e) => op .kFor :: .sp :: .tok (.name x) :: .sp :: op .kIn :: .sp :: (pr st e ++ [op .colon])
  | .header (.defH f ps) => op .kDef :: .sp :: .tok (.name f) :: op .lpar :: (namesP true (ps.map Prod.fst) ++ [op .rpar, op .colon])
  | _ => []

/-- Targets of assignments. -/
def target : PExpr → Prop
  | .name _ => True
  | .index (.name _) _ => True
  | _ => False

def lineFine : Spec.PyLang.Line → Prop
  | .simple [.assign t e] => target t ∧ fine t ∧ wf .expr t ∧ fine e ∧ wf .expr e
  | .simple [.ret e] => fine e ∧ wf .expr e
  | .header (.forH x e) => IsName x ∧ fine e ∧ wf .expr e
  | .header (.defH f ps) => IsName f ∧ ps ≠ [] ∧ ∀ p ∈ ps, IsName p.1 ∧ p.2 = none
  | _ => False

theorem target_head {st : Style} {t : PExpr} (h : target t) : ∃ s ps, pr st t = .tok (.name s) :: ps := by
  cases t with
  | name s => exact ⟨s, [], rfl⟩
  | index e es =>
    cases e with
    | name s => exact ⟨s, _, rfl⟩
    | _ => exact h.elim
  | _ => exact h.elim

theorem params_toks : ∀ ps : List (Str × Option PExpr), ps ≠ [] → (∀ p ∈ ps, IsName p.1 ∧ p.2 = none) →
    toksOf (namesP true (ps.map Prod.fst)) ++ [.op .rpar, .op .colon] = paramToks ps
  | [], h, _ => absurd rfl h
  | [(s, o)], _, h => by
    obtain rfl : o = none := (h (s, o) (by simp)).2
    rfl
  | (s, o) :: (s', o') :: ps, _, h => by
    obtain rfl : o = none := (h (s, o) (by simp)).2
    have := params_toks ((s', o') :: ps) (by simp) (fun p hp => h p (by simp only [List.mem_cons] at hp ⊢; tauto))
    rw [paramToks, ← this]
    · simp [namesP, toksOf, toksOf_append, toksOf_gap, Piece.toks]
    · simp

theorem good_line {k : ℕ} {st : Style} {C : Spec.PyLang.Line} (h : lineFine C) : CodeLine (List.replicate k ' ' ++ spell (linePr st C)) (k, C) := by
  match C, h with
  | .simple [.assign t e], ⟨h1, h2, h3, h4, h5⟩ =>
    obtain ⟨s, ps, hs⟩ := target_head (st := st) h1
    have hall := pr_noStr t st
    have hc : chk (linePr st (.simple [.assign t e])) :=
      pr_chk st t h2 _ (show chk (.sp :: op .eq :: .sp :: pr st e) from ⟨trivial, rfl, pr_chk' st h4⟩) (Or.inl rfl)
    have ht : toksOf (linePr st (.simple [.assign t e])) = simplesToks [.assign t e] false := by
      simp [linePr, toksOf_append, toksOf, Piece.toks, pr_toks st t h2, pr_toks st e h4, simplesToks, simpleToks]
    have hL : LineToks (.simple [.assign t e]) (toksOf (linePr st (.simple [.assign t e]))) := by
      rw [ht]; exact .simple _ _ (by simp) (by intro x hx; simp only [List.mem_singleton] at hx; subst hx; exact ⟨h3, h5⟩)
    have hn : (linePr st (.simple [.assign t e])).all noStr = true := by
      simp only [linePr, List.all_append, List.all_cons, hall, pr_noStr, noStr]; rfl
    simp only [linePr, hs, List.cons_append] at hc hL hn ⊢
    exact good_mk hc (by simpa [noStr] using hn) hL
  | .simple [.ret e], ⟨h4, h5⟩ =>
    have hL : LineToks (.simple [.ret e]) (toksOf (linePr st (.simple [.ret e]))) := by
      have ht : toksOf (linePr st (.simple [.ret e])) = simplesToks [.ret e] false := by
        simp [linePr, toksOf, Piece.toks, pr_toks st e h4, simplesToks, simpleToks]
      rw [ht]; exact .simple _ _ (by simp) (by intro x hx; simp only [List.mem_singleton] at hx; subst hx; exact h5)
    exact good_mk ⟨trivial, rfl, pr_chk' st h4⟩ (by simpa [noStr] using pr_noStr e st) hL
  | .header (.forH x e), ⟨h1, h4, h5⟩ =>
    have hL : LineToks (.header (.forH x e)) (toksOf (linePr st (.header (.forH x e)))) := by
      have ht : toksOf (linePr st (.header (.forH x e))) = headerToks (.forH x e) := by
        simp [linePr, toksOf, toksOf_append, Piece.toks, pr_toks st e h4, headerToks]
      rw [ht]; exact .forH _ _ h5
    have hc : chk (pr st e ++ [op .colon]) := pr_chk st e h4 _ (chk_op rfl trivial) (Or.inl rfl)
    refine good_mk ⟨trivial, rfl, h1, by rw [loose_name]; rfl, trivial, rfl, hc⟩ ?_ hL
    have := pr_noStr e st
    simp only [List.all_append, List.all_cons, this, noStr]; rfl
  | .header (.defH f ps), ⟨h1, h2, h3⟩ =>
    have hL : LineToks (.header (.defH f ps)) (toksOf (linePr st (.header (.defH f ps)))) := by
      have ht : toksOf (linePr st (.header (.defH f ps))) = headerToks (.defH f ps) := by
        have := params_toks ps h2 h3
        simp [linePr, toksOf, toksOf_append, Piece.toks, headerToks, ← this]
      rw [ht]
      exact .defH _ _ h2 (fun p hp e he => by rw [(h3 p hp).2] at he; cases he)
    have hc := names_chk true (ps.map Prod.fst) [op .rpar, op .colon] (by
      intro s hs
      obtain ⟨p, hp, rfl⟩ := List.mem_map.mp hs
      exact (h3 p hp).1) rfl (chk_op rfl (chk_op rfl trivial))
    refine good_mk ⟨trivial, rfl, h1, by rw [loose_name]; rfl, trivial, rfl, hc⟩ ?_ hL
    have := namesP_noStr true (ps.map Prod.fst)
    simp only [List.all_append, List.all_cons, this, noStr]; rfl

/-! ### Texts -/

theorem good_lines {ls : List Str} {ps : List (ℕ × Spec.PyLang.Line)} (h : List.Forall₂ CodeLine ls ps) :
    joinLines ls = ls ∧ List.Forall₂ Reads ls ps ∧ (ls.filter fun l => !ignored l) = ls ∧ ∀ l ∈ ls, '\n' ∉ l := by
  induction h with
  | nil => exact ⟨rfl, .nil, rfl, by simp⟩
  | @cons l p ls ps h _ ih =>
    obtain ⟨h1, h2, h3, h4⟩ := ih
    refine ⟨?_, .cons h.reads h2, ?_, ?_⟩
    · rw [joinLines, if_neg h.back, h1]
    · rw [List.filter_cons, if_pos (by simp [h.code]), h3]
    · intro m hm
      rcases List.mem_cons.mp hm with rfl | hm
      · exact h.nl
      · exact h4 m hm

theorem codeLines_good {ls : List Str} {ps : List (ℕ × Spec.PyLang.Line)} (h : List.Forall₂ CodeLine ls ps) (rest : Str) :
    codeLines (unlines ls ++ rest) = ls ++ codeLines rest := by
  obtain ⟨_, _, h3, h4⟩ := good_lines h
  have := isLines_unlines ls h4 rest
  rw [h3] at this
  exact this

theorem splitLines_end : ∀ l : Str, l ≠ [] → '\n' ∉ l → splitLines l = [l]
  | [], h, _ => absurd rfl h
  | [c], _, h => by
    have : c ≠ '\n' := fun e => h (by simp [e])
    simp [splitLines, this]
  | c :: c' :: l, _, h => by
    have : c ≠ '\n' := fun e => h (by simp [e])
    rw [splitLines, if_neg this, splitLines_end (c' :: l) (by simp) (fun hm => h (List.mem_cons_of_mem _ hm))]

theorem codeLines_end {l : Str} {p : ℕ × Spec.PyLang.Line} (h : CodeLine l p) : codeLines l = [l] := by
  rw [codeLines, splitLines_end l (by rintro rfl; have := h.code; revert this; decide) h.nl]
  simp [h.code]

end Interp.PyParse
