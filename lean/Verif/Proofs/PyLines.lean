import Verif.Proofs.PyParse
import Mathlib.Data.List.Forall2
import Mathlib.Data.List.TakeWhile
import Mathlib.Algebra.Order.Monoid.Unbundled.Basic

/-!
# Round trip of the parser: tokens of a line, lines, blocks
-/

namespace Interp.PyParse
open Interp.Spec.PyLang

/-! ### Characters to tokens -/

/-- Pieces of a line. -/
inductive Piece where
  | tok (t : Tok)
  | sp
  | str (q : Char) (s : Str)

def spellOp : Op → Str
  | .lpar => ['('] | .rpar => [')'] | .lbrack => ['['] | .rbrack => [']']
  | .comma => [','] | .colon => [':'] | .semi => [';'] | .dot => ['.'] | .eq => ['=']
  | .plus => ['+'] | .minus => ['-'] | .star => ['*'] | .slash => ['/'] | .lt => ['<'] | .gt => ['>']
  | .kIf => ['i', 'f'] | .kElif => ['e', 'l', 'i', 'f'] | .kElse => ['e', 'l', 's', 'e'] | .kFor => ['f', 'o', 'r']
  | .kIn => ['i', 'n'] | .kReturn => ['r', 'e', 't', 'u', 'r', 'n']
  | .kContinue => ['c', 'o', 'n', 't', 'i', 'n', 'u', 'e'] | .kDef => ['d', 'e', 'f'] | .kOr => ['o', 'r']

def spellTok : Tok → Str
  | .name s => s
  | .int n => Nat.toDigits 10 n
  | .float n => Nat.toDigits 10 n ++ ['.', '0']
  | .str _ => []
  | .op o => spellOp o

def Piece.spell : Piece → Str
  | .tok t => spellTok t
  | .sp => [' ']
  | .str q s => q :: (s ++ [q])

def spell : List Piece → Str
  | [] => []
  | p :: ps => p.spell ++ spell ps

def Piece.toks : Piece → List Tok
  | .tok t => [t]
  | .sp => []
  | .str _ s => [.str s]

def toksOf : List Piece → List Tok
  | [] => []
  | p :: ps => p.toks ++ toksOf ps

/-- Identifiers. -/
structure IsName (s : Str) : Prop where
  head : ∃ c r, s = c :: r ∧ c.isDigit = false ∧ c ≠ ' ' ∧ c ≠ '#'
  chars : ∀ c ∈ s, idChar c = true
  kw : keyword s = none

def symbol : Op → Bool
  | .kIf | .kElif | .kElse | .kFor | .kIn | .kReturn | .kContinue | .kDef | .kOr => false
  | _ => true

/-- What may follow a token. -/
def Sep : Tok → Str → Prop
  | _, [] => True
  | .op o, c :: _ => symbol o = true ∨ idChar c = false
  | .name _, c :: _ => idChar c = false
  | .int _, c :: _ => idChar c = false ∧ c ≠ '.'
  | .float _, c :: _ => idChar c = false
  | .str _, _ => False

def okTok : Tok → Prop
  | .name s => IsName s
  | .str _ => False
  | _ => True

def ok : List Piece → Prop
  | [] => True
  | .sp :: ps => ok ps
  | .str q s :: ps => (q = '"' ∨ q = '\'') ∧ q ∉ s ∧ '\\' ∉ s ∧ ok ps
  | .tok t :: ps => okTok t ∧ Sep t (spell ps) ∧ ok ps

theorem idChar_digit {c : Char} (h : c.isDigit = true) : idChar c = true := by
  simp [idChar, Char.isAlphanum, h]

theorem takeWhile_all {p : Char → Bool} (w : Str) (h : ∀ c ∈ w, p c = true) {r : Str}
    (hr : ∀ c r', r = c :: r' → p c = false) : (w ++ r).takeWhile p = w ∧ (w ++ r).dropWhile p = r := by
  induction w with
  | nil =>
    cases r with
    | nil => exact ⟨rfl, rfl⟩
    | cons c r => simp [List.takeWhile, List.dropWhile, hr c r rfl]
  | cons c w ih =>
    have hc := h c (by simp)
    have := ih fun c hc => h c (by simp [hc])
    simp [List.takeWhile, List.dropWhile, hc, this]

theorem digits_all {n : ℕ} {c : Char} (h : c ∈ Nat.toDigits 10 n) : c.isDigit = true :=
  Nat.isDigit_of_mem_toDigits (b := 10) (by norm_num) (by norm_num) h

theorem digits_cons (n : ℕ) : ∃ c r, Nat.toDigits 10 n = c :: r ∧ c.isDigit = true := by
  cases h : Nat.toDigits 10 n with
  | nil => exact absurd h Nat.toDigits_ne_nil
  | cons c r => exact ⟨c, r, rfl, digits_all (n := n) (h ▸ by simp)⟩

theorem decode_digits (n : ℕ) : decode (Nat.toDigits 10 n) = n :=
  Nat.ofDigitChars_toDigits (by norm_num) (by norm_num)

theorem digit_ne {c : Char} (h : c.isDigit = true) : c ≠ ' ' ∧ c ≠ '#' ∧ c ≠ '.' := by
  refine ⟨?_, ?_, ?_⟩ <;> rintro rfl <;> simp at h

/-- A word. -/
theorem lex_word {w r : Str} (hh : ∃ c s, w = c :: s ∧ c.isDigit = false ∧ c ≠ ' ' ∧ c ≠ '#')
    (hc : ∀ c ∈ w, idChar c = true) (hr : ∀ c r', r = c :: r' → idChar c = false) (n : ℕ) :
    lex (n + 1) (w ++ r) = (lex n r).map (wordTok w :: ·) := by
  obtain ⟨c, s, rfl, h1, h2, h3⟩ := hh
  have h4 := hc c (by simp)
  obtain ⟨e1, e2⟩ := takeWhile_all (c :: s) hc hr
  rw [List.cons_append] at e1 e2 ⊢
  rw [lex, if_neg h2, if_neg h3, if_neg (by simp [h1]), if_pos h4, e1, e2]

/-- An integer. -/
theorem lex_int {m : ℕ} {r : Str} (hr : ∀ c r', r = c :: r' → idChar c = false ∧ c ≠ '.') (n : ℕ) :
    lex (n + 1) (Nat.toDigits 10 m ++ r) = (lex n r).map (.int m :: ·) := by
  obtain ⟨c, s, hs, h1⟩ := digits_cons m
  obtain ⟨h2, h3, _⟩ := digit_ne h1
  obtain ⟨e1, e2⟩ := takeWhile_all (p := Char.isDigit) (Nat.toDigits 10 m) (fun _ => digits_all) (r := r) (by
    intro c r' h
    cases hd : c.isDigit with
    | false => rfl
    | true => have := (hr c r' h).1; rw [idChar_digit hd] at this; cases this)
  have e3 := decode_digits m
  rw [hs, List.cons_append] at e1 e2
  rw [hs] at e3
  rw [hs, List.cons_append, lex, if_neg h2, if_neg h3, if_pos h1, e2]
  · rw [e1, e3]
    cases r with
    | nil => rfl
    | cons d r =>
      have := (hr d r rfl).2
      split
      · rename_i h; simp at h; exact absurd h.1 this
      · rfl

/-- A float. -/
theorem lex_float {m : ℕ} {r : Str} (hr : ∀ c r', r = c :: r' → idChar c = false) (n : ℕ) :
    lex (n + 1) (Nat.toDigits 10 m ++ '.' :: '0' :: r) = (lex n r).map (.float m :: ·) := by
  obtain ⟨c, s, hs, h1⟩ := digits_cons m
  obtain ⟨h2, h3, _⟩ := digit_ne h1
  obtain ⟨e1, e2⟩ := takeWhile_all (p := Char.isDigit) (Nat.toDigits 10 m) (fun _ => digits_all) (r := '.' :: '0' :: r) (by
    intro c r' h
    simp at h
    rw [← h.1]; rfl)
  have e3 := decode_digits m
  have e4 := takeWhile_all (p := Char.isDigit) ['0'] (by simp) (r := r) (by
    intro c r' h
    cases hd : c.isDigit with
    | false => rfl
    | true => have := hr c r' h; rw [idChar_digit hd] at this; cases this)
  rw [hs, List.cons_append] at e1 e2
  rw [hs] at e3
  rw [hs, List.cons_append, lex, if_neg h2, if_neg h3, if_pos h1, e2]
  simp only [e1, e3]
  have e5 : ('0' :: r).takeWhile Char.isDigit = ['0'] := e4.1
  have e6 : ('0' :: r).dropWhile Char.isDigit = r := e4.2
  rw [e5, e6]; rfl

theorem lex_str {q : Char} {s r : Str} (hq : q = '"' ∨ q = '\'') (hs : q ∉ s) (n : ℕ) :
    lex (n + 1) (q :: (s ++ q :: r)) = (lex n r).map (.str s :: ·) := by
  obtain ⟨e1, e2⟩ := takeWhile_all (p := (· != q)) s (by
    intro c hc
    simp only [bne_iff_ne, ne_eq]
    rintro rfl; exact hs hc) (r := q :: r) (by
    intro c r' h; simp at h; simp [h.1])
  have h1 : q ≠ ' ' := by rcases hq with rfl | rfl <;> decide
  have h2 : q ≠ '#' := by rcases hq with rfl | rfl <;> decide
  have h3 : ¬ q.isDigit = true := by rcases hq with rfl | rfl <;> decide
  have h4 : ¬ idChar q = true := by rcases hq with rfl | rfl <;> decide
  rw [lex, if_neg h1, if_neg h2, if_neg h3, if_neg h4, if_pos hq]
  simp only [e1, e2]

theorem lex_symbol {o : Op} (ho : symbol o = true) (r : Str) (n : ℕ) :
    lex (n + 1) (spellOp o ++ r) = (lex n r).map (.op o :: ·) := by
  cases o <;> first | (simp [symbol] at ho; done) | rfl

theorem wordTok_kw {o : Op} (ho : symbol o = false) : wordTok (spellOp o) = .op o := by
  cases o <;> first | (simp [symbol] at ho; done) | rfl

theorem kw_word {o : Op} (ho : symbol o = false) :
    (∃ c s, spellOp o = c :: s ∧ c.isDigit = false ∧ c ≠ ' ' ∧ c ≠ '#') ∧ ∀ c ∈ spellOp o, idChar c = true := by
  cases o <;> first | (simp [symbol] at ho; done) | exact ⟨⟨_, _, rfl, by decide, by decide, by decide⟩, by decide⟩

/-- Lexing undoes spelling. -/
theorem lex_spell : ∀ (ps : List Piece), ok ps → Ev (fun n => lex n (spell ps)) (toksOf ps)
  | [], _ => ⟨0, fun n _ => by cases n <;> rfl⟩
  | .sp :: ps, h => Ev.succ (fun _ => rfl) (lex_spell ps h)
  | .str q s :: ps, h => by
    obtain ⟨h1, h2, _, h3⟩ := h
    refine Ev.succ (g := fun n => (lex n (spell ps)).map (.str s :: ·)) (fun n => ?_) (Ev.map _ (lex_spell ps h3))
    have := lex_str (r := spell ps) h1 h2 n
    simpa [spell, Piece.spell] using this
  | .tok (.name s) :: ps, h => by
    obtain ⟨h1, h2, h3⟩ := h
    refine Ev.succ (g := fun n => (lex n (spell ps)).map (.name s :: ·)) (fun n => ?_) (Ev.map _ (lex_spell ps h3))
    have := lex_word (r := spell ps) h1.head h1.chars (by
      intro c r' hr; rw [hr] at h2; exact h2) n
    rwa [show wordTok s = .name s by simp [wordTok, h1.kw]] at this
  | .tok (.int m) :: ps, h => by
    obtain ⟨h1, h2, h3⟩ := h
    exact Ev.succ (g := fun n => (lex n (spell ps)).map (.int m :: ·)) (fun n => lex_int (by
      intro c r' hr; rw [hr] at h2; exact h2) n) (Ev.map _ (lex_spell ps h3))
  | .tok (.float m) :: ps, h => by
    obtain ⟨h1, h2, h3⟩ := h
    refine Ev.succ (g := fun n => (lex n (spell ps)).map (.float m :: ·)) (fun n => ?_) (Ev.map _ (lex_spell ps h3))
    have := lex_float (m := m) (r := spell ps) (by intro c r' hr; rw [hr] at h2; exact h2) n
    simpa [spell, Piece.spell, spellTok] using this
  | .tok (.str _) :: ps, h => h.1.elim
  | .tok (.op o) :: ps, h => by
    obtain ⟨h1, h2, h3⟩ := h
    refine Ev.succ (g := fun n => (lex n (spell ps)).map (.op o :: ·)) (fun n => ?_) (Ev.map _ (lex_spell ps h3))
    cases ho : symbol o with
    | true => exact lex_symbol ho _ n
    | false =>
      obtain ⟨k1, k2⟩ := kw_word ho
      have := lex_word (r := spell ps) k1 k2 (by
        intro c r' hr; rw [hr] at h2
        rcases h2 with h2 | h2
        · rw [ho] at h2; cases h2
        · exact h2) n
      rwa [wordTok_kw ho] at this

/-- No backslash in a spelled line. -/
theorem no_backslash : ∀ (ps : List Piece), ok ps → '\\' ∉ spell ps
  | [], _ => by simp [spell]
  | .sp :: ps, h => by
    have := no_backslash ps h
    simpa [spell, Piece.spell] using this
  | .str q s :: ps, h => by
    obtain ⟨h1, _, h2, h3⟩ := h
    have := no_backslash ps h3
    rcases h1 with rfl | rfl <;> simp [spell, Piece.spell, h2, this]
  | .tok t :: ps, h => by
    obtain ⟨h1, _, h3⟩ := h
    have := no_backslash ps h3
    simp only [spell, Piece.spell, List.mem_append, this, or_false]
    have hd : ∀ n, '\\' ∉ Nat.toDigits 10 n := fun n hn => by have := digits_all hn; simp at this
    cases t with
    | name s => intro hs; exact absurd (h1.chars _ hs) (by decide)
    | int n => exact hd n
    | float n => simp [spellTok, hd n]
    | str s => exact h1.elim
    | op o => cases o <;> decide

theorem spell_append (ps qs : List Piece) : spell (ps ++ qs) = spell ps ++ spell qs := by
  induction ps with
  | nil => rfl
  | cons p ps ih => simp [spell, ih]

theorem toksOf_append (ps qs : List Piece) : toksOf (ps ++ qs) = toksOf ps ++ toksOf qs := by
  induction ps with
  | nil => rfl
  | cons p ps ih => simp [toksOf, ih]

/-- A string after which every token ends. -/
def Brk (s : Str) : Prop := ∀ c r, s = c :: r → idChar c = false ∧ c ≠ '.'

theorem Brk.sep {s : Str} (h : Brk s) {t : Tok} (ht : okTok t) : Sep t s := by
  cases s with
  | nil => cases t <;> first | trivial | exact ht.elim
  | cons c r =>
    have := h c r rfl
    cases t with
    | name s => exact this.1
    | int n => exact this
    | float n => exact this.1
    | str s => exact ht.elim
    | op o => exact Or.inr this.1

/-! ### Tokens to lines -/

def simpleToks : Simple → List Tok
  | .assign t e => toks t ++ .op .eq :: toks e
  | .expr e => toks e
  | .ret e => .op .kReturn :: toks e
  | .cont => [.op .kContinue]

def wfSimple : Simple → Prop
  | .assign t e => wf .expr t ∧ wf .expr e
  | .expr e => wf .expr e
  | .ret e => wf .expr e
  | .cont => True

def simplesToks : List Simple → Bool → List Tok
  | [], _ => []
  | [s], t => simpleToks s ++ if t then [.op .semi] else []
  | s :: ss, t => simpleToks s ++ .op .semi :: simplesToks ss t

def paramToks : List (Str × Option PExpr) → List Tok
  | [] => [.op .rpar, .op .colon]
  | [(s, none)] => [.name s, .op .rpar, .op .colon]
  | [(s, some e)] => .name s :: .op .eq :: (toks e ++ [.op .rpar, .op .colon])
  | (s, none) :: ps => .name s :: .op .comma :: paramToks ps
  | (s, some e) :: ps => .name s :: .op .eq :: (toks e ++ .op .comma :: paramToks ps)

def headerToks : Header → List Tok
  | .ifH c => .op .kIf :: (toks c ++ [.op .colon])
  | .elifH c => .op .kElif :: (toks c ++ [.op .colon])
  | .elseH => [.op .kElse, .op .colon]
  | .forH x e => .op .kFor :: .name x :: .op .kIn :: (toks e ++ [.op .colon])
  | .defH f ps => .op .kDef :: .name f :: .op .lpar :: paramToks ps

/-- The tokens of a line. -/
inductive LineToks : Line → List Tok → Prop where
  | simple (ss : List Simple) (t : Bool) : ss ≠ [] → (∀ s ∈ ss, wfSimple s) → LineToks (.simple ss) (simplesToks ss t)
  | ifH (c) : wf .expr c → LineToks (.header (.ifH c)) (headerToks (.ifH c))
  | elifH (c) : wf .expr c → LineToks (.header (.elifH c)) (headerToks (.elifH c))
  | elseH : LineToks (.header .elseH) (headerToks .elseH)
  | forH (x e) : wf .expr e → LineToks (.header (.forH x e)) (headerToks (.forH x e))
  | defH (f ps) : ps ≠ [] → (∀ p ∈ ps, ∀ e, p.2 = some e → wf .expr e) → LineToks (.header (.defH f ps)) (headerToks (.defH f ps))

theorem toks_head' {e : PExpr} (h : wf .expr e) : ∃ t ts, toks e = t :: ts ∧ ∀ c, c ≠ .lpar → c ≠ .minus → t ≠ .op c := by
  induction e with
  | name s => exact ⟨_, _, rfl, by simp⟩
  | int s => exact ⟨_, _, rfl, by simp⟩
  | float s => exact ⟨_, _, rfl, by simp⟩
  | str s => exact ⟨_, _, rfl, by simp⟩
  | paren e ih => exact ⟨_, _, rfl, by intro c h1 h2 h; exact h1 (by simpa using h.symm)⟩
  | tuple e t ih => exact ⟨_, _, rfl, by intro c h1 h2 h; exact h1 (by simpa using h.symm)⟩
  | call f es ih =>
    obtain ⟨t, ts, h1, h2⟩ := ih h.1
    exact ⟨t, _, by rw [toks, h1]; rfl, h2⟩
  | index f es ih =>
    obtain ⟨t, ts, h1, h2⟩ := ih h.1
    exact ⟨t, _, by rw [toks, h1]; rfl, h2⟩
  | attr f s ih =>
    obtain ⟨t, ts, h1, h2⟩ := ih h.1
    exact ⟨t, _, by rw [toks, h1]; rfl, h2⟩
  | full => exact h.elim
  | neg e ih => exact ⟨_, _, rfl, by intro c h1 h2 h; exact h2 (by simpa using h.symm)⟩
  | bin o a b iha ihb =>
    obtain ⟨t, ts, h1, h2⟩ := iha h.1
    exact ⟨t, _, by rw [toks, h1]; rfl, h2⟩
  | nil => exact h.elim
  | cons e es => exact h.elim

theorem pSimple_other {ts : List Tok} (h1 : ts.head? ≠ some (.op .kReturn)) (h2 : ts.head? ≠ some (.op .kContinue)) (n : ℕ) :
    pSimple n ts = (pBin n 0 ts).bind fun p =>
      match p.2 with
      | .op .eq :: r => (pBin n 0 r).map fun q => (.assign p.1 q.1, q.2)
      | _ => some (.expr p.1, p.2) := by
  unfold pSimple
  split
  · simp at h1
  · simp at h2
  · rfl

theorem simple_ev {s : Simple} (hw : wfSimple s) {rest : List Tok} (hr : rest = [] ∨ ∃ r, rest = .op .semi :: r) :
    Ev (fun n => pSimple n (simpleToks s ++ rest)) (s, rest) := by
  have hs : ∀ l, Stops l rest := by
    intro l
    rcases hr with rfl | ⟨r, rfl⟩
    · trivial
    · exact stops_close (by simp) _
  have hne : ∀ r, rest ≠ .op .eq :: r := by
    rintro r rfl
    rcases hr with hr | ⟨r', hr⟩ <;> simp at hr
  cases s with
  | assign t e =>
    obtain ⟨u, us, h1, h2⟩ := toks_head' hw.1
    simp only [simpleToks, List.append_assoc, List.cons_append]
    refine Ev.congr (fun n => pSimple_other (by rw [h1]; simpa using h2 _ (by simp) (by simp))
      (by rw [h1]; simpa using h2 _ (by simp) (by simp)) n) ?_
    refine Ev.bind (g := fun n p => match p.2 with
      | .op .eq :: r => (pBin n 0 r).map fun q => (Simple.assign p.1 q.1, q.2)
      | _ => some (.expr p.1, p.2)) (read_expr hw.1 (stops_close (o := .eq) (by simp) _)) ?_
    exact Ev.map (fun q : PExpr × List Tok => (Simple.assign t q.1, q.2)) (read_expr hw.2 (hs 0))
  | expr e =>
    have hw : wf .expr e := hw
    obtain ⟨u, us, h1, h2⟩ := toks_head' hw
    simp only [simpleToks]
    refine Ev.congr (fun n => pSimple_other (by rw [h1]; simpa using h2 _ (by simp) (by simp))
      (by rw [h1]; simpa using h2 _ (by simp) (by simp)) n) ?_
    refine Ev.bind (g := fun n p => match p.2 with
      | .op .eq :: r => (pBin n 0 r).map fun q => (Simple.assign p.1 q.1, q.2)
      | _ => some (.expr p.1, p.2)) (read_expr hw (hs 0)) ?_
    refine Ev.congr (g := fun _ => some (.expr e, rest)) (fun n => ?_) (Ev.pure _)
    rcases hr with rfl | ⟨r, rfl⟩ <;> rfl
  | ret e =>
    have hw : wf .expr e := hw
    exact Ev.map (fun p : PExpr × List Tok => (Simple.ret p.1, p.2)) (read_expr hw (hs 0))
  | cont => exact Ev.pure _

theorem simples_ev : ∀ (ss : List Simple) (t : Bool), ss ≠ [] → (∀ s ∈ ss, wfSimple s) →
    Ev (fun n => pSimples n (simplesToks ss t)) ss
  | [], _, h, _ => absurd rfl h
  | [s], t, _, hw => by
    refine Ev.succ (g := fun n => (pSimple n (simplesToks [s] t)).bind fun p =>
      match p.2 with
      | [] => some [p.1]
      | [.op .semi] => some [p.1]
      | .op .semi :: r => (pSimples n r).map (p.1 :: ·)
      | _ => none) (fun n => rfl) ?_
    refine Ev.bind (g := fun n (p : Simple × List Tok) => match p.2 with
      | [] => some [p.1]
      | [.op .semi] => some [p.1]
      | .op .semi :: r => (pSimples n r).map (p.1 :: ·)
      | _ => none) (a := (s, if t then [.op .semi] else [])) ?_ ?_
    · exact simple_ev (hw s (by simp)) (by cases t <;> simp)
    · cases t <;> exact Ev.pure _
  | s :: s' :: ss, t, _, hw => by
    refine Ev.succ (g := fun n => (pSimple n (simplesToks (s :: s' :: ss) t)).bind fun p =>
      match p.2 with
      | [] => some [p.1]
      | [.op .semi] => some [p.1]
      | .op .semi :: r => (pSimples n r).map (p.1 :: ·)
      | _ => none) (fun n => rfl) ?_
    refine Ev.bind (g := fun n (p : Simple × List Tok) => match p.2 with
      | [] => some [p.1]
      | [.op .semi] => some [p.1]
      | .op .semi :: r => (pSimples n r).map (p.1 :: ·)
      | _ => none) (a := (s, .op .semi :: simplesToks (s' :: ss) t)) ?_ ?_
    · exact simple_ev (hw s (by simp)) (by simp)
    · have hne : simplesToks (s' :: ss) t ≠ [] := by
        have hw' := hw s' (by simp)
        have : simpleToks s' ≠ [] := by
          cases s' with
          | assign a b => simp [simpleToks]
          | expr e => obtain ⟨u, us, h1, _⟩ := toks_head' (e := e) hw'; simp [simpleToks, h1]
          | ret e => simp [simpleToks]
          | cont => simp [simpleToks]
        cases ss <;> simp [simplesToks, this]
      refine Ev.congr (g := fun n => (pSimples n (simplesToks (s' :: ss) t)).map (s :: ·)) (fun n => ?_)
        (Ev.map _ (simples_ev (s' :: ss) t (by simp) fun x hx => hw x (List.mem_cons_of_mem _ hx)))
      cases h : simplesToks (s' :: ss) t with
      | nil => exact absurd h hne
      | cons u us => rfl

theorem cond_ev {c : PExpr} (hw : wf .expr c) : Ev (fun n => pCond n (toks c ++ [.op .colon])) c :=
  Ev.bind (g := fun _ (p : PExpr × List Tok) => if p.2 = [.op .colon] then some p.1 else none) (a := (c, [.op .colon]))
    (read_expr hw (stops_close (o := .colon) (by simp) _)) (Ev.congr (g := fun _ => some c) (fun _ => by simp) (Ev.pure _))

theorem params_ev : ∀ (ps : List (Str × Option PExpr)), ps ≠ [] → (∀ p ∈ ps, ∀ e, p.2 = some e → wf .expr e) →
    Ev (fun n => pParams n (paramToks ps)) ps
  | [], h, _ => absurd rfl h
  | [(s, none)], _, _ => Ev.succ (g := fun _ => some [(s, none)]) (fun n => by rw [paramToks, pParams]) (Ev.pure _)
  | [(s, some e)], _, hw => by
    refine Ev.succ (g := fun n => (pBin n 0 (toks e ++ [.op .rpar, .op .colon])).bind fun p =>
      match p.2 with
      | .op .comma :: r => (pParams n r).map ((s, some p.1) :: ·)
      | [.op .rpar, .op .colon] => some [(s, some p.1)]
      | _ => none) (fun n => rfl) ?_
    refine Ev.bind (g := fun n p => match p.2 with
      | .op .comma :: r => (pParams n r).map ((s, some p.1) :: ·)
      | [.op .rpar, .op .colon] => some [(s, some p.1)]
      | _ => none) (read_expr (hw (s, some e) (by simp) e rfl) (stops_close (o := .rpar) (by simp) [.op .colon]))
      (Ev.pure [(s, some e)])
  | (s, none) :: p :: ps, _, hw => by
    exact Ev.succ (g := fun n => (pParams n (paramToks (p :: ps))).map ((s, none) :: ·)) (fun n => rfl)
      (Ev.map _ (params_ev (p :: ps) (by simp) fun x hx => hw x (List.mem_cons_of_mem _ hx)))
  | (s, some e) :: p :: ps, _, hw => by
    refine Ev.succ (g := fun n => (pBin n 0 (toks e ++ .op .comma :: paramToks (p :: ps))).bind fun p =>
      match p.2 with
      | .op .comma :: r => (pParams n r).map ((s, some p.1) :: ·)
      | [.op .rpar, .op .colon] => some [(s, some p.1)]
      | _ => none) (fun n => rfl) ?_
    refine Ev.bind (g := fun n p => match p.2 with
      | .op .comma :: r => (pParams n r).map ((s, some p.1) :: ·)
      | [.op .rpar, .op .colon] => some [(s, some p.1)]
      | _ => none) (read_expr (hw (s, some e) (by simp) e rfl) (stops_close (o := .comma) (by simp) _)) ?_
    exact Ev.map (fun r => (s, some e) :: r) (params_ev (p :: ps) (by simp) fun x hx => hw x (List.mem_cons_of_mem _ hx))

theorem pLine_simple {ts : List Tok} (h : ∀ c ∈ [Op.kIf, .kElif, .kElse, .kFor, .kDef], ts.head? ≠ some (.op c)) (n : ℕ) :
    pLine n ts = (pSimples n ts).map .simple := by
  unfold pLine
  split
  · exact absurd rfl (h .kIf (by simp))
  · exact absurd rfl (h .kElif (by simp))
  · exact absurd rfl (h .kElse (by simp))
  · exact absurd rfl (h .kFor (by simp))
  · exact absurd rfl (h .kDef (by simp))
  · rfl

theorem line_ev {L : Line} {ts : List Tok} (h : LineToks L ts) : Ev (fun n => pLine n ts) L := by
  cases h with
  | simple ss t hne hw =>
    refine Ev.congr (fun n => pLine_simple ?_ n) (Ev.map _ (simples_ev ss t hne hw))
    intro c hc
    obtain ⟨s, ss', rfl⟩ := List.exists_cons_of_ne_nil hne
    have hs := hw s (by simp)
    have : ∃ u us, simpleToks s = u :: us ∧ u ≠ .op c := by
      cases s with
      | assign t e =>
        obtain ⟨u, us, h1, h2⟩ := toks_head' hs.1
        exact ⟨u, _, by rw [simpleToks, h1]; rfl, h2 c (by rintro rfl; simp at hc) (by rintro rfl; simp at hc)⟩
      | expr e =>
        obtain ⟨u, us, h1, h2⟩ := toks_head' (e := e) hs
        exact ⟨u, _, by rw [simpleToks, h1], h2 c (by rintro rfl; simp at hc) (by rintro rfl; simp at hc)⟩
      | ret e => exact ⟨_, _, rfl, by intro h; simp at h; subst h; simp at hc⟩
      | cont => exact ⟨_, _, rfl, by intro h; simp at h; subst h; simp at hc⟩
    obtain ⟨u, us, h1, h2⟩ := this
    cases ss' <;> simp [simplesToks, h1, h2]
  | ifH c hw => exact Ev.map (fun c => Line.header (.ifH c)) (cond_ev hw)
  | elifH c hw => exact Ev.map (fun c => Line.header (.elifH c)) (cond_ev hw)
  | elseH => exact Ev.pure _
  | forH x e hw => exact Ev.map (fun e => Line.header (.forH x e)) (cond_ev hw)
  | defH f ps hne hw => exact Ev.map (fun ps => Line.header (.defH f ps)) (params_ev ps hne hw)

/-- The text of a line means a line. -/
def Reads (l : Str) (p : ℕ × Line) : Prop := Ev (fun n => pText n l) p

theorem spell_replicate (k : ℕ) (ps : List Piece) : spell (List.replicate k .sp ++ ps) = List.replicate k ' ' ++ spell ps := by
  induction k with
  | zero => rfl
  | succ k ih => simp only [List.replicate_succ, List.cons_append, spell, Piece.spell, ih]; rfl

theorem toksOf_replicate (k : ℕ) (ps : List Piece) : toksOf (List.replicate k .sp ++ ps) = toksOf ps := by
  induction k with
  | zero => rfl
  | succ k ih => simp only [List.replicate_succ, List.cons_append, toksOf, Piece.toks, ih]; rfl

theorem ok_replicate (k : ℕ) (ps : List Piece) : ok (List.replicate k .sp ++ ps) ↔ ok ps := by
  induction k with
  | zero => rfl
  | succ k ih => simpa only [List.replicate_succ, List.cons_append, ok] using ih

theorem reads {k : ℕ} {ps : List Piece} {L : Line} (h : ok ps) (hs : ∀ r, spell ps ≠ ' ' :: r) (hL : LineToks L (toksOf ps)) :
    Reads (List.replicate k ' ' ++ spell ps) (k, L) := by
  have h1 := lex_spell (List.replicate k .sp ++ ps) ((ok_replicate k ps).2 h)
  rw [spell_replicate, toksOf_replicate] at h1
  have hk : ((List.replicate k ' ' ++ spell ps).takeWhile (· == ' ')).length = k := by
    rw [(takeWhile_all (p := (· == ' ')) (List.replicate k ' ') (by simp) (r := spell ps) (by
      intro c r hc
      simp only [beq_eq_false_iff_ne, ne_eq]
      rintro rfl; exact hs r hc)).1, List.length_replicate]
  refine Ev.bind (g := fun n ts => (pLine n ts).map fun L => (((List.replicate k ' ' ++ spell ps).takeWhile (· == ' ')).length, L)) h1 ?_
  simp only [hk]
  exact Ev.map (fun L => (k, L)) (line_ev hL)

/-! ### Lines to blocks -/

/-- The lines of a block indented by `k`; the statements inside are indented by four more. -/
def linesOf : ℕ → Block → List (ℕ × Line)
  | _, .nil => []
  | k, .simple ss rest => (k, .simple ss) :: linesOf k rest
  | k, .block h body rest => (k, .header h) :: (linesOf (k + 4) body ++ linesOf k rest)

/-- No block is empty. -/
def full : Block → Prop
  | .nil => True
  | .simple _ rest => full rest
  | .block _ body rest => body ≠ .nil ∧ full body ∧ full rest

theorem linesOf_head {b : Block} (h : b ≠ .nil) (k : ℕ) : ∃ L ls, linesOf k b = (k, L) :: ls := by
  cases b with
  | nil => exact absurd rfl h
  | simple ss rest => exact ⟨_, _, rfl⟩
  | block h body rest => exact ⟨_, _, rfl⟩

theorem block_ev {b : Block} (hf : full b) : ∀ (k : ℕ) (rest : List (ℕ × Line)),
    (∀ i L r, rest = (i, L) :: r → i < k) → Ev (fun n => pBlock n k (linesOf k b ++ rest)) (b, rest) := by
  induction b with
  | nil =>
    intro k rest hr
    refine Ev.succ (g := fun _ => some (.nil, rest)) (fun n => ?_) (Ev.pure _)
    cases rest with
    | nil => rfl
    | cons p r =>
      obtain ⟨i, L⟩ := p
      simp only [linesOf, List.nil_append, pBlock]
      rw [if_pos (hr i L r rfl)]
  | simple ss b ih =>
    intro k rest hr
    refine Ev.succ (g := fun n => (pBlock n k (linesOf k b ++ rest)).map fun p => (.simple ss p.1, p.2)) (fun n => ?_)
      (Ev.map (fun p : Block × List (ℕ × Line) => (Block.simple ss p.1, p.2)) (ih hf k rest hr))
    simp only [linesOf, List.cons_append, pBlock]
    rw [if_neg (by omega), if_neg (by omega)]
  | block h body b ih1 ih2 =>
    intro k rest hr
    obtain ⟨hn, hf1, hf2⟩ := hf
    obtain ⟨L, ls, hL⟩ := linesOf_head hn (k + 4)
    refine Ev.succ (g := fun n => (pBlock n (k + 4) (linesOf (k + 4) body ++ (linesOf k b ++ rest))).bind fun p =>
      (pBlock n k p.2).map fun q => (.block h p.1 q.1, q.2)) (fun n => ?_) ?_
    · simp only [linesOf, List.cons_append, List.append_assoc, pBlock]
      rw [if_neg (by omega), if_neg (by omega), hL]
      simp only [List.cons_append]
      rw [if_pos (by omega)]
    · refine Ev.bind (g := fun n p => (pBlock n k p.2).map fun q => (Block.block h p.1 q.1, q.2))
        (ih1 hf1 (k + 4) (linesOf k b ++ rest) ?_) ?_
      · intro i L' r hi
        cases b with
        | nil => have := hr i L' r (by simpa [linesOf] using hi); omega
        | simple ss b => simp [linesOf] at hi; omega
        | block h b1 b2 => simp [linesOf] at hi; omega
      · exact Ev.map (fun q : Block × List (ℕ × Line) => (Block.block h body q.1, q.2)) (ih2 hf2 k rest hr)

theorem mapM_ev {ls : List Str} {ps : List (ℕ × Line)} (h : List.Forall₂ Reads ls ps) : Ev (fun n => ls.mapM (pText n)) ps := by
  induction h with
  | nil => exact Ev.pure _
  | @cons l p ls ps h _ ih =>
    refine Ev.congr (g := fun n => (pText n l).bind fun a => (ls.mapM (pText n)).bind fun b => some (a :: b)) (fun n => ?_) ?_
    · rw [List.mapM_cons]; rfl
    · exact Ev.bind (g := fun n a => (ls.mapM (pText n)).bind fun b => some (a :: b)) h
        (Ev.bind (g := fun _ b => some (p :: b)) ih (Ev.pure _))

/-- A text whose joined lines are the lines of a block is read as that block. -/
theorem text_ev {ls : List Str} {b : Block} (hf : full b) (h : List.Forall₂ Reads (joinLines ls) (linesOf 0 b)) :
    Ev (fun n => pLines n ls) b := by
  refine Ev.bind (g := fun n ls => (pBlock n 0 ls).bind fun p => if p.2 = [] then some p.1 else none) (mapM_ev h) ?_
  have := block_ev hf 0 [] (by simp)
  rw [List.append_nil] at this
  exact Ev.bind (g := fun _ (p : Block × List (ℕ × Line)) => if p.2 = [] then some p.1 else none) this (Ev.pure _)

end Interp.PyParse
