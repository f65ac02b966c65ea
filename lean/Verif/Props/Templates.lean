import Verif.Proofs.TemplateMeaning

/-!
# The template engine: C92
-/

namespace Interp.Props
open Interp.Tempita Interp.Spec.Templates

/-- C92. The lexer reads a text as `cs` exactly if `cs` spells the text, has no delimiter inside a piece and takes each
delimiter as far to the left as possible, with the line and column of each code. So the reading is unique and loses nothing. -/
theorem C92_lexer (s : Str) (cs : List Chunk) : lexRaw s = .ok cs ↔ source cs = s ∧ Chunks [] cs := lexRaw_iff s cs

/-- C92. An error of the lexer is a `TemplateError`, at a place just after a delimiter. -/
theorem C92_lexer_error {s : Str} {e : TErr} (h : lexRaw s = .error e) : ∃ a z, s = a ++ z ∧
    (['{', '{'] <:+ a ∨ ['}', '}'] <:+ a) ∧ e = .template (posAfter a) := lexRaw_error h

/-- C92. Trimming changes no code, and removes from a text only white space, at its start if a statement precedes it, at
its end if a statement follows. -/
theorem C92_trim (cs : List Chunk) : AllTrimmed cs (trimLex cs) := trimLex_trimmed cs

/-- C92. A statement on a line of its own leaves no trace of its line. -/
theorem C92_trim_line {t u b b' st : Str} {p : Pos} {x y : Char} (hst : isStatement st) (hb : ∀ c ∈ b, c = ' ' ∨ c = '\t')
    (hb' : ∀ c ∈ b', c = ' ' ∨ c = '\t') (hx : isSpace x = false) (hy : y ∈ u) (hy' : isSpace y = false) :
    trimLex [.text (t ++ x :: '\n' :: b), .code st p, .text (b' ++ '\n' :: u)] =
      [.text (t ++ [x, '\n']), .code st p, .text u] := trimLex_own hst hb hb' hx hy hy'

/-- C92. The parser ends: its error is never the one for lack of depth. A `TemplateError` is at a place just after a delimiter. -/
theorem C92_parser {s : Str} {e : TErr} (h : parse s = .error e) : (∀ e', e ≠ .python e') ∧
    ∀ p, e = .template p → ∃ a z, s = a ++ z ∧ (['{', '{'] <:+ a ∨ ['}', '}'] <:+ a) ∧ p = posAfter a := parse_error h

/-- C92. A text that is written like an abstract template produces what the template means: texts, values of expressions
(through their filters), loops with `break` and `continue`, conditionals, in every nesting; and raises the exception
that the Python code inside raises first. -/
theorem C92_meaning {V NS : Type} (W : World V NS) {s : Str} {cs : List Chunk} {t : Tpls} (hs : lex s = .ok cs)
    (h : cs.map erase = t.toks) (hok : t.Ok false) (ns : NS) :
    substitute W s ns = match t.render W ns with
      | .ok r => .ok r.1
      | .error e => .error (.python e) := substitute_eq W hs h hok ns

/-- C92. A text without delimiters produces itself. -/
theorem C92_text {V NS : Type} (W : World V NS) {s : Str} (h : NoDelim s) (ns : NS) : substitute W s ns = .ok s := by
  by_cases h0 : s = []
  · subst h0
    exact C92_meaning W (cs := []) (t := .nil) rfl rfl trivial ns
  · have h1 : lexRaw s = .ok [.text s] := (C92_lexer _ _).2 ⟨by simp [source], .last h0 h⟩
    have h2 : lex s = .ok [.text s] := by unfold lex; rw [h1]; rfl
    have := C92_meaning W (t := .cons (.text s) .nil) h2 rfl ⟨trivial, trivial⟩ ns
    rw [this]
    simp [Tpls.render, Tpl.render, bind, Except.bind, pure, Except.pure]

section Examples

/-- Values are lists of words; the names are bound in a list. -/
def wordWorld : World (List Str) (List (Str × List Str)) where
  eval c ns := match ns.lookup c with
    | some v => .ok v
    | none => .error .value
  exec _ ns := .ok ns
  set ns x v := (x, v) :: ns
  has ns x := (ns.lookup x).isSome
  truth v := v ≠ []
  iter v := .ok (v.map fun w => [w])
  str v := .ok v.flatten
  call _ v := .ok v
  defV _ := []

/-- The template `a{{for i in xs}}[{{i}}]{{endfor}}b`. -/
def loopTpl : Tpls := .cons (.text c!"a") (.cons (.loop c!"i" c!"xs"
  (.cons (.text c!"[") (.cons (.expr c!"i") (.cons (.text c!"]") .nil)))) (.cons (.text c!"b") .nil))

theorem loopTpl_ok : loopTpl.Ok false := by
  refine ⟨trivial, ⟨⟨by decide, by decide +kernel⟩, ⟨⟨'x', rfl, by decide⟩, 's', rfl, by decide, by decide⟩,
    trivial, ⟨?_, ?_⟩, trivial, trivial⟩, trivial, trivial⟩ <;> decide +kernel

/-- C92: meaning of a loop. -/
example : substitute wordWorld c!"a{{for i in xs}}[{{i}}]{{endfor}}b" [(c!"xs", [c!"1", c!"23"])] =
    .ok c!"a[1][23]b" :=
  C92_meaning wordWorld (cs := [.text c!"a", .code c!"for i in xs" (1, 4), .text c!"[", .code c!"i" (1, 20), .text c!"]",
    .code c!"endfor" (1, 26), .text c!"b"]) (by decide +kernel) (by simp [loopTpl, Tpls.toks, Tpl.toks, erase]) loopTpl_ok _

/-- C92: and its error. -/
example : substitute wordWorld c!"a{{for i in xs}}[{{i}}]{{endfor}}b" [] = .error (.python .value) :=
  C92_meaning wordWorld (cs := [.text c!"a", .code c!"for i in xs" (1, 4), .text c!"[", .code c!"i" (1, 20), .text c!"]",
    .code c!"endfor" (1, 26), .text c!"b"]) (by decide +kernel) (by simp [loopTpl, Tpls.toks, Tpl.toks, erase]) loopTpl_ok _

/-- C92: text without delimiters, with single braces. -/
example : substitute wordWorld c!"x = {1: {2}}" [] = .ok c!"x = {1: {2}}" → False := by
  have : substitute wordWorld c!"x = {1: {2}}" [] = .error (.template (1, 13)) := by decide +kernel
  rw [this]; simp
example : substitute wordWorld c!"x = {1: 2}" [] = .ok c!"x = {1: 2}" :=
  C92_text _ (by unfold NoDelim; decide +kernel) _

/-- C92: reading, with positions. -/
example : lexRaw c!"a\nb{{x}}{c}" = .ok [.text c!"a\nb", .code c!"x" (2, 4), .text c!"{c}"] := by decide +kernel
example : lexRaw c!"a\nb{{x{{y}}" = .error (.template (2, 7)) := by decide +kernel

/-- C92: a statement on its own line. -/
example : trimLex [.text c!"x\n  ", .code c!"if y" (1, 1), .text c!" \nz"] =
    [.text c!"x\n", .code c!"if y" (1, 1), .text c!"z"] :=
  C92_trim_line (t := []) (b := c!"  ") (b' := c!" ") (by decide +kernel) (by decide) (by decide) (by decide)
    (List.mem_singleton.2 rfl) (by decide)

/-- C92: an unclosed conditional is reported at its opening, however deep. -/
example : parse c!"{{if a}}{{if b}}{{if c}}{{if d}}{{if e}}{{if f}}" = .error (.template (1, 43)) := by decide +kernel

end Examples

end Interp.Props
