import Verif.Model.Tempita

/-!
# What a template is

The source of a list of chunks, when a list of chunks is the reading of a text, and positions in a text.
-/

namespace Interp.Spec.Templates

open Tempita

/-- The text of a list of chunks. -/
def source : List Chunk → Str
  | [] => []
  | .text s :: cs => s ++ source cs
  | .code s _ :: cs => ['{', '{'] ++ s ++ ['}', '}'] ++ source cs

/-- A text without delimiters. -/
def NoDelim (s : Str) : Prop := ¬ ['{', '{'] <:+: s ∧ ¬ ['}', '}'] <:+: s

/-- Line and column of the place after `before`, both counted from 1. -/
def posAfter (before : Str) : Pos :=
  (before.count '\n' + 1, (before.reverse.takeWhile (· ≠ '\n')).length + 1)

/-- Reading from left to right: `cs` are the chunks of the text that follows `before`. Texts and codes contain no
delimiter, a delimiter is taken as far to the left as possible, and each code knows where it starts. -/
inductive Chunks : Str → List Chunk → Prop
  | nil {before} : Chunks before []
  | last {before s} : s ≠ [] → NoDelim s → Chunks before [.text s]
  | code {before s cs} : NoDelim s → s.getLast? ≠ some '}' → Chunks (before ++ ['{', '{'] ++ s ++ ['}', '}']) cs →
      Chunks before (.code s (posAfter (before ++ ['{', '{'])) :: cs)
  | text {before t s cs} : t ≠ [] → NoDelim t → t.getLast? ≠ some '{' → NoDelim s → s.getLast? ≠ some '}' →
      Chunks (before ++ t ++ ['{', '{'] ++ s ++ ['}', '}']) cs →
      Chunks before (.text t :: .code s (posAfter (before ++ t ++ ['{', '{'])) :: cs)

/-- Trimming: removes white space at the start of a text that follows a statement, and at the end of a text that precedes
one. -/
def Trimmed (before : Option Chunk) (after : Option Chunk) : Chunk → Chunk → Prop
  | .code s p, c => c = .code s p
  | .text t, c => ∃ a t' z, c = .text t' ∧ t = a ++ t' ++ z ∧ (∀ x ∈ a ++ z, isSpace x) ∧
      (a ≠ [] → ∃ s p, before = some (.code s p) ∧ isStatement s) ∧
      (z ≠ [] → ∃ s p, after = some (.code s p) ∧ isStatement s)

/-- The chunk before the `i`-th. -/
def prevOf (cs : List Chunk) (i : ℕ) : Option Chunk := if i = 0 then none else cs[i - 1]?

/-- Every chunk trimmed. -/
def AllTrimmed (cs ds : List Chunk) : Prop :=
  ds.length = cs.length ∧ ∀ i (c d : Chunk), cs[i]? = some c → ds[i]? = some d →
    Trimmed (prevOf cs i) cs[i + 1]? c d

end Interp.Spec.Templates
