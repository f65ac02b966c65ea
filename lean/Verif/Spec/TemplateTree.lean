import Verif.Model.Tempita
import Init.Data.List.SplitOn

/-!
# What a template means

Abstract templates: how they are written, and what they produce. `World` is the Python interpreter.
-/

namespace Interp.Spec.Templates

open Tempita

/-- A piece of a template file: text, or the inside of `{{...}}`. -/
inductive Tok where
  | text (s : Str)
  | code (s : Str)

/-- A chunk without its position. -/
def erase : Chunk → Tok
  | .text s => .text s
  | .code s _ => .code s

mutual
/-- Templates. -/
inductive Tpl where
  | text (s : Str)
  /-- `{{e}}` -/
  | expr (e : Str)
  /-- `{{py:c}}` -/
  | py (c : Str)
  /-- `{{#c}}` -/
  | comment (c : Str)
  | cont
  | brk
  /-- `{{for v in e}}body{{endfor}}` -/
  | loop (v e : Str) (body : Tpls)
  /-- `{{if c}}body{{elif ...}}...{{else}}...{{endif}}` -/
  | cond (c : Str) (body : Tpls) (rest : Branches)
/-- Sequences. -/
inductive Tpls where
  | nil
  | cons (t : Tpl) (ts : Tpls)
/-- The other branches of a conditional. -/
inductive Branches where
  | none
  | els (body : Tpls)
  | elif (c : Str) (body : Tpls) (rest : Branches)
end

mutual
/-- How a template is written. -/
def Tpl.toks : Tpl → List Tok
  | .text s => [.text s]
  | .expr e => [.code e]
  | .py c => [.code ("py:".toList ++ c)]
  | .comment c => [.code ("#".toList ++ c)]
  | .cont => [.code "continue".toList]
  | .brk => [.code "break".toList]
  | .loop v e body => .code ("for ".toList ++ v ++ " in ".toList ++ e) :: (body.toks ++ [.code "endfor".toList])
  | .cond c body rest => .code ("if ".toList ++ c) :: (body.toks ++ rest.toks)
def Tpls.toks : Tpls → List Tok
  | .nil => []
  | .cons t ts => t.toks ++ ts.toks
def Branches.toks : Branches → List Tok
  | .none => [.code "endif".toList]
  | .els body => .code "else".toList :: (body.toks ++ [.code "endif".toList])
  | .elif c body rest => .code ("elif ".toList ++ c) :: (body.toks ++ rest.toks)
end

/-- An expression that does not look like a statement. -/
def Plain (e : Str) : Prop :=
  (∀ k ∈ ["py:", "if ", "elif ", "for ", "default ", "inherit ", "def ", "#"], ¬ k.toList <+: strip e) ∧
  (∀ k ∈ ["continue", "break", "else", "if", "elif", "for", "endif", "endfor", "enddef"], strip e ≠ k.toList)

/-- An expression after a keyword: no white space around it, no colon at the end. -/
def Tight (e : Str) : Prop :=
  (∃ c, e.head? = some c ∧ isSpace c = false) ∧ ∃ c, e.getLast? = some c ∧ isSpace c = false ∧ c ≠ ':'

/-- A name. -/
def Name (v : Str) : Prop := v ≠ [] ∧ ∀ c ∈ v, isSpace c = false ∧ c ≠ ',' ∧ c ≠ '('

/-- A line of Python code. -/
def Line (c : Str) : Prop :=
  '\n' ∉ c ∧ (∀ x, c.head? = some x → isSpace x = false) ∧ ∀ x, c.getLast? = some x → isSpace x = false

mutual
/-- The pieces are what they should be; `continue` and `break` are inside a loop. -/
def Tpl.Ok : Bool → Tpl → Prop
  | _, .text _ => True
  | _, .expr e => Plain e
  | _, .py c => Line c
  | _, .comment _ => True
  | l, .cont => l = true
  | l, .brk => l = true
  | _, .loop v e body => Name v ∧ Tight e ∧ body.Ok true
  | l, .cond c body rest => Tight c ∧ body.Ok l ∧ rest.Ok l
def Tpls.Ok : Bool → Tpls → Prop
  | _, .nil => True
  | l, .cons t ts => t.Ok l ∧ ts.Ok l
def Branches.Ok : Bool → Branches → Prop
  | _, .none => True
  | l, .els body => body.Ok l
  | l, .elif c body rest => Tight c ∧ body.Ok l ∧ rest.Ok l
end

/-- How a piece ends. -/
inductive Flow where
  | next
  | cont
  | brk

variable {V NS : Type}

/-- `{{e}}` or `{{e | f | g}}`: the value of `e`, `g(f(e))`, as text. -/
def exprText (W : World V NS) (ns : NS) (e : Str) : Except Err Str :=
  match e.splitOn '|' with
  | [] => .ok []
  | p :: fs => do
    let v ← W.eval p ns
    let v ← fs.foldlM (fun v f => do W.call (← W.eval f ns) v) v
    W.str v

/-- A loop over values. -/
def loopText (f : V → NS → Except Err (Str × NS × Flow)) : List V → NS → Except Err (Str × NS × Flow)
  | [], ns => .ok ([], ns, .next)
  | x :: xs, ns => do
    let (o, ns, fl) ← f x ns
    match fl with
    | .brk => pure (o, ns, .next)
    | _ => do
      let (o', ns, fl) ← loopText f xs ns
      pure (o ++ o', ns, fl)

mutual
/-- What a template produces: text and namespace, or an error. -/
def Tpl.render (W : World V NS) : Tpl → NS → Except Err (Str × NS × Flow)
  | .text s, ns => .ok (s, ns, .next)
  | .expr e, ns => do
    let t ← exprText W ns e
    pure (t, ns, .next)
  | .py c, ns => do
    let ns ← W.exec c ns
    pure ([], ns, .next)
  | .comment _, ns => .ok ([], ns, .next)
  | .cont, ns => .ok ([], ns, .cont)
  | .brk, ns => .ok ([], ns, .brk)
  | .loop v e body, ns => do
    let x ← W.eval e ns
    let xs ← W.iter x
    loopText (fun x ns => body.render W (W.set ns v x)) xs ns
  | .cond c body rest, ns => do
    let x ← W.eval c ns
    if W.truth x then body.render W ns else rest.render W ns
def Tpls.render (W : World V NS) : Tpls → NS → Except Err (Str × NS × Flow)
  | .nil, ns => .ok ([], ns, .next)
  | .cons t ts, ns => do
    let (o, ns, fl) ← t.render W ns
    match fl with
    | .next => do
      let (o', ns, fl) ← ts.render W ns
      pure (o ++ o', ns, fl)
    | fl => pure (o, ns, fl)
def Branches.render (W : World V NS) : Branches → NS → Except Err (Str × NS × Flow)
  | .none, ns => .ok ([], ns, .next)
  | .els body, ns => body.render W ns
  | .elif c body rest, ns => do
    let x ← W.eval c ns
    if W.truth x then body.render W ns else rest.render W ns
end

end Interp.Spec.Templates
