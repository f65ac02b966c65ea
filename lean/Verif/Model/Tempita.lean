import Verif.Model.Basic

/-!
# The text template engine

Model of `interpolation/tempita/__init__.py` (`lex`, `trim_lex`, `find_position`, `parse` and the functions
`parse_*`, `Template.substitute` with `_interpret*`). Strings are lists of characters.

Python expressions inside a template are not parsed: evaluating, iterating, converting to a string etc. are
the fields of `World`, a parameter. Simplifications: only the default delimiters `{{`, `}}` (with others `Template.__init__`
raises `NameError`, L118-121: `basestring` does not exist in Python 3); content is `str`, not `bytes`; the
sequence of a `for` is fixed when the loop starts; error messages and the file name are
dropped, the position of a `TemplateError` is kept; template inheritance (L226-241) and HTML templates are
not modelled; a `{{def}}` block is parsed, and calling it is an `AttributeError` (L587 `kw.iteritems()`).
-/

namespace Interp.Tempita

abbrev Str := List Char

/-- `c!"text"` is the list of the characters of a literal. -/
macro:max "c!" s:str : term => do
  let cs := s.getString.toList.map fun c => (Lean.Syntax.mkCharLit c : Lean.TSyntax `term)
  `(([$(cs.toArray),*] : List Char))

/-- (line, column). -/
abbrev Pos := ℕ × ℕ

/-- Exceptions. -/
inductive TErr where
  /-- `TemplateError` -/
  | template (pos : Pos)
  /-- raised by Python code inside the template; `_eval` and `_exec` wrap it in an `Exception`, L329-358 -/
  | python (e : Err)
  | assertion
  | value
  | typeErr
  | index
  deriving DecidableEq, Repr

/-- Result of `lex`: text, or the inside of `{{...}}` with its position. -/
inductive Chunk where
  | text (s : Str)
  | code (s : Str) (pos : Pos)
  deriving DecidableEq, Repr

/-! ### String methods -/

/-- `str.isspace` for one character, also `\s` of `re`. -/
def isSpace (c : Char) : Bool :=
  let n := c.toNat
  (9 ≤ n && n ≤ 13) || (28 ≤ n && n ≤ 32) || n == 133 || n == 160 || n == 0x1680
    || (0x2000 ≤ n && n ≤ 0x200a) || n == 0x2028 || n == 0x2029 || n == 0x202f || n == 0x205f || n == 0x3000

/-- `s.lstrip()`. -/
def lstrip (s : Str) : Str := s.dropWhile isSpace

/-- `s.rstrip()`. -/
def rstrip (s : Str) : Str := (s.reverse.dropWhile isSpace).reverse

/-- `s.strip()`. -/
def strip (s : Str) : Str := rstrip (lstrip s)

/-- `s.startswith(p)`. -/
def startsWith (p s : Str) : Bool := p.isPrefixOf s

/-- `s[:-1] if s.endswith(":") else s`, L1052-1053, L1081-1082, L1143-1144. -/
def dropColon (s : Str) : Str := if s.getLast? = some ':' then s.dropLast else s

/-- `s.split(c)` for one character. -/
def splitOn (c : Char) : Str → List Str
  | [] => [[]]
  | a :: s =>
    if a = c then [] :: splitOn c s
    else match splitOn c s with
      | [] => [[a]]
      | h :: t => (a :: h) :: t

/-! ### Lexer -/

/-- The two delimiters. -/
inductive Delim where
  | opening
  | closing
  deriving DecidableEq, Repr

/-- `token_re.finditer(s)`, L681-684: the text before each match with the kind of the match, and the text
after the last match. `acc` is the text since the last match, reversed. -/
def scan : Str → Str → List (Str × Delim) × Str
  | acc, [] => ([], acc.reverse)
  | acc, '{' :: '{' :: s => let r := scan [] s; ((acc.reverse, .opening) :: r.1, r.2)
  | acc, '}' :: '}' :: s => let r := scan [] s; ((acc.reverse, .closing) :: r.1, r.2)
  | acc, c :: s => scan (c :: acc) s

/-- `find_position`, L845-854, on the text `s[last_index:index]`. -/
def findPosition (s : Str) (last : Pos) : Pos :=
  let lines := s.count '\n'
  if 0 < lines then (last.1 + lines, (s.reverse.takeWhile (· ≠ '\n')).length + 1)
  else (last.1 + lines, last.2 + s.length)

/-- The loop of `lex`, L684-713. -/
def lexLoop : List (Str × Delim) → Str → Bool → Pos → Except TErr (List Chunk)
  | [], rest, inExpr, last =>
    if inExpr then throw (.template last)
    else pure (if rest = [] then [] else [.text rest])
  | (part, dl) :: ms, rest, inExpr, last =>
    let pos := findPosition (part ++ (match dl with | .opening => ['{', '{'] | .closing => ['}', '}'])) last
    match dl with
    | .opening =>
      if inExpr then throw (.template pos)
      else do
        let cs ← lexLoop ms rest true pos
        pure (if part = [] then cs else .text part :: cs)
    | .closing =>
      if inExpr then do
        let cs ← lexLoop ms rest false pos
        pure (.code part last :: cs)
      else throw (.template pos)

/-- `lex(s, trim_whitespace=False)`, L671-716. -/
def lexRaw (s : Str) : Except TErr (List Chunk) :=
  let r := scan [] s
  lexLoop r.1 r.2 false (1, 1)

/-! ### Trimming -/

/-- `statement_re.search(item) or item in single_statements`, L765-766. -/
def isStatement (item : Str) : Bool :=
  ["if ", "elif ", "for ", "def ", "inherit ", "default ", "py:"].any (fun p => startsWith p.toList item)
    || ["else", "endif", "endfor", "enddef", "continue", "break"].any (fun p => p.toList == item)

/-- `[\t ]`. -/
def isBlank (c : Char) : Bool := c == ' ' || c == '\t'

/-- `\r?[\t ]*$` at the head of `t`; `$` also matches before a final newline. -/
def trailTail (t : Str) : Bool :=
  let t := match t with
    | '\r' :: t' => t'
    | t => t
  let r := t.dropWhile isBlank
  r == [] || r == ['\n']

/-- `trail_whitespace_re.search(prev)`: start of the leftmost match of `\n\r?[\t ]*$`, L767. -/
def trailMatch : Str → Option ℕ
  | [] => none
  | c :: s => if c = '\n' ∧ trailTail s then some 0 else (trailMatch s).map (· + 1)

/-- `lead_whitespace_re.search(next_chunk)`: what is left after a match of `^[\t ]*\n`, L768. -/
def leadMatch (s : Str) : Option Str :=
  match s.dropWhile isBlank with
  | '\n' :: r => some r
  | _ => none

/-- State of the loop in `trim_lex`. -/
structure TrimState where
  tokens : List Chunk
  lastTrim : Option ℕ

/-- One iteration of `trim_lex`, L773-816. -/
def trimStep (st : TrimState) (i : ℕ) : TrimState :=
  match st.tokens[i]? with
  | some (.code item _) =>
    if isStatement item then
      let prev := if i = 0 then Chunk.text [] else st.tokens.getD (i - 1) (.text [])
      let next := if st.tokens.length ≤ i + 1 then Chunk.text [] else st.tokens.getD (i + 1) (.text [])
      match prev, next with
      | .text prev, .text next =>
        let first := i = 1 ∧ strip prev = []
        let last := st.lastTrim.map (· + 2) = some i ∧ strip prev = []
        let final := i + 2 = st.tokens.length ∧ strip next = []
        if (prev = [] ∨ (trailMatch prev).isSome ∨ first ∨ last)
            ∧ (next = [] ∨ (leadMatch next).isSome ∨ final) then
          let tokens := if prev = [] then st.tokens
            else if first ∨ last then st.tokens.set (i - 1) (.text [])
            else st.tokens.set (i - 1) (.text (prev.take ((trailMatch prev).getD 0 + 1)))
          if next = [] then ⟨tokens, st.lastTrim⟩
          else if final then ⟨tokens.set (i + 1) (.text []), some i⟩
          else ⟨tokens.set (i + 1) (.text ((leadMatch next).getD [])), some i⟩
        else st
      | _, _ => st
    else st
  | _ => st

/-- `trim_lex`, L771-817. -/
def trimLex (tokens : List Chunk) : List Chunk :=
  ((List.range tokens.length).foldl trimStep ⟨tokens, none⟩).tokens

/-- `lex(s)`, L671-716. -/
def lex (s : Str) : Except TErr (List Chunk) := do
  let cs ← lexRaw s
  pure (trimLex cs)

/-! ### Parser -/

mutual
/-- Parsed template, results of `parse_expr`, L988-1033. -/
inductive Node where
  | text (s : Str)
  | expr (pos : Pos) (s : Str)
  | py (pos : Pos) (s : Str)
  | cont (pos : Pos)
  | brk (pos : Pos)
  | comment (pos : Pos)
  | forIn (pos : Pos) (vars : List Str) (e : Str) (body : Nodes)
  | cond (pos : Pos) (parts : Parts)
  | deflt (pos : Pos) (var e : Str)
  | inherit (pos : Pos) (e : Str)
  | defn (pos : Pos) (name : Str) (body : Nodes)
  deriving DecidableEq, Repr
/-- A list of nodes. -/
inductive Nodes where
  | nil
  | cons (n : Node) (ns : Nodes)
  deriving DecidableEq, Repr
/-- The branches of a conditional; the test is `none` for `else`. -/
inductive Parts where
  | nil
  | cons (test : Option Str) (pos : Pos) (body : Nodes) (ps : Parts)
  deriving DecidableEq, Repr
end

/-- `in_re.search(first)` with `in_re = \s+in\s+`, L55, L1084: text before and after the match. -/
def inSearch : Str → Str → Option (Str × Str)
  | _, [] => none
  | acc, c :: s =>
    if isSpace c then
      match s.dropWhile isSpace with
      | 'i' :: 'n' :: d :: r =>
        if isSpace d then some (acc.reverse, r.dropWhile isSpace) else inSearch (c :: acc) s
      | _ => inSearch (c :: acc) s
    else inSearch (c :: acc) s

/-- `first.split(None, 1)[1]`, L1108, L1134, L1142; `none`: `IndexError`. -/
def splitRest (s : Str) : Option Str :=
  let r := (lstrip s).dropWhile (! isSpace ·)
  let r := lstrip r
  if r = [] then none else some r

/-- `var_re.search(var)`, L56 (ASCII letters only). -/
def isVar (s : Str) : Bool :=
  match s with
  | [] => false
  | c :: r => (c.isAlpha || c == '_') && r.all fun c => c.isAlphanum || c == '_'

/-- `parse_for` up to the block, L1075-1095. -/
def forHead (raw : Str) (pos : Pos) : Except TErr (List Str × Str) :=
  if startsWith "for ".toList raw then
    let first := strip ((dropColon raw).drop 3)
    match inSearch [] first with
    | none => throw (.template pos)
    | some (vars, e) =>
      if '(' ∈ vars then throw (.template pos)
      else pure (((splitOn ',' vars).map strip).filter (· ≠ []), e)
  else throw .assertion

/-- `parse_default`, L1105-1128. -/
def parseDefault (raw : Str) (pos : Pos) : Except TErr Node :=
  if startsWith "default ".toList raw then
    match splitRest raw with
    | none => throw .index
    | some first =>
      if '=' ∈ first then
        let var := strip (first.takeWhile (· ≠ '='))
        if ',' ∈ var then throw (.template pos)
        else if isVar var then pure (.deflt pos var (strip ((first.dropWhile (· ≠ '=')).drop 1)))
        else throw (.template pos)
      else throw (.template pos)
  else throw .assertion

/-- `parse_inherit`, L1131-1135. -/
def parseInherit (raw : Str) (pos : Pos) : Except TErr Node :=
  if startsWith "inherit ".toList raw then
    match splitRest raw with
    | none => throw .index
    | some e => pure (.inherit pos e)
  else throw .assertion

/-- `parse_def` up to the block, L1138-1158. With a signature, `parse_signature` fails: `BytesIO(str)`, L1170
(L38 imports `BytesIO` as `StringIO`). -/
def defHead (raw : Str) (pos : Pos) : Except TErr Str :=
  if startsWith "def ".toList raw then
    match splitRest raw with
    | none => throw .index
    | some first =>
      let first := dropColon first
      if '(' ∈ first then
        if first.getLast? = some ')' then throw .typeErr else throw (.template pos)
      else pure first
  else throw .assertion

/-- A `py:` block, L993-1008. -/
def parsePy (e : Str) (pos : Pos) : Except TErr Node :=
  let e := (e.drop 3).dropWhile isBlank
  match e with
  | '\n' :: _ | '\r' :: _ =>
    let e := e.dropWhile fun c => c == '\r' || c == '\n'
    -- `replace("\r\n", "\n")` then `replace("\r", "")` removes all carriage returns
    pure (.py pos (e.filter (· ≠ '\r') ++ ['\n']))
  | e => if '\n' ∈ e then throw (.template pos) else pure (.py pos e)

/-- Does a token end a block? -/
def stops (stop : Str → Bool) : List Chunk → Bool
  | .code s _ :: _ => stop s
  | _ => false

/-- `tokens[0][0] == "endif" or startswith "elif " or == "else"`, L1065-1069. -/
def stopIf (s : Str) : Bool := s == "endif".toList || startsWith "elif ".toList s || s == "else".toList

/-- Head of a branch, L1050-1061. -/
def condHead (raw : Str) : Except TErr (Option Str) :=
  let first := dropColon raw
  if startsWith "if ".toList first then pure (some (lstrip (first.drop 3)))
  else if startsWith "elif ".toList first then pure (some (lstrip (first.drop 5)))
  else if first == "else".toList then pure none
  else throw .assertion

mutual
/-- `parse_expr`, L988-1033. `inFor`: is "for" in the context? The first argument bounds the depth of
the recursion. -/
def parseExpr : ℕ → Bool → List Chunk → Except TErr (Node × List Chunk)
  | 0, _, _ => throw (.python .runtime)
  | _, _, [] => throw .index
  | _, _, .text s :: ts => pure (.text s, ts)
  | f + 1, inFor, .code raw pos :: ts =>
    let e := strip raw
    if startsWith "py:".toList e then do
      let n ← parsePy e pos
      pure (n, ts)
    else if e == "continue".toList then
      if inFor then pure (.cont pos, ts) else throw (.template pos)
    else if e == "break".toList then
      if inFor then pure (.brk pos, ts) else throw (.template pos)
    else if startsWith "if ".toList e then do
      let (ps, ts) ← parseCond f inFor pos (.code raw pos :: ts)
      pure (.cond pos ps, ts)
    else if startsWith "elif ".toList e || e == "else".toList then throw (.template pos)
    else if e == "if".toList || e == "elif".toList || e == "for".toList then throw (.template pos)
    else if e == "endif".toList || e == "endfor".toList || e == "enddef".toList then throw (.template pos)
    else if startsWith "for ".toList e then do
      let (vars, ex) ← forHead raw pos
      let (body, ts) ← parseUntil f true (· == "endfor".toList) pos ts
      pure (.forIn pos vars ex body, ts.drop 1)
    else if startsWith "default ".toList e then do
      let n ← parseDefault raw pos
      pure (n, ts)
    else if startsWith "inherit ".toList e then do
      let n ← parseInherit raw pos
      pure (n, ts)
    else if startsWith "def ".toList e then do
      let name ← defHead raw pos
      let (body, ts) ← parseUntil f inFor (· == "enddef".toList) pos ts
      pure (.defn pos name body, ts.drop 1)
    else if startsWith "#".toList e then pure (.comment pos, ts)
    else pure (.expr pos raw, ts)
/-- The loops `while 1: ... content.append(next_chunk)`, L1062-1072, L1096-1102, L1160-1166: parse up to a stopping token
(not consumed). -/
def parseUntil : ℕ → Bool → (Str → Bool) → Pos → List Chunk → Except TErr (Nodes × List Chunk)
  | 0, _, _, _, _ => throw (.python .runtime)
  | f + 1, inFor, stop, pos, ts =>
    if ts = [] then throw (.template pos)
    else if stops stop ts then pure (.nil, ts)
    else do
      let (n, ts) ← parseExpr f inFor ts
      let (ns, ts) ← parseUntil f inFor stop pos ts
      pure (.cons n ns, ts)
/-- `parse_cond` with `parse_one_cond`, L1036-1072. -/
def parseCond : ℕ → Bool → Pos → List Chunk → Except TErr (Parts × List Chunk)
  | 0, _, _, _ => throw (.python .runtime)
  | _, _, start, [] => throw (.template start)
  | _, _, _, .text _ :: _ => throw .value
  | f + 1, inFor, start, .code raw pos :: ts =>
    if raw == "endif".toList then pure (.nil, ts)
    else do
      let test ← condHead raw
      let (body, ts) ← parseUntil f inFor stopIf pos ts
      let (ps, ts) ← parseCond f inFor start ts
      pure (.cons test pos body ps, ts)
end

/-- `parse` after `lex`, L864-868. -/
def parseAll : ℕ → List Chunk → Except TErr Nodes
  | _, [] => pure .nil
  | 0, _ => throw (.python .runtime)
  | f + 1, ts => do
    let (n, ts) ← parseExpr f false ts
    let ns ← parseAll f ts
    pure (.cons n ns)

/-- Enough depth for any template of this length (`Props.C92_parser`): up to three calls per token. Python's own limit on the depth of
the recursion is not modelled. -/
def depth (ts : List Chunk) : ℕ := 3 * ts.length + 1

/-- `parse`, L857-868. -/
def parse (s : Str) : Except TErr Nodes := do
  let ts ← lex s
  parseAll (depth ts) ts

/-! ### Interpreter -/

/-- The Python interpreter, as far as templates use it. -/
structure World (V NS : Type) where
  /-- `eval(code, default_namespace, ns)` -/
  eval : Str → NS → Except Err V
  /-- `exec(code, default_namespace, ns)` -/
  exec : Str → NS → Except Err NS
  /-- `ns[name] = value` -/
  set : NS → Str → V → NS
  /-- `name in ns` -/
  has : NS → Str → Bool
  /-- `bool(value)` -/
  truth : V → Bool
  /-- the elements of an iterable -/
  iter : V → Except Err (List V)
  /-- `_repr(value)`: `""` for `None`, otherwise `str(value)`, L360-404 -/
  str : V → Except Err Str
  /-- `func(base)` -/
  call : V → V → Except Err V
  /-- a `TemplateDef` -/
  defV : Str → V

variable {V NS : Type}

/-- How a piece of template ends. -/
inductive Stat where
  | ok
  | cont
  | brk
  | err (e : TErr)
  deriving DecidableEq, Repr

/-- Output so far, namespace, value of `defs["__inherit__"]`. -/
structure St (V NS : Type) where
  out : Str
  ns : NS
  inh : Option V

/-- Bind the loop variables, L298-307. -/
def bindVars (W : World V NS) (vars : List Str) (item : V) (ns : NS) : Except TErr NS :=
  match vars with
  | [v] => pure (W.set ns v item)
  | vs =>
    match W.iter item with
    | .error e => throw (.python e)
    | .ok items =>
      if vs.length = items.length then pure ((vs.zip items).foldl (fun ns p => W.set ns p.1 p.2) ns)
      else throw .value

/-- `_interpret_for`, L295-313; `body` interprets the content. -/
def forLoop (W : World V NS) (vars : List Str) (body : St V NS → St V NS × Stat) :
    List V → St V NS → St V NS × Stat
  | [], s => (s, .ok)
  | v :: vs, s =>
    match bindVars W vars v s.ns with
    | .error e => (s, .err e)
    | .ok ns =>
      match body { s with ns := ns } with
      | (s', .ok) | (s', .cont) => forLoop W vars body vs s'
      | (s', .brk) => (s', .ok)
      | (s', .err e) => (s', .err e)

/-- Filters, L269-272. -/
def filters (W : World V NS) (ns : NS) : List Str → V → Except Err V
  | [], v => pure v
  | p :: ps, v => do
    let f ← W.eval p ns
    let v ← W.call f v
    filters W ns ps v

/-- `{{expr | filter | ...}}`, L267-273. -/
def evalExpr (W : World V NS) (e : Str) (ns : NS) : Except Err Str := do
  match splitOn '|' e with
  | [] => throw .value
  | p :: ps =>
    let v ← W.eval p ns
    let v ← filters W ns ps v
    W.str v

mutual
/-- `_interpret_code`, L251-293. -/
def Node.run (W : World V NS) : Node → St V NS → St V NS × Stat
  | .text t, s => ({ s with out := s.out ++ t }, .ok)
  | .py _ c, s =>
    match W.exec c s.ns with
    | .ok ns => ({ s with ns := ns }, .ok)
    | .error e => (s, .err (.python e))
  | .cont _, s => (s, .cont)
  | .brk _, s => (s, .brk)
  | .comment _, s => (s, .ok)
  | .forIn _ vars e body, s =>
    match W.eval e s.ns with
    | .error er => (s, .err (.python er))
    | .ok v =>
      match W.iter v with
      | .error er => (s, .err (.python er))
      | .ok vs => forLoop W vars (body.run W) vs s
  | .cond _ ps, s => ps.run W s
  | .expr _ e, s =>
    match evalExpr W e s.ns with
    | .error er => (s, .err (.python er))
    | .ok t => ({ s with out := s.out ++ t }, .ok)
  | .deflt _ v e, s =>
    if W.has s.ns v then (s, .ok)
    else match W.eval e s.ns with
      | .error er => (s, .err (.python er))
      | .ok x => ({ s with ns := W.set s.ns v x }, .ok)
  | .inherit _ e, s =>
    match W.eval e s.ns with
    | .error er => (s, .err (.python er))
    | .ok x => ({ s with inh := some x }, .ok)
  | .defn _ name _, s => ({ s with ns := W.set s.ns name (W.defV name) }, .ok)
/-- `_interpret_codes`, L243-249. -/
def Nodes.run (W : World V NS) : Nodes → St V NS → St V NS × Stat
  | .nil, s => (s, .ok)
  | .cons n ns, s =>
    match n.run W s with
    | (s', .ok) => ns.run W s'
    | r => r
/-- `_interpret_if`, L315-327. -/
def Parts.run (W : World V NS) : Parts → St V NS → St V NS × Stat
  | .nil, s => (s, .ok)
  | .cons none _ body _, s => body.run W s
  | .cons (some e) _ body ps, s =>
    match W.eval e s.ns with
    | .error er => (s, .err (.python er))
    | .ok v => if W.truth v then body.run W s else ps.run W s
end

/-- `Template(content).substitute(ns)`, L101-224, without `get_template`: an inherited template is a
`TemplateError`, L228-233. -/
def substitute (W : World V NS) (content : Str) (ns : NS) : Except TErr Str := do
  let nodes ← parse content
  match nodes.run W ⟨[], ns, none⟩ with
  | (s, .ok) =>
    match s.inh with
    | some v => if W.truth v then throw (.template (0, 0)) else pure s.out
    | none => pure s.out
  | (_, .err e) => throw e
  | (_, _) => throw .assertion

end Interp.Tempita
