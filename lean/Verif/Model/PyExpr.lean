import Verif.Model.Tempita

/-!
# Python expressions inside templates

A tokenizer, a parser and an evaluator for the part of Python's expression language that the templates of
`splines/codegen.py` use: names, non-negative integers, strings, calls with positional and keyword
arguments, method calls, indexing, `+`, `==`, `is`, `is not`, `not`, `or`, `a if b else c`, tuples.
-/

namespace Interp.PyExpr

open Tempita

/-! ### Syntax -/

/-- Tokens. -/
inductive Tok where
  | name (s : Str)
  | int (n : ℕ)
  | str (s : Str)
  | sym (s : Str)
  deriving DecidableEq, Repr

def isIdStart (c : Char) : Bool := c.isAlpha || c == '_'

def isIdChar (c : Char) : Bool := c.isAlphanum || c == '_'

/-- Value of a decimal number. -/
def decVal (s : Str) : ℕ := s.foldl (fun n c => 10 * n + (c.toNat - 48)) 0

/-- Tokenizer; the first argument bounds the number of tokens and spaces. No escapes in strings. -/
def tokens : ℕ → Str → Option (List Tok)
  | 0, _ => none
  | _, [] => some []
  | f + 1, c :: s =>
    if c == ' ' then tokens f s
    else if isIdStart c then
      (tokens f (s.dropWhile isIdChar)).map (.name (c :: s.takeWhile isIdChar) :: ·)
    else if c.isDigit then
      (tokens f (s.dropWhile Char.isDigit)).map (.int (decVal (c :: s.takeWhile Char.isDigit)) :: ·)
    else if c == '\'' || c == '"' then
      match s.dropWhile (· != c) with
      | [] => none
      | _ :: r => (tokens f r).map (.str (s.takeWhile (· != c)) :: ·)
    else match c, s with
      | '=', '=' :: r => (tokens f r).map (.sym c!"==" :: ·)
      | c, s => if c ∈ c!"()[],.+=" then (tokens f s).map (.sym [c] :: ·) else none

mutual
/-- Expressions. -/
inductive PE where
  | name (x : Str)
  | int (n : ℕ)
  | str (s : Str)
  /-- call of a function given by its name -/
  | call (f : Str) (args : PEs)
  /-- `o.m(args)` -/
  | meth (o : PE) (m : Str) (args : PEs)
  | index (o i : PE)
  | add (a b : PE)
  | eq (a b : PE)
  | is (a b : PE)
  | isNot (a b : PE)
  | or (a b : PE)
  | not (a : PE)
  | ifelse (t c e : PE)
  | tup (es : PEs)
  deriving DecidableEq, Repr
/-- Arguments, positional or with a keyword. -/
inductive PEs where
  | nil
  | cons (kw : Option Str) (e : PE) (es : PEs)
  deriving DecidableEq, Repr
end

def keywords : List Str := [c!"not", c!"or", c!"if", c!"else", c!"is"]

abbrev Res := Option (PE × List Tok)

mutual
/-- `or_test ['if' or_test 'else' expression]`. The first argument bounds the depth. -/
def pExpr : ℕ → List Tok → Res
  | 0, _ => none
  | f + 1, ts => do
    let (t, ts) ← pOr f ts
    match ts with
    | .name w :: ts' =>
      if w = c!"if" then do
        let (c, ts) ← pOr f ts'
        match ts with
        | .name w :: ts =>
          if w = c!"else" then do
            let (e, ts) ← pExpr f ts
            pure (.ifelse t c e, ts)
          else none
        | _ => none
      else pure (t, ts)
    | _ => pure (t, ts)
/-- `not_test ('or' not_test)*`, associating to the right (same value). -/
def pOr : ℕ → List Tok → Res
  | 0, _ => none
  | f + 1, ts => do
    let (a, ts) ← pNot f ts
    match ts with
    | .name w :: ts' =>
      if w = c!"or" then do
        let (b, ts) ← pOr f ts'
        pure (.or a b, ts)
      else pure (a, ts)
    | _ => pure (a, ts)
/-- `'not' not_test | comparison`. -/
def pNot : ℕ → List Tok → Res
  | 0, _ => none
  | f + 1, ts =>
    match ts with
    | .name w :: ts' =>
      if w = c!"not" then do
        let (a, ts) ← pNot f ts'
        pure (.not a, ts)
      else pCmp f ts
    | _ => pCmp f ts
/-- A comparison without chaining. -/
def pCmp : ℕ → List Tok → Res
  | 0, _ => none
  | f + 1, ts => do
    let (a, ts) ← pPost f ts
    let (a, ts) ← pSum f a ts
    match ts with
    | .sym w :: ts' =>
      if w = c!"==" then do
        let (b, ts) ← pPost f ts'
        let (b, ts) ← pSum f b ts
        pure (.eq a b, ts)
      else pure (a, ts)
    | .name w :: .name w' :: ts' =>
      if w = c!"is" then
        if w' = c!"not" then do
          let (b, ts) ← pPost f ts'
          let (b, ts) ← pSum f b ts
          pure (.isNot a b, ts)
        else do
          let (b, ts) ← pPost f (.name w' :: ts')
          let (b, ts) ← pSum f b ts
          pure (.is a b, ts)
      else pure (a, ts)
    | _ => pure (a, ts)
/-- `('+' primary)*` after the first summand. -/
def pSum : ℕ → PE → List Tok → Res
  | 0, _, _ => none
  | f + 1, a, ts =>
    match ts with
    | .sym w :: ts' =>
      if w = c!"+" then do
        let (b, ts) ← pPost f ts'
        pSum f (.add a b) ts
      else pure (a, ts)
    | _ => pure (a, ts)
/-- A primary: an atom followed by calls, indices and method calls. -/
def pPost : ℕ → List Tok → Res
  | 0, _ => none
  | f + 1, ts =>
    match ts with
    | .name x :: ts =>
      if x ∈ keywords then none
      else match ts with
        | .sym w :: ts' =>
          if w = c!"(" then do
            let (es, ts) ← pArgs f ts'
            pTail f (.call x es) ts
          else pTail f (.name x) ts
        | _ => pTail f (.name x) ts
    | .int n :: ts => pTail f (.int n) ts
    | .str s :: ts => pTail f (.str s) ts
    | .sym w :: ts =>
      if w = c!"(" then do
        let (e, ts) ← pExpr f ts
        match ts with
        | .sym w :: ts =>
          if w = c!")" then pTail f e ts
          else if w = c!"," then do
            let (es, ts) ← pArgs f ts
            pTail f (.tup (.cons none e es)) ts
          else none
        | _ => none
      else none
    | [] => none
/-- What follows an atom. -/
def pTail : ℕ → PE → List Tok → Res
  | 0, _, _ => none
  | f + 1, a, ts =>
    match ts with
    | .sym w :: ts' =>
      if w = c!"[" then do
        let (i, ts) ← pExpr f ts'
        match ts with
        | .sym w :: ts => if w = c!"]" then pTail f (.index a i) ts else none
        | _ => none
      else if w = c!"." then
        match ts' with
        | .name m :: .sym w :: ts =>
          if w = c!"(" then do
            let (es, ts) ← pArgs f ts
            pTail f (.meth a m es) ts
          else none
        | _ => none
      else pure (a, ts)
    | _ => pure (a, ts)
/-- Arguments up to the closing parenthesis. -/
def pArgs : ℕ → List Tok → Option (PEs × List Tok)
  | 0, _ => none
  | f + 1, ts =>
    match ts with
    | .sym w :: ts' => if w = c!")" then pure (.nil, ts') else pArg f none ts
    | .name x :: .sym w :: ts' => if w = c!"=" then pArg f (some x) ts' else pArg f none ts
    | _ => pArg f none ts
/-- One argument and the rest. -/
def pArg : ℕ → Option Str → List Tok → Option (PEs × List Tok)
  | 0, _, _ => none
  | f + 1, kw, ts => do
    let (e, ts) ← pExpr f ts
    match ts with
    | .sym w :: ts =>
      if w = c!")" then pure (.cons kw e .nil, ts)
      else if w = c!"," then do
        let (es, ts) ← pArgs f ts
        pure (.cons kw e es, ts)
      else none
    | _ => none
end

/-- Parse a complete expression. -/
def parseExpr (s : Str) : Option PE := do
  let ts ← tokens (s.length + 1) s
  let (e, ts) ← pExpr (12 * ts.length + 12) ts
  if ts = [] then some e else none

/-! ### Values -/

/-- Functions callable from a template. -/
inductive Func where
  | range
  | len
  | enumerate
  | str
  | isinstance
  /-- the type `tuple` -/
  | tuple
  /-- the type `list` -/
  | list
  /-- supplied by the caller of the template -/
  | user (name : Str)
  deriving DecidableEq, Repr

/-- Python values. -/
inductive Val where
  | none
  | bool (b : Bool)
  | int (n : ℕ)
  | str (s : Str)
  | tuple (vs : List Val)
  | list (vs : List Val)
  | func (f : Func)

/-- `str(n)`. -/
def dec (n : ℕ) : Str := Nat.toDigits 10 n

mutual
/-- `repr(v)`; strings without characters that need escapes. -/
def Val.repr : Val → Str
  | .none => c!"None"
  | .bool true => c!"True"
  | .bool false => c!"False"
  | .int n => dec n
  | .str s => c!"'" ++ s ++ c!"'"
  | .tuple [] => c!"()"
  | .tuple [v] => c!"(" ++ v.repr ++ c!",)"
  | .tuple (v :: w :: vs) => c!"(" ++ v.repr ++ reprRest (w :: vs) ++ c!")"
  | .list [] => c!"[]"
  | .list (v :: vs) => c!"[" ++ v.repr ++ reprRest vs ++ c!"]"
  | .func _ => c!"<function>"
/-- `", "` before each remaining element. -/
def reprRest : List Val → Str
  | [] => []
  | v :: vs => c!", " ++ v.repr ++ reprRest vs
end

/-- `str(v)`. -/
def Val.toStr : Val → Str
  | .str s => s
  | v => v.repr

/-- `bool(v)`. -/
def Val.truth : Val → Bool
  | .none => false
  | .bool b => b
  | .int n => n != 0
  | .str s => s != []
  | .tuple vs => !vs.isEmpty
  | .list vs => !vs.isEmpty
  | .func _ => true

/-- `a == b`; only integers, strings and booleans are compared. -/
def Val.beq : Val → Val → Except Err Bool
  | .int a, .int b => pure (a == b)
  | .str a, .str b => pure (a == b)
  | .bool a, .bool b => pure (a == b)
  | .none, .none => pure true
  | .str _, _ => pure false
  | .none, _ => pure false
  | _, _ => throw .typing

/-- `a is b`, only for `b` equal to `None`. -/
def Val.isNone : Val → Val → Except Err Bool
  | .none, .none => pure true
  | _, .none => pure false
  | _, _ => throw .typing

/-- Namespace: the most recent binding first. -/
abbrev NS := List (Str × Val)

def lookup (x : Str) (ns : NS) : Option Val := (ns.find? (fun p => p.1 = x)).map (·.2)

/-- Names known without a binding. -/
def builtin (x : Str) : Option Val :=
  if x = c!"range" then some (.func .range)
  else if x = c!"len" then some (.func .len)
  else if x = c!"enumerate" then some (.func .enumerate)
  else if x = c!"str" then some (.func .str)
  else if x = c!"isinstance" then some (.func .isinstance)
  else if x = c!"tuple" then some (.func .tuple)
  else if x = c!"list" then some (.func .list)
  else if x = c!"None" then some .none
  else if x = c!"True" then some (.bool true)
  else if x = c!"False" then some (.bool false)
  else none

/-- Value of a name. -/
def getName (ns : NS) (x : Str) : Except Err Val :=
  match lookup x ns with
  | some v => pure v
  | none =>
    match builtin x with
    | some v => pure v
    | none => throw (.name (String.ofList x))

/-- Elements of an iterable. -/
def Val.items : Val → Except Err (List Val)
  | .tuple vs => pure vs
  | .list vs => pure vs
  | .str s => pure (s.map fun c => .str [c])
  | _ => throw .typeErr

/-- `v[i]`. -/
def Val.at : Val → Val → Except Err Val
  | .tuple vs, .int n => match vs[n]? with
    | Option.some v => pure v
    | Option.none => throw .index
  | .list vs, .int n => match vs[n]? with
    | Option.some v => pure v
    | Option.none => throw .index
  | _, _ => throw .typeErr

/-- `s.strip(chars)` for one character. -/
def stripChar (c : Char) (s : Str) : Str :=
  ((s.dropWhile (· == c)).reverse.dropWhile (· == c)).reverse

/-- Methods of strings: `strip(c)` and `replace(c, "")` for one character `c`. -/
def method (o : Val) (m : Str) (args : List Val) : Except Err Val :=
  match o, args with
  | .str s, [.str [c]] => if m = c!"strip" then pure (.str (stripChar c s)) else throw .attribute
  | .str s, [.str [c], .str []] =>
    if m = c!"replace" then pure (.str (s.filter (· ≠ c))) else throw .attribute
  | _, _ => throw .attribute

/-- Is `v` an instance of the type `t`? -/
def isInstance1 : Val → Val → Except Err Bool
  | .tuple _, .func .tuple => pure true
  | .list _, .func .list => pure true
  | _, .func .tuple => pure false
  | _, .func .list => pure false
  | _, _ => throw .typeErr

def isInstance (v : Val) : List Val → Except Err Bool
  | [] => pure false
  | t :: ts => do
    let b ← isInstance1 v t
    if b then pure true else isInstance v ts

/-- A user function: positional and keyword arguments. -/
abbrev UserFuns := Str → List Val → List (Str × Val) → Except Err Val

def apply (U : UserFuns) (f : Val) (args : List Val) (kw : List (Str × Val)) : Except Err Val :=
  match f, args with
  | .func (.user name), args => U name args kw
  | .func .range, [.int n] => pure (.list ((List.range n).map .int))
  | .func .len, [v] => do
    let vs ← v.items
    pure (.int vs.length)
  | .func .enumerate, [v] => do
    let vs ← v.items
    pure (.list (vs.mapIdx fun i v => .tuple [.int i, v]))
  | .func .str, [v] => pure (.str v.toStr)
  | .func .isinstance, [v, .tuple ts] => do
    let b ← isInstance v ts
    pure (.bool b)
  | _, _ => throw .typeErr

mutual
/-- Value of an expression. -/
def PE.eval (U : UserFuns) (ns : NS) : PE → Except Err Val
  | .name x => getName ns x
  | .int n => pure (.int n)
  | .str s => pure (.str s)
  | .call f es => do
    let f ← getName ns f
    let (args, kw) ← es.eval U ns
    apply U f args kw
  | .meth o m es => do
    let o ← o.eval U ns
    let (args, _) ← es.eval U ns
    method o m args
  | .index o i => do
    let o ← o.eval U ns
    let i ← i.eval U ns
    o.at i
  | .add a b => do
    let a ← a.eval U ns
    let b ← b.eval U ns
    match a, b with
    | .int a, .int b => pure (.int (a + b))
    | _, _ => throw .typeErr
  | .eq a b => do
    let a ← a.eval U ns
    let b ← b.eval U ns
    let r ← a.beq b
    pure (.bool r)
  | .is a b => do
    let a ← a.eval U ns
    let b ← b.eval U ns
    let r ← a.isNone b
    pure (.bool r)
  | .isNot a b => do
    let a ← a.eval U ns
    let b ← b.eval U ns
    let r ← a.isNone b
    pure (.bool !r)
  | .or a b => do
    let a ← a.eval U ns
    if a.truth then pure a else b.eval U ns
  | .not a => do
    let a ← a.eval U ns
    pure (.bool !a.truth)
  | .ifelse t c e => do
    let c ← c.eval U ns
    if c.truth then t.eval U ns else e.eval U ns
  | .tup es => do
    let (args, _) ← es.eval U ns
    pure (.tuple args)
/-- Values of the arguments: positional ones, then those with keywords. -/
def PEs.eval (U : UserFuns) (ns : NS) : PEs → Except Err (List Val × List (Str × Val))
  | .nil => pure ([], [])
  | .cons kw e es => do
    let v ← e.eval U ns
    let (args, kws) ← es.eval U ns
    match kw with
    | none => pure (v :: args, kws)
    | some k => pure (args, (k, v) :: kws)
end

/-- `eval(code, ns)`. -/
def evalCode (U : UserFuns) (code : Str) (ns : NS) : Except Err Val :=
  match parseExpr code with
  | some e => e.eval U ns
  | none => throw .syntaxErr

/-- Python as seen by a template with the functions `U`. `exec` and filters do not occur in the templates
of `codegen.py`. -/
def world (U : UserFuns) : World Val NS where
  eval := evalCode U
  exec := fun _ _ => throw .syntaxErr
  set := fun ns x v => (x, v) :: ns
  has := fun ns x => (lookup x ns).isSome
  truth := Val.truth
  iter := Val.items
  str := fun v => match v with
    | .none => pure []
    | v => pure v.toStr
  call := fun f v => apply U f [v] []
  defV := fun x => .func (.user x)

end Interp.PyExpr
