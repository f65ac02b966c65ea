import Mathlib.Data.List.Basic
import Mathlib.Data.Nat.Notation

/-!
# A small part of the Python language: text to syntax trees

Tokens, expressions, simple statements, blocks given by indentation: what the generated code uses. Nothing here knows about
the code generator. The functions take a bound on the depth of recursion; the result does not depend on it once it is large
enough (see `C97_generated_code`).

Not part of it (the parser gives `none`): string escapes, numbers with a fraction other than zero, operators and statements
that are not listed.
-/

namespace Interp.Spec.PyLang

abbrev Str := List Char

/-! ### Tokens -/

/-- Operators, delimiters and keywords. -/
inductive Op where
  | lpar | rpar | lbrack | rbrack | comma | colon | semi | dot | eq
  | plus | minus | star | slash | lt | gt
  | kIf | kElif | kElse | kFor | kIn | kReturn | kContinue | kDef | kOr
  deriving DecidableEq, Repr

inductive Tok where
  | name (s : Str)
  | int (n : ℕ)
  /-- a number with a decimal point and only zeros after it -/
  | float (n : ℕ)
  | str (s : Str)
  | op (o : Op)
  deriving DecidableEq, Repr

/-- Characters of identifiers: letters, digits, `_` and everything that is not ASCII. -/
def idChar (c : Char) : Bool := c.isAlphanum || c == '_' || decide (128 ≤ c.toNat)

def opChar : Char → Option Op
  | '(' => some .lpar | ')' => some .rpar | '[' => some .lbrack | ']' => some .rbrack
  | ',' => some .comma | ':' => some .colon | ';' => some .semi | '.' => some .dot | '=' => some .eq
  | '+' => some .plus | '-' => some .minus | '*' => some .star | '/' => some .slash
  | '<' => some .lt | '>' => some .gt
  | _ => none

def keyword (w : Str) : Option Op :=
  if w = ['i', 'f'] then some .kIf
  else if w = ['e', 'l', 'i', 'f'] then some .kElif
  else if w = ['e', 'l', 's', 'e'] then some .kElse
  else if w = ['f', 'o', 'r'] then some .kFor
  else if w = ['i', 'n'] then some .kIn
  else if w = ['r', 'e', 't', 'u', 'r', 'n'] then some .kReturn
  else if w = ['c', 'o', 'n', 't', 'i', 'n', 'u', 'e'] then some .kContinue
  else if w = ['d', 'e', 'f'] then some .kDef
  else if w = ['o', 'r'] then some .kOr
  else none

def wordTok (w : Str) : Tok :=
  match keyword w with
  | some o => .op o
  | none => .name w

def decode (ds : Str) : ℕ := Nat.ofDigitChars 10 ds 0

/-- Tokens of a line. -/
def lex : ℕ → Str → Option (List Tok)
  | _, [] => some []
  | 0, _ => none
  | n + 1, c :: s =>
    if c = ' ' then lex n s
    else if c = '#' then some []
    else if c.isDigit then
      match (c :: s).dropWhile Char.isDigit with
      | '.' :: r =>
        if (r.takeWhile Char.isDigit).all (· == '0') then
          (lex n (r.dropWhile Char.isDigit)).map (.float (decode ((c :: s).takeWhile Char.isDigit)) :: ·)
        else none
      | r => (lex n r).map (.int (decode ((c :: s).takeWhile Char.isDigit)) :: ·)
    else if idChar c then
      (lex n ((c :: s).dropWhile idChar)).map (wordTok ((c :: s).takeWhile idChar) :: ·)
    else if c = '"' ∨ c = '\'' then
      match s.dropWhile (· != c) with
      | [] => none
      | _ :: r => (lex n r).map (.str (s.takeWhile (· != c)) :: ·)
    else match opChar c with
      | some o => (lex n s).map (.op o :: ·)
      | none => none

/-! ### Expressions -/

/-- Syntax trees. `nil` and `cons` are lists of arguments, subscripts or elements; `full` is the subscript `:`. -/
inductive PExpr where
  | name (s : Str)
  | int (n : ℕ)
  | float (n : ℕ)
  | str (s : Str)
  | paren (e : PExpr)
  | tuple (es : PExpr) (trailing : Bool)
  | call (f es : PExpr)
  | index (e es : PExpr)
  | attr (e : PExpr) (s : Str)
  | full
  | neg (e : PExpr)
  | bin (o : Op) (a b : PExpr)
  | nil
  | cons (e es : PExpr)
  deriving DecidableEq, Repr

/-- How tightly a binary operator binds; all associate to the left. -/
def opLevel : Op → Option ℕ
  | .kOr => some 0
  | .lt | .gt => some 1
  | .plus | .minus => some 2
  | .star | .slash => some 3
  | _ => none

/-- What a list in parentheses is. -/
def mkParen : PExpr → Bool → PExpr
  | .cons e .nil, false => .paren e
  | es, t => .tuple es t

mutual

/-- Operators of level `l` or tighter (`l = 4`: unary operators). -/
def pBin : ℕ → ℕ → List Tok → Option (PExpr × List Tok)
  | 0, _, _ => none
  | n + 1, l, ts =>
    if l < 4 then (pBin n (l + 1) ts).bind fun p => pLoop n l p.1 p.2
    else pUnary n ts

/-- Further operands of operators of level `l`. -/
def pLoop : ℕ → ℕ → PExpr → List Tok → Option (PExpr × List Tok)
  | 0, _, _, _ => none
  | n + 1, l, a, ts =>
    match ts with
    | .op o :: r =>
      if opLevel o = some l then (pBin n (l + 1) r).bind fun p => pLoop n l (.bin o a p.1) p.2
      else some (a, ts)
    | _ => some (a, ts)

def pUnary : ℕ → List Tok → Option (PExpr × List Tok)
  | 0, _ => none
  | n + 1, ts =>
    match ts with
    | .op .minus :: r => (pUnary n r).map fun p => (.neg p.1, p.2)
    | _ => (pAtom n ts).bind fun p => pPost n p.1 p.2

def pAtom : ℕ → List Tok → Option (PExpr × List Tok)
  | 0, _ => none
  | n + 1, ts =>
    match ts with
    | .name s :: r => some (.name s, r)
    | .int m :: r => some (.int m, r)
    | .float m :: r => some (.float m, r)
    | .str s :: r => some (.str s, r)
    | .op .lpar :: r => (pItems n .rpar true r).map fun p => (mkParen p.1 p.2.1, p.2.2)
    | _ => none

/-- Calls, subscripts and attributes. -/
def pPost : ℕ → PExpr → List Tok → Option (PExpr × List Tok)
  | 0, _, _ => none
  | n + 1, a, ts =>
    match ts with
    | .op .lpar :: r => (pItems n .rpar true r).bind fun p =>
        if p.2.1 then none else pPost n (.call a p.1) p.2.2
    | .op .lbrack :: r => (pItems n .rbrack true r).bind fun p =>
        if p.2.1 ∨ p.1 = .nil then none else pPost n (.index a p.1) p.2.2
    | .op .dot :: .name s :: r => pPost n (.attr a s) r
    | _ => some (a, ts)

/-- A list up to the closing delimiter: its elements, whether there was a comma at the end, the rest. -/
def pItems : ℕ → Op → Bool → List Tok → Option (PExpr × Bool × List Tok)
  | 0, _, _, _ => none
  | n + 1, c, start, ts =>
    if ts.head? = some (.op c) then some (.nil, !start, ts.tail)
    else (pItem n c ts).bind fun p => pMore n c p.1 p.2

/-- The same after the element `e`. -/
def pMore : ℕ → Op → PExpr → List Tok → Option (PExpr × Bool × List Tok)
  | 0, _, _, _ => none
  | n + 1, c, e, ts =>
    match ts with
    | .op o :: r =>
      if o = c then some (.cons e .nil, false, r)
      else if o = .comma then (pItems n c false r).map fun q => (.cons e q.1, q.2.1, q.2.2)
      else none
    | _ => none

def pItem : ℕ → Op → List Tok → Option (PExpr × List Tok)
  | 0, _, _ => none
  | n + 1, c, ts =>
    match ts with
    | .op .colon :: r => if c = .rbrack then some (.full, r) else none
    | _ => pBin n 0 ts

end

/-! ### Lines -/

inductive Simple where
  | assign (target value : PExpr)
  | expr (e : PExpr)
  | ret (e : PExpr)
  | cont
  deriving DecidableEq, Repr

/-- First line of a block. -/
inductive Header where
  | ifH (c : PExpr)
  | elifH (c : PExpr)
  | elseH
  | forH (x : Str) (e : PExpr)
  /-- a function with the names of its parameters and their default values -/
  | defH (f : Str) (ps : List (Str × Option PExpr))
  deriving DecidableEq, Repr

inductive Line where
  | simple (ss : List Simple)
  | header (h : Header)
  deriving DecidableEq, Repr

def pSimple (n : ℕ) (ts : List Tok) : Option (Simple × List Tok) :=
  match ts with
  | .op .kReturn :: r => (pBin n 0 r).map fun p => (.ret p.1, p.2)
  | .op .kContinue :: r => some (.cont, r)
  | _ => (pBin n 0 ts).bind fun p =>
    match p.2 with
    | .op .eq :: r => (pBin n 0 r).map fun q => (.assign p.1 q.1, q.2)
    | _ => some (.expr p.1, p.2)

/-- Simple statements separated by `;`. -/
def pSimples : ℕ → List Tok → Option (List Simple)
  | 0, _ => none
  | n + 1, ts => (pSimple n ts).bind fun p =>
    match p.2 with
    | [] => some [p.1]
    | [.op .semi] => some [p.1]
    | .op .semi :: r => (pSimples n r).map (p.1 :: ·)
    | _ => none

/-- Parameters of a function. -/
def pParams : ℕ → List Tok → Option (List (Str × Option PExpr))
  | 0, _ => none
  | n + 1, ts =>
    match ts with
    | .name s :: .op .comma :: r => (pParams n r).map ((s, none) :: ·)
    | [.name s, .op .rpar, .op .colon] => some [(s, none)]
    | .name s :: .op .eq :: r => (pBin n 0 r).bind fun p =>
      match p.2 with
      | .op .comma :: r => (pParams n r).map ((s, some p.1) :: ·)
      | [.op .rpar, .op .colon] => some [(s, some p.1)]
      | _ => none
    | _ => none

/-- An expression followed by `:`. -/
def pCond (n : ℕ) (ts : List Tok) : Option PExpr :=
  (pBin n 0 ts).bind fun p => if p.2 = [.op .colon] then some p.1 else none

def pLine (n : ℕ) (ts : List Tok) : Option Line :=
  match ts with
  | .op .kIf :: r => (pCond n r).map fun c => .header (.ifH c)
  | .op .kElif :: r => (pCond n r).map fun c => .header (.elifH c)
  | [.op .kElse, .op .colon] => some (.header .elseH)
  | .op .kFor :: .name x :: .op .kIn :: r => (pCond n r).map fun e => .header (.forH x e)
  | .op .kDef :: .name f :: .op .lpar :: r => (pParams n r).map fun ps => .header (.defH f ps)
  | _ => (pSimples n ts).map .simple

/-- Indentation of a line and its contents. -/
def pText (n : ℕ) (l : Str) : Option (ℕ × Line) :=
  (lex n l).bind fun ts => (pLine n ts).map fun L => ((l.takeWhile (· == ' ')).length, L)

/-! ### Blocks -/

/-- A sequence of statements. -/
inductive Block where
  | nil
  | simple (ss : List Simple) (rest : Block)
  | block (h : Header) (body rest : Block)
  deriving DecidableEq, Repr

/-- The statements indented by exactly `k`, up to the first line that is indented less. -/
def pBlock : ℕ → ℕ → List (ℕ × Line) → Option (Block × List (ℕ × Line))
  | 0, _, _ => none
  | _ + 1, _, [] => some (.nil, [])
  | n + 1, k, (i, L) :: ls =>
    if i < k then some (.nil, (i, L) :: ls)
    else if k < i then none
    else match L with
      | .simple ss => (pBlock n k ls).map fun p => (.simple ss p.1, p.2)
      | .header h =>
        match ls with
        | [] => none
        | (j, _) :: _ =>
          if k < j then (pBlock n j ls).bind fun p => (pBlock n k p.2).map fun q => (.block h p.1 q.1, q.2)
          else none

/-- A line that ends with a backslash is continued by the next one. -/
def joinLines : List Str → List Str
  | [] => []
  | l :: ls =>
    if l.getLast? = some '\\' then
      match joinLines ls with
      | [] => [l.dropLast]
      | m :: ms => (l.dropLast ++ m) :: ms
    else l :: joinLines ls

/-- The statements of a text given by its lines. -/
def pLines (n : ℕ) (ls : List Str) : Option Block :=
  ((joinLines ls).mapM (pText n)).bind fun ls =>
    (pBlock n 0 ls).bind fun p => if p.2 = [] then some p.1 else none

end Interp.Spec.PyLang
