import Mathlib.Data.List.Basic
import Mathlib.Data.Nat.Notation
import Mathlib.Data.Int.Notation

/-!
# Source texts of Python functions: text to syntax trees

The part of Python in which the numerical functions of `/repo` are written. (`PyLang` treats the texts that
`codegen.py` and `fungen.py` generate, with proofs for texts of any length; here the texts are fixed and the kernel
evaluates the parser.) Nothing here knows about the functions themselves. A text outside this part of the language
gives `none`: there are no classes, lambdas, string escapes, `with`, several statements in one line; of dictionaries only the
empty one can be written, comprehensions have one variable, slices have no step. A generator is read as the function that
returns the list of what it yields.
-/

namespace Interp.Spec.PySrc

abbrev Str := List Char

/-! ### Tokens -/

/-- Operators, delimiters and keywords. -/
inductive Op where
  | lpar | rpar | lbrack | rbrack | lbrace | rbrace | comma | colon | dot | eq | arrow | dots
  | plus | minus | star | slash | dslash | percent | dstar
  | lt | gt | le | ge | eqeq | ne
  | plusEq | minusEq | starEq | slashEq
  | kIf | kElif | kElse | kFor | kIn | kWhile | kReturn | kContinue | kBreak | kPass | kDef
  | kOr | kAnd | kNot | kIs | kAssert | kRaise | kTry | kExcept | kYield
  deriving DecidableEq, Repr

inductive Tok where
  | name (s : String)
  | int (n : ℕ)
  /-- the decimal fraction `m / 10 ^ k` -/
  | float (m k : ℕ)
  | str (s : String)
  | op (o : Op)
  deriving Repr

/-- Is it this operator? -/
def Tok.isOp (o : Op) : Tok → Bool
  | .op o' => decide (o' = o)
  | _ => false

/-- Characters of identifiers: letters, digits, `_` and everything that is not ASCII. -/
def idChar (c : Char) : Bool := c.isAlphanum || c == '_' || decide (128 ≤ c.toNat)

def op1 : Char → Option Op
  | '(' => some .lpar | ')' => some .rpar | '[' => some .lbrack | ']' => some .rbrack
  | '{' => some .lbrace | '}' => some .rbrace
  | ',' => some .comma | ':' => some .colon | '.' => some .dot | '=' => some .eq
  | '+' => some .plus | '-' => some .minus | '*' => some .star | '/' => some .slash | '%' => some .percent
  | '<' => some .lt | '>' => some .gt
  | _ => none

def op2 : Char → Char → Option Op
  | '-', '>' => some .arrow | '/', '/' => some .dslash | '*', '*' => some .dstar
  | '<', '=' => some .le | '>', '=' => some .ge | '=', '=' => some .eqeq | '!', '=' => some .ne
  | '+', '=' => some .plusEq | '-', '=' => some .minusEq | '*', '=' => some .starEq | '/', '=' => some .slashEq
  | _, _ => none

/-- The operator at the beginning of a text, and what follows. -/
def opAt : Str → Option (Op × Str)
  | '.' :: '.' :: '.' :: r => some (.dots, r)
  | a :: b :: r =>
    match op2 a b with
    | some o => some (o, r)
    | none => (op1 a).map fun o => (o, b :: r)
  | [a] => (op1 a).map fun o => (o, [])
  | [] => none

def keywords : List (Str × Op) :=
  [(['i', 'f'], .kIf), (['e', 'l', 'i', 'f'], .kElif), (['e', 'l', 's', 'e'], .kElse), (['f', 'o', 'r'], .kFor),
   (['i', 'n'], .kIn), (['w', 'h', 'i', 'l', 'e'], .kWhile), (['r', 'e', 't', 'u', 'r', 'n'], .kReturn),
   (['c', 'o', 'n', 't', 'i', 'n', 'u', 'e'], .kContinue), (['b', 'r', 'e', 'a', 'k'], .kBreak),
   (['p', 'a', 's', 's'], .kPass), (['d', 'e', 'f'], .kDef), (['o', 'r'], .kOr), (['a', 'n', 'd'], .kAnd),
   (['n', 'o', 't'], .kNot), (['a', 's', 's', 'e', 'r', 't'], .kAssert), (['r', 'a', 'i', 's', 'e'], .kRaise),
   (['i', 's'], .kIs), (['t', 'r', 'y'], .kTry), (['e', 'x', 'c', 'e', 'p', 't'], .kExcept),
   (['y', 'i', 'e', 'l', 'd'], .kYield)]

def wordTok (w : Str) : Tok :=
  match keywords.find? (fun p => p.1 == w) with
  | some p => .op p.2
  | none => .name (String.ofList w)

def decode (ds : Str) : ℕ := ds.foldl (fun n c => 10 * n + (c.toNat - 48)) 0

/-- A number with integer part `a` and decimals `b`; zeros at the end do not count. -/
def floatTok (a b : Str) : Tok :=
  let b' := (b.reverse.dropWhile (· == '0')).reverse
  .float (decode (a ++ b')) b'.length

/-- Tokens of a line. -/
def lex : ℕ → Str → Option (List Tok)
  | _, [] => some []
  | 0, _ => none
  | n + 1, c :: s =>
    if c == ' ' then lex n s
    else if c == '#' then some []
    else if c.isDigit then
      match (c :: s).dropWhile Char.isDigit with
      | '.' :: r => (lex n (r.dropWhile Char.isDigit)).map
          (floatTok ((c :: s).takeWhile Char.isDigit) (r.takeWhile Char.isDigit) :: ·)
      | 'e' :: '-' :: r => (lex n (r.dropWhile Char.isDigit)).map
          (.float (decode ((c :: s).takeWhile Char.isDigit)) (decode (r.takeWhile Char.isDigit)) :: ·)
      | r => (lex n r).map (.int (decode ((c :: s).takeWhile Char.isDigit)) :: ·)
    else if idChar c then
      (lex n ((c :: s).dropWhile idChar)).map (wordTok ((c :: s).takeWhile idChar) :: ·)
    else if c == '"' || c == '\'' then
      match s.dropWhile (· != c) with
      | [] => none
      | _ :: r => (lex n r).map (.str (String.ofList (s.takeWhile (· != c))) :: ·)
    else match opAt (c :: s) with
      | some p => (lex n p.2).map (.op p.1 :: ·)
      | none => none

/-! ### Lines -/

/-- The lines of a text. -/
def splitLines : Str → List Str
  | [] => [[]]
  | c :: s =>
    match splitLines s with
    | [] => [[c]]
    | l :: ls => if c == '\n' then [] :: l :: ls else (c :: l) :: ls

/-- Three quotation marks in the line? -/
def hasQuotes : Str → Bool
  | [] => false
  | c :: s => ['"', '"', '"'].isPrefixOf (c :: s) || hasQuotes s

/-- Texts between three quotation marks are left out; they begin at the first character of a line and end
with a line. -/
def dropDocs : Bool → List Str → List Str
  | _, [] => []
  | true, l :: ls => if hasQuotes l then dropDocs false ls else dropDocs true ls
  | false, l :: ls =>
    let r := l.dropWhile (· == ' ')
    if ['"', '"', '"'].isPrefixOf r then dropDocs (!hasQuotes (r.drop 3)) ls
    else if ['r', '"', '"', '"'].isPrefixOf r then dropDocs (!hasQuotes (r.drop 4)) ls
    else l :: dropDocs false ls

/-- Opening minus closing brackets. -/
def openings : List Tok → ℤ
  | [] => 0
  | .op .lpar :: ts | .op .lbrack :: ts | .op .lbrace :: ts => openings ts + 1
  | .op .rpar :: ts | .op .rbrack :: ts | .op .rbrace :: ts => openings ts - 1
  | _ :: ts => openings ts

/-- Logical lines, with their indentation: inside brackets the line goes on; empty lines are left out. The first argument is
what has been read of a line that goes on: its indentation, the number of open brackets, its parts in reverse order. -/
def logical : Option (ℕ × ℤ × List (List Tok)) → List (ℕ × List Tok) → List (ℕ × List Tok)
  | none, [] => []
  | some (i, _, tss), [] => [(i, tss.reverse.flatten)]
  | none, (i, ts) :: ls =>
    if ts.isEmpty then logical none ls
    else if openings ts ≤ 0 then (i, ts) :: logical none ls
    else logical (some (i, openings ts, [ts])) ls
  | some (i, d, tss), (_, us) :: ls =>
    if d + openings us ≤ 0 then (i, (us :: tss).reverse.flatten) :: logical none ls
    else logical (some (i, d + openings us, us :: tss)) ls

def lexLines (ls : List Str) : Option (List (ℕ × List Tok)) :=
  ((dropDocs false ls).mapM fun l =>
    (lex l.length l).map fun ts => ((l.takeWhile (· == ' ')).length, ts)).map (logical none)

/-! ### Expressions -/

/-- Syntax trees. `nil` and `cons` are lists of arguments, subscripts or elements; `full` is the subscript `:`, `dots` is
`...`, `slice a b` is `a:b` (`nil` for what is missing); `chain a (link o b ...)` is `a o b ...`; `callX` is a call with keyword
arguments `kw` or starred arguments `star` among its arguments; `comp e x it c` is `[e for x in it if c]` (`nil` without a condition). -/
inductive Ex where
  | name (s : String)
  | int (n : ℕ)
  | float (m k : ℕ)
  | str (s : String)
  | tuple (es : Ex)
  | call (f es : Ex)
  | index (e es : Ex)
  | attr (e : Ex) (s : String)
  | full
  | dots
  | neg (e : Ex)
  | bin (o : Op) (a b : Ex)
  | chain (a l : Ex)
  | link (o : Op) (b l : Ex)
  | not (e : Ex)
  | and (a b : Ex)
  | or (a b : Ex)
  | ite (t c e : Ex)
  | list (es : Ex)
  | comp (e : Ex) (x : String) (it c : Ex)
  | dict
  | slice (a b : Ex)
  | callX (f es : Ex)
  | kw (s : String) (e : Ex)
  | star (e : Ex)
  | nil
  | cons (e es : Ex)
  deriving Repr

abbrev Res := Option (Ex × List Tok)

def isCmp : Op → Bool
  | .lt | .gt | .le | .ge | .eqeq | .ne | .kIs => true
  | _ => false

def isAdd : Op → Bool
  | .plus | .minus => true
  | _ => false

def isMul : Op → Bool
  | .star | .slash | .dslash | .percent => true
  | _ => false

/-- Are there keyword or starred arguments? -/
def special : Ex → Bool
  | .cons (.kw _ _) _ | .cons (.star _) _ => true
  | .cons _ es => special es
  | _ => false

def mkCall (f es : Ex) : Ex := if special es then .callX f es else .call f es

/-- What a list in parentheses is; the second argument: was there a comma at the end? -/
def mkParen : Ex → Bool → Ex
  | .cons e .nil, false => e
  | es, _ => .tuple es

mutual

/-- `t if c else e`. -/
def pExpr : ℕ → List Tok → Res
  | 0, _ => none
  | n + 1, ts => (pOr n ts).bind fun p =>
    match p.2 with
    | .op .kIf :: r => (pOr n r).bind fun q =>
      match q.2 with
      | .op .kElse :: r => (pExpr n r).map fun w => (.ite p.1 q.1 w.1, w.2)
      | _ => none
    | _ => some p

def pOr : ℕ → List Tok → Res
  | 0, _ => none
  | n + 1, ts => (pAnd n ts).bind fun p =>
    match p.2 with
    | .op .kOr :: r => (pOr n r).map fun q => (.or p.1 q.1, q.2)
    | _ => some p

def pAnd : ℕ → List Tok → Res
  | 0, _ => none
  | n + 1, ts => (pNot n ts).bind fun p =>
    match p.2 with
    | .op .kAnd :: r => (pAnd n r).map fun q => (.and p.1 q.1, q.2)
    | _ => some p

def pNot : ℕ → List Tok → Res
  | 0, _ => none
  | n + 1, ts =>
    match ts with
    | .op .kNot :: r => (pNot n r).map fun p => (.not p.1, p.2)
    | _ => pCmp n ts

def pCmp : ℕ → List Tok → Res
  | 0, _ => none
  | n + 1, ts => (pAdd n ts).bind fun p => (pLinks n p.2).map fun q =>
    match q.1 with
    | .nil => (p.1, q.2)
    | l => (.chain p.1 l, q.2)

def pLinks : ℕ → List Tok → Res
  | 0, _ => none
  | n + 1, ts =>
    match ts with
    | .op o :: r =>
      if isCmp o then (pAdd n r).bind fun p => (pLinks n p.2).map fun q => (.link o p.1 q.1, q.2)
      else some (.nil, ts)
    | _ => some (.nil, ts)

def pAdd : ℕ → List Tok → Res
  | 0, _ => none
  | n + 1, ts => (pMul n ts).bind fun p => pAddLoop n p.1 p.2

def pAddLoop : ℕ → Ex → List Tok → Res
  | 0, _, _ => none
  | n + 1, a, ts =>
    match ts with
    | .op o :: r => if isAdd o then (pMul n r).bind fun p => pAddLoop n (.bin o a p.1) p.2 else some (a, ts)
    | _ => some (a, ts)

def pMul : ℕ → List Tok → Res
  | 0, _ => none
  | n + 1, ts => (pUnary n ts).bind fun p => pMulLoop n p.1 p.2

def pMulLoop : ℕ → Ex → List Tok → Res
  | 0, _, _ => none
  | n + 1, a, ts =>
    match ts with
    | .op o :: r => if isMul o then (pUnary n r).bind fun p => pMulLoop n (.bin o a p.1) p.2 else some (a, ts)
    | _ => some (a, ts)

def pUnary : ℕ → List Tok → Res
  | 0, _ => none
  | n + 1, ts =>
    match ts with
    | .op .minus :: r => (pUnary n r).map fun p => (.neg p.1, p.2)
    | _ => pPower n ts

/-- `a ** b`; binds tighter than a minus sign to its left. -/
def pPower : ℕ → List Tok → Res
  | 0, _ => none
  | n + 1, ts => (pAtom n ts).bind fun a => (pPost n a.1 a.2).bind fun p =>
    match p.2 with
    | .op .dstar :: r => (pUnary n r).map fun q => (.bin .dstar p.1 q.1, q.2)
    | _ => some p

def pAtom : ℕ → List Tok → Res
  | 0, _ => none
  | n + 1, ts =>
    match ts with
    | .name s :: r => some (.name s, r)
    | .int m :: r => some (.int m, r)
    | .float m k :: r => some (.float m k, r)
    | .str s :: r => some (.str s, r)
    | .op .lpar :: r => (pItems n .rpar true r).map fun p => (mkParen p.1 p.2.1, p.2.2)
    | .op .lbrack :: .op .rbrack :: r => some (.list .nil, r)
    | .op .lbrack :: r => (pExpr n r).bind fun p => pList n p.1 p.2
    | .op .lbrace :: .op .rbrace :: r => some (.dict, r)
    | _ => none

/-- The rest of a list or comprehension that begins with `e`. -/
def pList : ℕ → Ex → List Tok → Res
  | 0, _, _ => none
  | n + 1, e, ts =>
    match ts with
    | .op .kFor :: .name x :: .op .kIn :: r => (pOr n r).bind fun p =>
      match p.2 with
      | .op .rbrack :: r => some (.comp e x p.1 .nil, r)
      | .op .kIf :: r => (pOr n r).bind fun q =>
        match q.2 with
        | .op .rbrack :: r => some (.comp e x p.1 q.1, r)
        | _ => none
      | _ => none
    | ts => (pMore n .rbrack e ts).map fun p => (.list p.1, p.2.2)

/-- Calls, subscripts and attributes. -/
def pPost : ℕ → Ex → List Tok → Res
  | 0, _, _ => none
  | n + 1, a, ts =>
    match ts with
    | .op .lpar :: r => (pItems n .rpar true r).bind fun p => pPost n (mkCall a p.1) p.2.2
    | .op .lbrack :: r => (pItems n .rbrack true r).bind fun p => pPost n (.index a p.1) p.2.2
    | .op .dot :: .name s :: r => pPost n (.attr a s) r
    | _ => some (a, ts)

/-- A list up to the closing delimiter: its elements, whether there was a comma at the end, the rest. -/
def pItems : ℕ → Op → Bool → List Tok → Option (Ex × Bool × List Tok)
  | 0, _, _, _ => none
  | n + 1, c, start, ts =>
    match ts with
    | [] => none
    | t :: r =>
      if t.isOp c then some (.nil, !start, r)
      else (pItem n c (t :: r)).bind fun p => pMore n c p.1 p.2

/-- The same after the element `e`. -/
def pMore : ℕ → Op → Ex → List Tok → Option (Ex × Bool × List Tok)
  | 0, _, _, _ => none
  | n + 1, c, e, ts =>
    match ts with
    | .op o :: r =>
      if o = c then some (.cons e .nil, false, r)
      else if o = .comma then (pItems n c false r).map fun q => (.cons e q.1, q.2.1, q.2.2)
      else none
    | _ => none

def pItem : ℕ → Op → List Tok → Res
  | 0, _, _ => none
  | n + 1, c, ts =>
    match ts with
    | .op .colon :: .op .rbrack :: r => if c = .rbrack then some (.full, .op .rbrack :: r) else none
    | .op .colon :: .op .comma :: r => if c = .rbrack then some (.full, .op .comma :: r) else none
    | .op .colon :: r => if c = .rbrack then (pExpr n r).map fun q => (.slice .nil q.1, q.2) else none
    | .op .dots :: r => if c = .rbrack then some (.dots, r) else none
    | .op .star :: r => if c = .rpar then (pExpr n r).map fun q => (.star q.1, q.2) else none
    | .name s :: .op .eq :: r => if c = .rpar then (pExpr n r).map fun q => (.kw s q.1, q.2) else none
    | _ => (pExpr n ts).bind fun p =>
      match p.2 with
      | .op .colon :: .op .rbrack :: r => if c = .rbrack then some (.slice p.1 .nil, .op .rbrack :: r) else some p
      | .op .colon :: .op .comma :: r => if c = .rbrack then some (.slice p.1 .nil, .op .comma :: r) else some p
      | .op .colon :: r => if c = .rbrack then (pExpr n r).map fun q => (.slice p.1 q.1, q.2) else some p
      | _ => some p

end

/-- Expressions separated by commas: one expression, or a tuple without parentheses. -/
def pRest : ℕ → List Tok → Res
  | 0, _ => none
  | n + 1, ts => (pExpr n ts).bind fun p =>
    match p.2 with
    | .op .comma :: r => (pRest n r).map fun q => (.cons p.1 q.1, q.2)
    | _ => some (.cons p.1 .nil, p.2)

def pTuple (n : ℕ) (ts : List Tok) : Res := (pRest n ts).map fun p => (mkParen p.1 false, p.2)

/-! ### Statements -/

inductive Simple where
  | assign (target value : Ex)
  /-- `target o= value` -/
  | aug (o : Op) (target value : Ex)
  | expr (e : Ex)
  | ret (e : Option Ex)
  | pass
  | cont
  | brk
  | assert (e : Ex)
  | raise (e : Ex)
  /-- `x.m(es)` for a method `m` that changes a list -/
  | mutate (x m : String) (es : Ex)
  | yield (e : Ex)
  deriving Repr

/-- A sequence of statements. -/
inductive Block where
  | nil
  | simple (s : Simple) (rest : Block)
  | ifte (c : Ex) (body els rest : Block)
  | for (target e : Ex) (body rest : Block)
  | while (c : Ex) (body rest : Block)
  | tryE (body handler rest : Block)
  /-- parameters with their default values -/
  | funDef (name : String) (params : List (String × Option Ex)) (body rest : Block)
  deriving Repr

structure FunDef where
  name : String
  /-- parameters with their default values -/
  params : List (String × Option Ex)
  body : Block
  deriving Repr

def augOp : Op → Option Op
  | .plusEq => some .plus
  | .minusEq => some .minus
  | .starEq => some .star
  | .slashEq => some .slash
  | _ => none

/-- Methods that change a list. -/
def mutators : List String := ["sort", "reverse", "append", "extend"]

/-- An expression as a statement. -/
def mkExpr (e : Ex) : Simple :=
  match e with
  | .call (.attr (.name x) m) es => if m ∈ mutators then .mutate x m es else .expr e
  | e => .expr e

/-- Nothing may follow. -/
def done {α : Type} : Option (α × List Tok) → Option α
  | some (a, []) => some a
  | _ => none

def pSimple (n : ℕ) (ts : List Tok) : Option Simple :=
  match ts with
  | [.op .kReturn] => some (.ret none)
  | .op .kReturn :: r => (done (pTuple n r)).map fun e => .ret (some e)
  | [.op .kContinue] => some .cont
  | [.op .kBreak] => some .brk
  | [.op .kPass] => some .pass
  | .op .kAssert :: r => (pRest n r).bind fun p => if p.2.isEmpty then some (.assert p.1) else none
  | .op .kRaise :: r => (done (pExpr n r)).map .raise
  | .op .kYield :: r => (done (pTuple n r)).map .yield
  | _ => (pTuple n ts).bind fun p =>
    match p.2 with
    | [] => some (mkExpr p.1)
    | .op o :: r =>
      if o = .eq then (done (pTuple n r)).map fun e => .assign p.1 e
      else (augOp o).bind fun o' => (done (pTuple n r)).map fun e => .aug o' p.1 e
    | _ => none

/-- An expression followed by `:`. -/
def pCond (n : ℕ) (ts : List Tok) : Option Ex :=
  (pTuple n ts).bind fun p =>
    match p.2 with
    | [.op .colon] => some p.1
    | _ => none

/-- The variables of a `for` statement. -/
def pTarget : ℕ → List Tok → Res
  | 0, _ => none
  | n + 1, ts =>
    match ts with
    | .name s :: .op .comma :: r => (pTarget n r).map fun q => (.cons (.name s) q.1, q.2)
    | .name s :: r => some (.cons (.name s) .nil, r)
    | _ => none

/-- Parameters with their default values; their types are ignored. -/
def pParams : ℕ → List Tok → Option (List (String × Option Ex) × List Tok)
  | 0, _ => none
  | n + 1, ts =>
    match ts with
    | .op .rpar :: r => some ([], r)
    | .name s :: r =>
      let r := match r with
        | .op .colon :: r' => match pExpr n r' with
          | some p => p.2
          | none => r
        | _ => r
      match r with
      | .op .comma :: r => (pParams n r).map fun q => ((s, none) :: q.1, q.2)
      | .op .rpar :: r => some ([(s, none)], r)
      | .op .eq :: r => (pExpr n r).bind fun p =>
        match p.2 with
        | .op .comma :: r => (pParams n r).map fun q => ((s, some p.1) :: q.1, q.2)
        | .op .rpar :: r => some ([(s, some p.1)], r)
        | _ => none
      | _ => none
    | _ => none

/-- After the parameters: the type of the result is ignored. -/
def pArrow (n : ℕ) : List Tok → Bool
  | [.op .colon] => true
  | .op .arrow :: r => (pCond n r).isSome
  | _ => false

mutual

/-- The statements indented by exactly `k`, up to the first line that is indented less. -/
def pBlock : ℕ → ℕ → List (ℕ × List Tok) → Option (Block × List (ℕ × List Tok))
  | 0, _, _ => none
  | _ + 1, _, [] => some (.nil, [])
  | n + 1, k, (i, ts) :: ls =>
    if i < k then some (.nil, (i, ts) :: ls)
    else if k < i then none
    else match ts with
      | .op .kIf :: r => (pCond n r).bind fun c => (pInner n k ls).bind fun p => (pElse n k p.2).bind fun q =>
          (pBlock n k q.2).map fun w => (.ifte c p.1 q.1 w.1, w.2)
      | .op .kFor :: r => (pTarget n r).bind fun t =>
        match t.2 with
        | .op .kIn :: r => (pCond n r).bind fun e => (pInner n k ls).bind fun p =>
            (pBlock n k p.2).map fun w => (.for (mkParen t.1 false) e p.1 w.1, w.2)
        | _ => none
      | .op .kWhile :: r => (pCond n r).bind fun c => (pInner n k ls).bind fun p =>
          (pBlock n k p.2).map fun w => (.while c p.1 w.1, w.2)
      | [.op .kTry, .op .colon] => (pInner n k ls).bind fun p =>
        match p.2 with
        | (i, [.op .kExcept, .op .colon]) :: ls => if i = k then (pInner n k ls).bind fun q =>
            (pBlock n k q.2).map fun w => (.tryE p.1 q.1 w.1, w.2) else none
        | _ => none
      | .op .kDef :: .name f :: .op .lpar :: r => (pParams n r).bind fun ps =>
          if pArrow n ps.2 then (pInner n k ls).bind fun p =>
            (pBlock n k p.2).map fun w => (.funDef f ps.1 p.1 w.1, w.2)
          else none
      | _ => (pSimple n ts).bind fun s => (pBlock n k ls).map fun w => (.simple s w.1, w.2)

/-- A block that is indented by more than `k`. -/
def pInner : ℕ → ℕ → List (ℕ × List Tok) → Option (Block × List (ℕ × List Tok))
  | 0, _, _ => none
  | n + 1, k, ls =>
    match ls with
    | (j, t) :: r => if k < j then pBlock n j ((j, t) :: r) else none
    | [] => none

/-- `elif` and `else` parts. -/
def pElse : ℕ → ℕ → List (ℕ × List Tok) → Option (Block × List (ℕ × List Tok))
  | 0, _, _ => none
  | n + 1, k, ls =>
    match ls with
    | (i, [.op .kElse, .op .colon]) :: r => if i = k then pInner n k r else some (.nil, ls)
    | (i, .op .kElif :: ts) :: r =>
      if i = k then (pCond n ts).bind fun c => (pInner n k r).bind fun p => (pElse n k p.2).map fun q =>
        (.ifte c p.1 q.1 .nil, q.2)
      else some (.nil, ls)
    | _ => some (.nil, ls)

end

/-- Is there a `yield`? -/
def yields : Block → Bool
  | .nil => false
  | .simple (.yield _) _ => true
  | .simple _ b => yields b
  | .ifte _ a b c => yields a || yields b || yields c
  | .for _ _ a b => yields a || yields b
  | .while _ a b => yields a || yields b
  | .tryE a b c => yields a || yields b || yields c
  | .funDef _ _ _ b => yields b

/-- `return` in a generator: the list of what was yielded, which the variable `yield` has. -/
def collect : Block → Block
  | .nil => .nil
  | .simple (.ret none) b => .simple (.ret (some (.name "yield"))) (collect b)
  | .simple (.yield e) b => .simple (.mutate "yield" "append" (.cons e .nil)) (collect b)
  | .simple s b => .simple s (collect b)
  | .ifte c a b r => .ifte c (collect a) (collect b) (collect r)
  | .for t e a b => .for t e (collect a) (collect b)
  | .while c a b => .while c (collect a) (collect b)
  | .tryE a b c => .tryE (collect a) (collect b) (collect c)
  | .funDef f ps a b => .funDef f ps a (collect b)

/-- One block after another. -/
def Block.append : Block → Block → Block
  | .nil, c => c
  | .simple s b, c => .simple s (b.append c)
  | .ifte e a b r, c => .ifte e a b (r.append c)
  | .for t e a b, c => .for t e a (b.append c)
  | .while e a b, c => .while e a (b.append c)
  | .tryE a b r, c => .tryE a b (r.append c)
  | .funDef f ps a b, c => .funDef f ps a (b.append c)

/-- The body of a function; for a generator, of the function that returns the list. -/
def bodyOf (b : Block) : Block :=
  if yields b then
    .simple (.assign (.name "yield") (.list .nil))
      ((collect b).append (.simple (.ret (some (.name "yield"))) .nil))
  else b

/-- The function that a text with these lines consists of; `n` bounds the depth of recursion of the parser. -/
def pFun (n : ℕ) (s : List Str) : Option FunDef :=
  (lexLines s).bind fun ls =>
    match ls with
    | (i, .op .kDef :: .name f :: .op .lpar :: r) :: ls =>
      (pParams n r).bind fun ps =>
        if pArrow n ps.2 then (pInner n i ls).bind fun b =>
          if b.2.isEmpty then some ⟨f, ps.1, bodyOf b.1⟩ else none
        else none
    | _ => none

/-- The function that a text consists of. -/
def parseFun (s : Str) : Option FunDef := pFun (s.length + 100) (splitLines s)

/-- The function that a text with these lines consists of. -/
def parseLines (s : List Str) : Option FunDef := pFun (s.length + 1000) s

/-- The statements that a text with these lines consists of. -/
def parseStmts (s : List Str) : Option Block :=
  (lexLines s).bind fun ls => (pBlock (s.length + 1000) 0 ls).bind fun b => if b.2.isEmpty then some b.1 else none

/-- The expression that a text of one line consists of. -/
def parseExpr (s : Str) : Option Ex := (lex s.length s).bind fun ts => done (pTuple (s.length + 100) ts)

end Interp.Spec.PySrc
