import Verif.Model.Codegen

/-!
# Python source of a program

The source lines that each statement of the model stands for, written with string interpolation, and the
lines of a source text that matter to Python (blank lines and comments are dropped).
-/

namespace Interp.Spec.Text

open Codegen

/-- Name of a basis function. -/
def phi (l i j : ℕ) : String :=
  if l = 0 then s!"Φ_{i}_{j}" else if l = 1 then s!"d_Φ_{i}_{j}" else s!"d_{l}_Φ_{i}_{j}"

/-- Indices `i_0 + o_0, i_1 + o_1, ...`; `i` numbers the first axis. -/
def indices : ℕ → List ℕ → String
  | _, [] => ""
  | i, [o] => if o = 0 then s!"i_{i}" else s!"i_{i} + {o}"
  | i, o :: os => (if o = 0 then s!"i_{i}, " else s!"i_{i} + {o}, ") ++ indices (i + 1) os

/-- Source of an expression. -/
def expr : TExpr → String
  | .phi l i j => phi l i j
  | .coef offs vec => if vec then s!"C[{indices 0 offs}, i_x]" else s!"C[{indices 0 offs}]"
  | .mul a b => s!"{expr a}*({expr b})"
  | .add a b => s!"{expr a} + {expr b}"
  | .empty => ""

/-- `str` of a tuple given by the sources of its elements. -/
def tuple : List String → String
  | [] => "()"
  | [a] => s!"({a},)"
  | as => s!"({", ".intercalate as})"

/-- `str(orders)`. -/
def orders : Option (List (List ℕ)) → String
  | none => "None"
  | some os => tuple (os.map fun o => tuple (o.map toString))

/-- `blending_formula(1, l, i)`. -/
def blend1 (l i : ℕ) : List String :=
  if l = 0 then
    [s!"Φ_{i}_0 = 1.0 - λ_{i}",
     s!"Φ_{i}_1 = λ_{i}"]
  else if l = 1 then
    [s!"d_Φ_{i}_0 = -1.0/δ_{i}",
     s!"d_Φ_{i}_1 = 1.0/δ_{i}"]
  else
    [s!"d_{l}_Φ_{i}_0 = 0.0",
     s!"d_{l}_Φ_{i}_1 = 0.0"]

/-- `blending_formula(3, l, i)`, `l ≤ 1`. -/
def blend3 (l i : ℕ) : List String :=
  [if l = 0 then
    s!"μ_{i}_0 = λ_{i}*λ_{i}*λ_{i};  μ_{i}_1 = λ_{i}*λ_{i};  μ_{i}_2 = λ_{i};  μ_{i}_3 = 1.0;"
   else
    s!"μ_{i}_0 = 3*λ_{i}*λ_{i}*δ_{i};  μ_{i}_1 = 2*λ_{i}*δ_{i};  μ_{i}_2 = δ_{i};  μ_{i}_3 = 0.0;"]
  ++ ((List.range 4).map fun j => s!"{phi l i j}= 0.0")
  ++ [s!"if λ_{i} < 0:"]
  ++ ((List.range 4).map fun j => s!"    {phi l i j} = dCd[{j},3]*μ_{i}_2 + Cd[{j},3]*μ_{i}_3")
  ++ [s!"elif λ_{i} > 1:"]
  ++ ((List.range 4).map fun j => s!"    {phi l i j} = (3*Cd[{j},0] + 2*Cd[{j},1] + Cd[{j},2])*(μ_{i}_2-μ_{i}_3)"
        ++ s!" + (Cd[{j},0]+Cd[{j},1]+Cd[{j},2]+Cd[{j},3])*μ_{i}_3")
  ++ ["else:"]
  ++ ((List.range 4).map fun j =>
        s!"    {phi l i j} = (Cd[{j},0]*μ_{i}_0 + Cd[{j},1]*μ_{i}_1 + Cd[{j},2]*μ_{i}_2 + Cd[{j},3]*μ_{i}_3)")

/-- What happens outside the grid in constant mode. -/
def guard (cfg : Cfg) : GuardBody → List String
  | .zeroReturn => ["out[:] = 0.0", "return out"]
  | .zeroFall => ["out[:] = 0.0"]
  | .returnZero => ["val = 0.0", "return val"]
  | .zeroContinue => [if cfg.vectorValued then "out[nn,:] = 0.0" else "out[nn] = 0.0", "continue"]

/-- Index prefix of the current point in `points` and `out`. -/
def row (cfg : Cfg) (sep : String) : String := if cfg.vectorized then s!"nn{sep}" else ""

/-- Source lines of a statement. -/
def stmt (cfg : Cfg) : Stmt → List String
  | .readNVals d => [s!"n_vals = C.shape[{d}]"]
  | .alloc .vals => ["out = zeros(n_vals)"]
  | .alloc (.valsOrders m) => [s!"out = zeros((n_vals, {m}))"]
  | .alloc (.orders m) => [s!"out = zeros({m})"]
  | .allocateOutput _ _ => [s!"out = allocate_output(grid, C, points, {orders cfg.orders})"]
  | .recoverUniform i =>
    [s!"a_{i} = grid[{i}][0]",
     s!"b_{i} = grid[{i}][1]",
     s!"n_{i} = grid[{i}][2]",
     s!"δ_{i} = (n_{i}-1.0)/(b_{i}-a_{i})"]
  | .recoverNonuniform i bounds =>
    [s!"gc_{i} = grid[{i}]",
     s!"N_{i} = gc_{i}.shape[0]"]
    ++ (if bounds then
      [s!"a_{i} = gc_{i}[0]",
       s!"b_{i} = gc_{i}[N_{i}-1]"] else [])
  | .loadX i => [s!"x_{i} = points[{row cfg ","}{i}]"]
  | .clampNearest i => [s!"x_{i} = max(a_{i}, min(x_{i}, b_{i}))"]
  | .constGuard i body => s!"if (x_{i}<a_{i}) or (x_{i}>b_{i}):" :: (guard cfg body).map ("    " ++ ·)
  | .locateUniform i =>
    [s!"u_{i} = (x_{i} - a_{i})*δ_{i}",
     s!"i_{i} = int( floor( u_{i} ) )",
     s!"i_{i} = max( min(i_{i},n_{i}-2), 0 )",
     s!"λ_{i} = u_{i}-i_{i}"]
  | .locateNonuniform i =>
    [s!"i_{i} = int(np.searchsorted(gc_{i}, x_{i}))-1",
     s!"i_{i} = min(max(i_{i}, 0), N_{i}-2)",
     s!"δ_{i} = (gc_{i}[i_{i}+1]-gc_{i}[i_{i}])",
     s!"λ_{i} = (x_{i}-gc_{i}[i_{i}])/δ_{i}"]
  | .blend1 l i => blend1 l i
  | .blend3 l i => blend3 l i
  | .storeComp e =>
    ["for i_x in range(n_vals):",
     s!"    out[{row cfg ", "}i_x] = {expr e}"]
  | .storeCompOrders assigns stores =>
    ["for i_x in range(n_vals):"]
    ++ (assigns.map fun p => s!"    val_{String.ofList p.1} = {expr p.2}")
    ++ (stores.mapIdx fun j v => s!"    out[{row cfg ", "}i_x, {j}] = val_{String.ofList v}")
  | .assignVal v e => [s!"val_{String.ofList v} = {expr e}"]
  | .storeVal j v => [s!"out[{row cfg ","}{j}] = val_{String.ofList v}"]
  | .storeScalar e => [s!"out[nn] = {expr e}"]
  | .retVal e => [s!"val = {expr e}", "return val"]
  | .retTuple vs => ["val = (\\"] ++ (vs.map fun v => s!"val_{String.ofList v},\\") ++ [")", "return val"]
  | .retOut => ["return out"]

/-- Lines of a block, indented. -/
def block (cfg : Cfg) (pad : String) (ss : List Stmt) : List String :=
  (ss.flatMap (stmt cfg)).map (pad ++ ·)

/-- Source lines of the function. -/
def program (cfg : Cfg) (p : Program) : List String :=
  ["def eval_spline(grid, C, points, out=None, k=1, diff=\"None\", extrap_mode='linear'):",
   "    \"This is my docstring\""]
  ++ (if cfg.vectorized then ["    N = points.shape[0]"] else [])
  ++ block cfg "    " p.prelude
  ++ (if cfg.vectorized then ["    for nn in range(N):"] else [])
  ++ block cfg "        " p.body
  ++ (if p.retOut then ["    return out"] else [])

/-- Lines of a text; the text after the last newline counts if it is not empty. -/
def splitLines : List Char → List (List Char)
  | [] => []
  | c :: s =>
    if c = '\n' then [] :: splitLines s
    else match splitLines s with
      | [] => [[c]]
      | l :: ls => (c :: l) :: ls

/-- Is a line empty, or a comment? -/
def ignored (l : List Char) : Bool :=
  match l.dropWhile (fun c => c == ' ') with
  | [] => true
  | c :: _ => c == '#'

/-- The lines Python executes. -/
def codeLines (s : List Char) : List (List Char) := (splitLines s).filter fun l => !ignored l

end Interp.Spec.Text
