import Verif.Model.PyExpr
import Verif.Model.TemplateText
import Verif.Model.Codegen

/-!
# The text of the generated code

Model of `interpolation/splines/codegen.py` at the level of strings: `gen_trex`, `get_values`,
`blending_formula`, `indent` and `get_code_spline` with the literal templates (`Model/TemplateText.lean`)
and the template engine (`Model/Tempita.lean`). Derivative orders are naturals.
-/

namespace Interp.CodegenText

open Tempita PyExpr

/-- `gen_trex`, `codegen.py` L10-28. -/
def genTrexText : List (List Str) → (List ℕ → Str) → List ℕ → Str
  | [], c, inds => c inds
  | h :: q, c, inds =>
    List.intercalate c!" + " (h.mapIdx fun i hi => hi ++ c!"*(" ++ genTrexText q c (inds ++ [i]) ++ c!")")

/-- Name of a basis function, `codegen.py` L37-42. -/
def phiText (diff i ik : ℕ) : Str :=
  if diff = 0 then c!"Φ_" ++ dec i ++ c!"_" ++ dec ik
  else if diff = 1 then c!"d_Φ_" ++ dec i ++ c!"_" ++ dec ik
  else c!"d_" ++ dec diff ++ c!"_Φ_" ++ dec i ++ c!"_" ++ dec ik

/-- One index of a coefficient, `codegen.py` L47 and L53. -/
def indText (i j : ℕ) : Str :=
  if 0 < j then c!"i_" ++ dec i ++ c!" + " ++ dec j else c!"i_" ++ dec i

/-- The functions `c` of `get_values`, `codegen.py` L46-54. -/
def coefText (multispline : Bool) (ix : Str) (arg : List ℕ) : Str :=
  let inds := List.intercalate c!", " (arg.mapIdx indText)
  if multispline then c!"C[" ++ inds ++ c!", " ++ ix ++ c!"]" else c!"C[" ++ inds ++ c!"]"

/-- `get_values`, `codegen.py` L31-57. -/
def getValuesText (d : ℕ) (multispline : Bool) (k : ℕ) (ix : Str) (diffs : Option (List ℕ)) : Str :=
  let ds := diffs.getD (List.replicate d 0)
  let l := ds.mapIdx fun i diff => (List.range k).map fun ik => phiText diff i ik
  genTrexText l (coefText multispline ix) []

/-- `indent`, `codegen.py` L478-479. -/
def indentText (txt : Str) (levels : ℕ) : Str :=
  List.intercalate c!"\n"
    ((splitOn '\n' txt).map fun e => (List.replicate levels c!"    ").flatten ++ e)

/-- The function `phi` of `blending_formula`, `codegen.py` L107 and L112: `pre` is `"Φ_"` or `"d_Φ_"`. -/
def phiFuns (pre : Str) : UserFuns := fun name args _ =>
  match args with
  | [.int i, .int j] =>
    if name = c!"phi" then pure (.str (pre ++ dec i ++ c!"_" ++ dec j)) else throw .typeErr
  | _ => throw .typeErr

/-- Exceptions of a template as exceptions of the function that uses it. Simplified: an exception raised by an expression in a
template keeps its kind; `Template._eval` (`tempita/__init__.py` L338-345) wraps it in a plain `Exception`. -/
def ofTErr {α : Type} : Except TErr α → Except Err α
  | .ok a => .ok a
  | .error (.python e) => .error e
  | .error (.template _) => .error (.exception "TemplateError")
  | .error .assertion => .error .assertion
  | .error .value => .error .value
  | .error .typeErr => .error .typeErr
  | .error .index => .error .index

/-- `blending_formula`, `codegen.py` L82-141. -/
def blendText (k l i : ℕ) : Except Err Str :=
  if k = 1 then
    if l = 0 then pure (c!"Φ_" ++ dec i ++ c!"_0 = 1.0 - λ_" ++ dec i ++ c!"\nΦ_" ++ dec i ++ c!"_1 = λ_" ++ dec i)
    else if l = 1 then pure (c!"d_Φ_" ++ dec i ++ c!"_0 = -1.0/δ_" ++ dec i ++ c!"\nd_Φ_" ++ dec i
      ++ c!"_1 = 1.0/δ_" ++ dec i)
    else pure (c!"\nd_" ++ dec l ++ c!"_Φ_" ++ dec i ++ c!"_0 = 0.0\nd_" ++ dec l ++ c!"_Φ_" ++ dec i ++ c!"_1 = 0.0")
  else if k = 3 then
    if l = 0 then
      ofTErr (substitute (world (phiFuns c!"Φ_")) (blendHead0 ++ blendTail)
        [(c!"i", .int i), (c!"phi", .func (.user c!"phi"))])
    else if l = 1 then
      ofTErr (substitute (world (phiFuns c!"d_Φ_")) (blendHead1 ++ blendTail)
        [(c!"i", .int i), (c!"phi", .func (.user c!"phi"))])
    else throw (.exception "Not implemented")
  else throw (.exception "Spline order not implemented.")

/-- A tuple of integers. -/
def natsOf : List Val → Option (List ℕ)
  | [] => some []
  | .int n :: vs => (natsOf vs).map (n :: ·)
  | _ => none

/-- A keyword argument or its default. -/
def kwArg (kw : List (Str × Val)) (name : Str) (default : Val) : Val := (lookup name kw).getD default

/-- Call of `get_values` from the templates. -/
def callGetValues (args : List Val) (kw : List (Str × Val)) : Except Err Val :=
  match args, kwArg kw c!"multispline" (.bool false), kwArg kw c!"k" (.int 4), kwArg kw c!"i_x" (.str c!"i_x"),
      kwArg kw c!"diffs" .none with
  | [.int d], .bool m, .int k, .str ix, .none => pure (.str (getValuesText d m k ix none))
  | [.int d], .bool m, .int k, .str ix, .tuple vs =>
    match natsOf vs with
    | some ds => pure (.str (getValuesText d m k ix (some ds)))
    | none => throw .typeErr
  | _, _, _, _, _ => throw .typeErr

/-- The functions passed to the templates by `get_code_spline`, `codegen.py` L446-458. -/
def codegenFuns : UserFuns := fun name args kw =>
  if name = c!"get_values" then callGetValues args kw
  else if name = c!"blending_formula" then
    match args, lookup c!"i" kw with
    | [.int k, .int l], some (.int i) => do
      let s ← blendText k l i
      pure (.str s)
    | _, _ => throw .typeErr
  else if name = c!"indent" then
    match args, lookup c!"levels" kw with
    | [.str s], some (.int n) => pure (.str (indentText s n))
    | _, _ => throw .typeErr
  else throw (.name (String.ofList name))

/-- The strings used for the kinds of axes, `eval_splines.py` L112-114. -/
def gtypeText : Codegen.GType → Str
  | .uniform => c!"uniform"
  | .nonuniform => c!"nonuniform"

/-- The argument `orders`: `None` or a tuple of tuples. -/
def ordersVal : Option (List (List ℕ)) → Val
  | none => .none
  | some os => .tuple (os.map fun o => .tuple (o.map .int))

/-- The namespace given to the templates, `codegen.py` L446-458. -/
def namespace0 (cfg : Codegen.Cfg) : NS :=
  [(c!"d", .int cfg.d),
   (c!"vector_valued", .bool cfg.vectorValued),
   (c!"get_values", .func (.user c!"get_values")),
   (c!"allocate", .bool cfg.allocate),
   (c!"grid_types", .list (cfg.gridTypes.map fun t => .str (gtypeText t))),
   (c!"extrap_mode", .str cfg.extrap.toList),
   (c!"orders", ordersVal cfg.orders),
   (c!"bases_orders", .list ((Codegen.basesOrders cfg.d cfg.orders).map fun l => .list (l.map .int))),
   (c!"blending_formula", .func (.user c!"blending_formula")),
   (c!"indent", .func (.user c!"indent")),
   (c!"k", .int cfg.k)]

/-- `get_code_spline`, `codegen.py` L419-460: the source text. -/
def getCodeText (cfg : Codegen.Cfg) : Except Err Str := do
  -- `set(grid_types) != set(["uniform"]) and k > 1`
  if ¬ (cfg.gridTypes ≠ [] ∧ ∀ t ∈ cfg.gridTypes, t = .uniform) ∧ 1 < cfg.k then
    throw (.exception "Nonuniform grids are only supported for linear splines.")
  let _ ← ofTErr (parse evalTemplate)
  let _ ← ofTErr (parse evalTemplateVectorized)
  let code ← ofTErr (substitute (world codegenFuns)
    (if cfg.vectorized then evalTemplateVectorized else evalTemplate) (namespace0 cfg))
  pure (code.drop 1)

end Interp.CodegenText
