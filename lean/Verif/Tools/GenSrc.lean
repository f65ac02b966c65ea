import Verif.Spec.SourceTexts
import Verif.Spec.PySrc

/-! Prints `lean/Verif/Proofs/SourceTrees.lean`: `lake env lean --run Verif/Tools/GenTree.lean src` in `lean/`. -/

namespace Interp.GenSrc
open Interp.Spec.PySrc

def op (o : Op) : String := "." ++ ((reprStr o).splitOn ".").getLast!

partial def ex : Ex → String
  | .name s => s!"(.name {s.quote})"
  | .int n => s!"(.int {n})"
  | .float m k => s!"(.float {m} {k})"
  | .str s => s!"(.str {s.quote})"
  | .tuple es => s!"(.tuple {ex es})"
  | .call f es => s!"(.call {ex f} {ex es})"
  | .index e es => s!"(.index {ex e} {ex es})"
  | .attr e s => s!"(.attr {ex e} {s.quote})"
  | .full => ".full"
  | .dots => ".dots"
  | .neg e => s!"(.neg {ex e})"
  | .bin o a b => s!"(.bin {op o} {ex a} {ex b})"
  | .chain a l => s!"(.chain {ex a} {ex l})"
  | .link o b l => s!"(.link {op o} {ex b} {ex l})"
  | .not e => s!"(.not {ex e})"
  | .and a b => s!"(.and {ex a} {ex b})"
  | .or a b => s!"(.or {ex a} {ex b})"
  | .ite t c e => s!"(.ite {ex t} {ex c} {ex e})"
  | .list es => s!"(.list {ex es})"
  | .comp e x it c => s!"(.comp {ex e} {x.quote} {ex it} {ex c})"
  | .dict => ".dict"
  | .slice a b => s!"(.slice {ex a} {ex b})"
  | .callX f es => s!"(.callX {ex f} {ex es})"
  | .kw s e => s!"(.kw {s.quote} {ex e})"
  | .star e => s!"(.star {ex e})"
  | .nil => ".nil"
  | .cons e es => s!"(.cons {ex e} {ex es})"

def simple : Simple → String
  | .assign t e => s!"(.assign {ex t} {ex e})"
  | .aug o t e => s!"(.aug {op o} {ex t} {ex e})"
  | .expr e => s!"(.expr {ex e})"
  | .ret none => "(.ret none)"
  | .ret (some e) => s!"(.ret (some {ex e}))"
  | .pass => ".pass"
  | .cont => ".cont"
  | .brk => ".brk"
  | .assert e => s!"(.assert {ex e})"
  | .raise e => s!"(.raise {ex e})"
  | .mutate x m es => s!"(.mutate {x.quote} {m.quote} {ex es})"
  | .yield e => s!"(.yield {ex e})"

def params (ps : List (String × Option Ex)) : String :=
  "[" ++ ", ".intercalate (ps.map fun p => match p.2 with
    | none => s!"({p.1.quote}, none)"
    | some e => s!"({p.1.quote}, some {ex e})") ++ "]"

/-- Loops become definitions of their own (their bodies): the state is the number of the next one and
the definitions so far. -/
partial def block (nm ind : String) (b : Block) : StateM (ℕ × List String) String := do
  match b with
  | .nil => pure ".nil"
  | .simple s r => pure s!".simple {simple s} <|\n{ind}{← block nm ind r}"
  | .ifte c a b r =>
    let a ← block nm (ind ++ "  ") a
    let b ← block nm (ind ++ "  ") b
    let r ← block nm ind r
    pure s!".ifte {ex c} (\n{ind}  {a}) (\n{ind}  {b}) <|\n{ind}{r}"
  | .for t e b r =>
    let b ← block nm "  " b
    let (k, ds) ← get
    set (k + 1, ds ++ [s!"/-- A loop body of `{nm}`. -/\ndef {nm}Loop{k} : Block :=\n  {b}\n"])
    let r ← block nm ind r
    pure s!".for {ex t} {ex e} {nm}Loop{k} <|\n{ind}{r}"
  | .while c b r =>
    let b ← block nm (ind ++ "  ") b
    let r ← block nm ind r
    pure s!".while {ex c} (\n{ind}  {b}) <|\n{ind}{r}"
  | .tryE a b r =>
    let a ← block nm (ind ++ "  ") a
    let b ← block nm (ind ++ "  ") b
    let r ← block nm ind r
    pure s!".tryE (\n{ind}  {a}) (\n{ind}  {b}) <|\n{ind}{r}"
  | .funDef f ps b r =>
    let b ← block nm "  " b
    let (k, ds) ← get
    set (k + 1, ds ++ [s!"/-- The body of a function inside `{nm}`. -/\ndef {nm}Fun{k} : Block :=\n  {b}\n"])
    let r ← block nm ind r
    pure s!".funDef {f.quote} {params ps} {nm}Fun{k} <|\n{ind}{r}"

def emit (name : String) (s : Str) : IO Unit := do
  match parseFun s with
  | none => throw (IO.userError s!"{name} does not parse")
  | some F =>
    let (b, _, ds) := (block name "  " F.body).run (0, [])
    for d in ds do IO.println d
    IO.println s!"/-- The body of the function of `{name}Text`. -/\ndef {name}Body : Block :=\n  {b}\n"
    IO.println s!"/-- The function of `{name}Text`. -/\ndef {name}Fun : FunDef :=\n  ⟨{F.name.quote}, {params F.params}, {name}Body⟩\n"
    IO.println s!"theorem {name}_parse : parseFun {name}Text = some {name}Fun := by kernel_rfl\n"

def emitConst (name : String) (s : Str) : IO Unit := do
  match parseExpr s with
  | none => throw (IO.userError s!"{name} does not parse")
  | some e =>
    IO.println s!"/-- The expression `{name}Text`. -/\ndef {name}Ex : Ex :=\n  {ex e}\n"
    IO.println s!"theorem {name}_parse : parseExpr {name}Text = some {name}Ex := by kernel_rfl\n"

def run : IO Unit := do
  IO.println "import Verif.Spec.SourceTexts
import Verif.Spec.PySrc
import Verif.Proofs.KernelRfl

/-!
# The source texts, parsed

Written by `Verif/Tools/GenSrc.lean`; the theorems say that this is what the parser gives.
-/

namespace Interp.Spec.PySrc

set_option maxRecDepth 100000
"
  emit "hermiteSplines" hermiteSplinesText
  emit "hermiteInterp" hermiteInterpText
  emit "hermiteInterpolation" hermiteInterpolationText
  emit "hermiteInterpolationVect" hermiteInterpolationVectText
  emit "olHermite" olHermiteText
  emit "solve" solveText
  emit "findCoefs" findCoefsText
  emit "filter" filterText
  emit "filterAlloc" filterAllocText
  emit "b0" b0Text
  emit "b" bText
  emit "nComplete" nCompleteText
  emit "implVec" implVecText
  emit "implMat" implMatText
  emit "derImplVec" derImplVecText
  emit "derImplMat" derImplMatText
  emit "completePolynomial" completePolynomialText
  emit "completePolynomialDer" completePolynomialDerText
  emitConst "basis" basisText
  IO.println "end Interp.Spec.PySrc"

end Interp.GenSrc
