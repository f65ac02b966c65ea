import Verif.Model.CodegenText
import Verif.Tools.GenSrc

/-! Prints `lean/Verif/Proofs/TemplateTree.lean`: `lake env lean --run Verif/Tools/GenTree.lean` in `lean/`. -/

namespace Interp.GenTree
open Interp.Tempita Interp.CodegenText

def q (s : Str) : String := if s = [] then "[]" else "c!" ++ (String.ofList s).quote

def chunk : Chunk → String
  | .text s => s!".text {q s}"
  | .code s p => s!".code {q s} {p}"

mutual
def node (ind : String) : Node → String
  | .text s => s!".text {q s}"
  | .expr p s => s!".expr {p} {q s}"
  | .forIn p vs e b =>
    s!".forIn {p} [{", ".intercalate (vs.map q)}] {q e} <|\n{ind}  {nodes (ind ++ "  ") b}"
  | .cond p ps => s!".cond {p} <|\n{ind}  {parts (ind ++ "  ") ps}"
  | _ => "unexpected"
def nodes (ind : String) : Nodes → String
  | .nil => ".nil"
  | .cons n ns => s!".cons ({node ind n}) <|\n{ind}{nodes ind ns}"
def parts (ind : String) : Parts → String
  | .nil => ".nil"
  | .cons t p b ps =>
    let t := match t with
      | none => "none"
      | some e => s!"(some {q e})"
    s!".cons {t} {p} (\n{ind}  {nodes (ind ++ "  ") b}) <|\n{ind}{parts ind ps}"
end

def toL : Nodes → List Node
  | .nil => []
  | .cons n ns => n :: toL ns

def emit (name text : String) (s : Str) : IO Unit := do
  match lexRaw s, lex s, parse s with
  | .ok raw, .ok lx, .ok tree => do
    IO.println s!"/-- The chunks of `{text}` before trimming. -/"
    IO.println s!"def {name}Raw : List Chunk :=\n  [{",\n   ".intercalate (raw.map chunk)}]\n"
    IO.println s!"/-- The chunks of `{text}`. -/"
    IO.println s!"def {name}Lex : List Chunk :=\n  [{",\n   ".intercalate (lx.map chunk)}]\n"
    let ns := toL tree
    for (n, i) in ns.zip (List.range ns.length) do
      IO.println s!"/-- Part {i} of the parsed `{text}`. -/"
      IO.println s!"def {name}{i} : Node :=\n  {node "  " n}\n"
    IO.println s!"/-- The parsed `{text}`. -/"
    IO.println s!"def {name}Tree : Nodes :="
    for i in List.range ns.length do
      IO.println s!"  .cons {name}{i} <|"
    IO.println "  .nil\n"
    IO.println s!"theorem {name}_raw : lexRaw ({text}) = .ok {name}Raw := by decide +kernel\n"
    IO.println s!"theorem {name}_trim : trimLex {name}Raw = {name}Lex := by decide +kernel\n"
    IO.println s!"theorem {name}_all : parseAll (depth {name}Lex) {name}Lex = .ok {name}Tree := by decide +kernel\n"
    IO.println s!"theorem {name}_parse : parse ({text}) = .ok {name}Tree := parse_of {name}_raw {name}_trim {name}_all\n"
  | _, _, _ => IO.println "error"

end Interp.GenTree

open Interp.GenTree Interp.Tempita Interp.CodegenText in
def main (args : List String) : IO Unit := do
  if args = ["src"] then
    Interp.GenSrc.run
    return
  IO.println "import Verif.Model.CodegenText

/-!
# The parsed templates

Written by `Verif/Tools/GenTree.lean`. The kernel checks that the lexer, the trimming and the parser of the model
turn the literal templates into these trees.
-/

namespace Interp.CodegenText

open Tempita

set_option maxRecDepth 20000

instance exceptDecEq {α : Type} [DecidableEq α] : DecidableEq (Except TErr α) := fun a b =>
  match a, b with
  | .ok a, .ok b => if h : a = b then isTrue (by rw [h]) else isFalse (by simpa using h)
  | .error a, .error b => if h : a = b then isTrue (by rw [h]) else isFalse (by simpa using h)
  | .ok _, .error _ => isFalse (by simp)
  | .error _, .ok _ => isFalse (by simp)

theorem parse_of {s : Str} {raw lx : List Chunk} {tree : Nodes} (h : lexRaw s = .ok raw)
    (h' : trimLex raw = lx) (h'' : parseAll (depth lx) lx = .ok tree) : parse s = .ok tree := by
  subst h'
  have : lex s = .ok (trimLex raw) := by rw [lex, h]; rfl
  rw [parse, this]
  exact h''
"
  emit "point" "evalTemplate" evalTemplate
  emit "rows" "evalTemplateVectorized" evalTemplateVectorized
  emit "blendA" "blendHead0 ++ blendTail" (blendHead0 ++ blendTail)
  emit "blendB" "blendHead1 ++ blendTail" (blendHead1 ++ blendTail)
  IO.println "end Interp.CodegenText"
