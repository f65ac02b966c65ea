import Lean.Elab.Term
import Lean.ToExpr

/-! Literals for long texts. -/

open Lean Elab Term in
/-- `lines!"text"` is the list of the lines of a literal, each the list of its characters. -/
elab:max "lines!" s:str : term => do
  return toExpr ((s.getString.splitOn "\n").map String.toList)
