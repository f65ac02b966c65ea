import Verif.Spec.MoreTexts
import Verif.Spec.PySrc
import Verif.Proofs.KernelRfl

/-!
# The syntax trees of `cartesian.py`
-/

namespace Interp.Spec.PySrc

set_option maxRecDepth 100000

/-- A loop body of `cartesian`. -/
def cartesianLoop0 : Block :=
  .simple (.expr (.call (.name "_repeat_1d") (.cons (.index (.name "nodes") (.cons (.name "i") .nil)) (.cons (.index (.name "repetitions") (.cons (.name "i") .nil)) (.cons (.index (.name "out") (.cons .full (.cons (.name "i") .nil))) .nil))))) <|
  .nil

/-- The body of `cartesian`. -/
def cartesianBody : Block :=
  .simple (.assign (.name "nodes") (.comp (.call (.attr (.name "numpy") "array") (.cons (.name "e") .nil)) "e" (.name "nodes") .nil)) <|
  .simple (.assign (.name "shapes") (.comp (.index (.attr (.name "e") "shape") (.cons (.int 0) .nil)) "e" (.name "nodes") .nil)) <|
  .simple (.assign (.name "n") (.call (.name "len") (.cons (.name "nodes") .nil))) <|
  .simple (.assign (.name "l") (.call (.attr (.name "numpy") "prod") (.cons (.name "shapes") .nil))) <|
  .simple (.assign (.name "out") (.call (.attr (.name "numpy") "zeros") (.cons (.tuple (.cons (.name "l") (.cons (.name "n") .nil))) .nil))) <|
  .ifte (.chain (.name "order") (.link .eqeq (.str "C") .nil)) (
    .simple (.assign (.name "repetitions") (.call (.attr (.name "numpy") "cumprod") (.cons (.bin .plus (.list (.cons (.int 1) .nil)) (.index (.name "shapes") (.cons (.slice .nil (.neg (.int 1))) .nil))) .nil))) <|
    .nil) (
    .simple (.mutate "shapes" "reverse" .nil) <|
    .simple (.assign (.name "sh") (.bin .plus (.list (.cons (.int 1) .nil)) (.index (.name "shapes") (.cons (.slice .nil (.neg (.int 1))) .nil)))) <|
    .simple (.assign (.name "repetitions") (.call (.attr (.name "numpy") "cumprod") (.cons (.name "sh") .nil))) <|
    .simple (.assign (.name "repetitions") (.call (.attr (.name "repetitions") "tolist") .nil)) <|
    .simple (.mutate "repetitions" "reverse" .nil) <|
    .nil) <|
  .for (.name "i") (.call (.name "range") (.cons (.name "n") .nil)) cartesianLoop0 <|
  .simple (.ret (some (.name "out"))) <|
  .nil

/-- The function of `cartesianText`. -/
def cartesianFun : FunDef :=
  ⟨"cartesian", [("nodes", none), ("order", some (.str "C"))], cartesianBody⟩

theorem cartesian_parse : parseFun cartesianText = some cartesianFun := by kernel_rfl

/-- The body of `mlinspace`. -/
def mlinspaceBody : Block :=
  .simple (.assign (.name "a") (.callX (.attr (.name "numpy") "array") (.cons (.name "a") (.cons (.kw "dtype" (.str "float64")) .nil)))) <|
  .simple (.assign (.name "b") (.callX (.attr (.name "numpy") "array") (.cons (.name "b") (.cons (.kw "dtype" (.str "float64")) .nil)))) <|
  .simple (.assign (.name "nums") (.callX (.attr (.name "numpy") "array") (.cons (.name "nums") (.cons (.kw "dtype" (.str "int64")) .nil)))) <|
  .simple (.assign (.name "nodes") (.comp (.call (.attr (.name "numpy") "linspace") (.cons (.index (.name "a") (.cons (.name "i") .nil)) (.cons (.index (.name "b") (.cons (.name "i") .nil)) (.cons (.index (.name "nums") (.cons (.name "i") .nil)) .nil)))) "i" (.call (.name "range") (.cons (.call (.name "len") (.cons (.name "nums") .nil)) .nil)) .nil)) <|
  .simple (.ret (some (.callX (.name "cartesian") (.cons (.name "nodes") (.cons (.kw "order" (.name "order")) .nil))))) <|
  .nil

/-- The function of `mlinspaceText`. -/
def mlinspaceFun : FunDef :=
  ⟨"mlinspace", [("a", none), ("b", none), ("nums", none), ("order", some (.str "C"))], mlinspaceBody⟩

theorem mlinspace_parse : parseFun mlinspaceText = some mlinspaceFun := by kernel_rfl

/-- A loop body of `repeat1d`. -/
def repeat1dLoop0 : Block :=
  .simple (.assign (.name "ind") (.bin .plus (.bin .plus (.bin .star (.bin .star (.name "k") (.name "N")) (.name "L")) (.bin .star (.name "n") (.name "L"))) (.name "l"))) <|
  .simple (.assign (.index (.name "out") (.cons (.name "ind") .nil)) (.name "val")) <|
  .nil

/-- A loop body of `repeat1d`. -/
def repeat1dLoop1 : Block :=
  .for (.name "l") (.call (.name "range") (.cons (.name "L") .nil)) repeat1dLoop0 <|
  .nil

/-- A loop body of `repeat1d`. -/
def repeat1dLoop2 : Block :=
  .simple (.assign (.name "val") (.index (.name "x") (.cons (.name "n") .nil))) <|
  .for (.name "k") (.call (.name "range") (.cons (.name "K") .nil)) repeat1dLoop1 <|
  .nil

/-- The body of `repeat1d`. -/
def repeat1dBody : Block :=
  .simple (.assign (.name "N") (.index (.attr (.name "x") "shape") (.cons (.int 0) .nil))) <|
  .simple (.assign (.name "L") (.bin .dslash (.index (.attr (.name "out") "shape") (.cons (.int 0) .nil)) (.bin .star (.name "K") (.name "N")))) <|
  .for (.name "n") (.call (.name "range") (.cons (.name "N") .nil)) repeat1dLoop2 <|
  .nil

/-- The function of `repeat1dText`. -/
def repeat1dFun : FunDef :=
  ⟨"_repeat_1d", [("x", none), ("K", none), ("out", none)], repeat1dBody⟩

theorem repeat1d_parse : parseFun repeat1dText = some repeat1dFun := by kernel_rfl

end Interp.Spec.PySrc
