import Verif.Spec.NumbaTexts
import Verif.Proofs.NumbaTree
import Verif.Proofs.KernelRfl

/-!
# Texts and syntax trees of `eval_cubic_numba.py`: four axes
-/

namespace Interp.Spec.PySrc.Numba

set_option maxRecDepth 1000000

theorem evalCubicSpline4_parse : parseLines evalCubicSpline4Text = some (evalSplineFun "eval_cubic_spline_4" (axesOf 4)) := by kernel_rfl

theorem vecEvalCubicSpline4_parse : parseLines vecEvalCubicSpline4Text = some (vecEvalSplineFun "vec_eval_cubic_spline_4" (axesOf 4)) := by kernel_rfl

theorem evalCubicSplines4_parse : parseLines evalCubicSplines4Text = some (evalSplinesFun "eval_cubic_splines_4" (axesOf 4)) := by kernel_rfl

theorem vecEvalCubicSplines4_parse : parseLines vecEvalCubicSplines4Text = some (vecEvalSplinesFun "vec_eval_cubic_splines_4" (axesOf 4)) := by kernel_rfl

end Interp.Spec.PySrc.Numba
