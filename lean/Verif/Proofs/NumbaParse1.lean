import Verif.Spec.NumbaTexts
import Verif.Proofs.NumbaTree
import Verif.Proofs.KernelRfl

/-!
# Texts and syntax trees of `eval_cubic_numba.py`: one to three axes
-/

namespace Interp.Spec.PySrc.Numba

set_option maxRecDepth 1000000

theorem numbaInit_parse : parseStmts numbaInitText = some initBlock := by kernel_rfl

theorem evalCubicSpline1_parse : parseLines evalCubicSpline1Text = some (evalSplineFun "eval_cubic_spline_1" (axesOf 1)) := by kernel_rfl

theorem evalCubicSpline2_parse : parseLines evalCubicSpline2Text = some (evalSplineFun "eval_cubic_spline_2" (axesOf 2)) := by kernel_rfl

theorem evalCubicSpline3_parse : parseLines evalCubicSpline3Text = some (evalSplineFun "eval_cubic_spline_3" (axesOf 3)) := by kernel_rfl

theorem vecEvalCubicSpline1_parse : parseLines vecEvalCubicSpline1Text = some (vecEvalSplineFun "vec_eval_cubic_spline_1" (axesOf 1)) := by kernel_rfl

theorem vecEvalCubicSpline2_parse : parseLines vecEvalCubicSpline2Text = some (vecEvalSplineFun "vec_eval_cubic_spline_2" (axesOf 2)) := by kernel_rfl

theorem vecEvalCubicSpline3_parse : parseLines vecEvalCubicSpline3Text = some (vecEvalSplineFun "vec_eval_cubic_spline_3" (axesOf 3)) := by kernel_rfl

theorem evalCubicSplines1_parse : parseLines evalCubicSplines1Text = some (evalSplinesFun "eval_cubic_splines_1" (axesOf 1)) := by kernel_rfl

theorem evalCubicSplines2_parse : parseLines evalCubicSplines2Text = some (evalSplinesFun "eval_cubic_splines_2" (axesOf 2)) := by kernel_rfl

theorem evalCubicSplines3_parse : parseLines evalCubicSplines3Text = some (evalSplinesFun "eval_cubic_splines_3" (axesOf 3)) := by kernel_rfl

theorem vecEvalCubicSplines1_parse : parseLines vecEvalCubicSplines1Text = some (vecEvalSplinesFun "vec_eval_cubic_splines_1" (axesOf 1)) := by kernel_rfl

theorem vecEvalCubicSplines2_parse : parseLines vecEvalCubicSplines2Text = some (vecEvalSplinesFun "vec_eval_cubic_splines_2" (axesOf 2)) := by kernel_rfl

theorem vecEvalCubicSplines3_parse : parseLines vecEvalCubicSplines3Text = some (vecEvalSplinesFun "vec_eval_cubic_splines_3" (axesOf 3)) := by kernel_rfl

theorem vecEvalCubicSplinesG1_parse : parseLines vecEvalCubicSplinesG1Text = some (vecEvalSplinesGFun "vec_eval_cubic_splines_G_1" (axesOf 1)) := by kernel_rfl

theorem vecEvalCubicSplinesG2_parse : parseLines vecEvalCubicSplinesG2Text = some (vecEvalSplinesGFun "vec_eval_cubic_splines_G_2" (axesOf 2)) := by kernel_rfl

end Interp.Spec.PySrc.Numba
