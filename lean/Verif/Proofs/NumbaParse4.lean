import Verif.Spec.NumbaTexts
import Verif.Proofs.NumbaTree
import Verif.Proofs.KernelRfl

/-!
# Texts and syntax trees of `eval_cubic_numba.py`: gradients, four axes
-/

namespace Interp.Spec.PySrc.Numba

set_option maxRecDepth 1000000

theorem vecEvalCubicSplinesG4_parse : parseLines vecEvalCubicSplinesG4Text = some (vecEvalSplinesGFun "vec_eval_cubic_splines_G_4" (axesOf 4)) := by kernel_rfl

end Interp.Spec.PySrc.Numba
