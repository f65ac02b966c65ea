import Verif.Spec.NumbaTexts
import Verif.Proofs.NumbaTree
import Verif.Proofs.KernelRfl

/-!
# Texts and syntax trees of `eval_cubic_numba.py`: gradients, three axes
-/

namespace Interp.Spec.PySrc.Numba

set_option maxRecDepth 1000000

theorem vecEvalCubicSplinesG3_parse : parseLines vecEvalCubicSplinesG3Text = some (vecEvalSplinesGFun "vec_eval_cubic_splines_G_3" (axesOf 3)) := by kernel_rfl

end Interp.Spec.PySrc.Numba
