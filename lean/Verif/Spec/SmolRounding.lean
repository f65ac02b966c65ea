import Verif.Spec.Rounding
import Verif.Model.Smolyak

/-!
# A Smolyak interpolant with the computed data read as exact numbers
-/

namespace Interp.Spec
open Interp.Smolyak

variable {R : Rounding}

def exactSmolyak (s : SInterp (Fl R)) : SInterp ℝ :=
  ⟨⟨s.sg.d, s.sg.mu, s.sg.lb.map Fl.val, s.sg.ub.map Fl.val, s.sg.inds, s.sg.pinds, exactArray s.sg.cubeGrid,
    exactArray s.sg.grid, exactArray s.sg.B, exactArray s.sg.BL, exactArray s.sg.BU⟩, exactArray s.f, exactArray s.theta⟩

end Interp.Spec
