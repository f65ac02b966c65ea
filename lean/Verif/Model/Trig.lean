import Verif.Model.Basic

/-!
# Functions and constants of `numpy` that belong to the arithmetic
-/

namespace Interp.Smolyak

/-- What `s_n` needs besides the operations: `numpy.cos`, `numpy.pi`, `1e-14`. -/
class Trig (K : Type) where
  cos : K → K
  pi : K
  tol : K

end Interp.Smolyak
