import Verif.Spec.Rounding

/-! Weak comparisons of numbers computed with rounding are exact, like the strict ones. -/

namespace Interp

instance {R : Rounding} : LE (Fl R) := ⟨fun x y => x.val ≤ y.val⟩
noncomputable instance {R : Rounding} : DecidableLE (Fl R) := fun x y => inferInstanceAs (Decidable (x.val ≤ y.val))

end Interp
