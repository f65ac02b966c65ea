import Verif.Proofs.CodegenWhole
import Verif.Proofs.CodegenCall

/-!
# The text of the generated code: C91
-/

namespace Interp.Props
open Interp.Codegen Interp.CodegenText Interp.Spec.Text

/-- C91. The source text made from the templates has, up to blank lines and comments, exactly the lines that spell
the statements of the model's program; where the model raises an exception, the templates raise it. -/
theorem C91_generated_text (cfg : Cfg) (hg : cfg.gridTypes.length = cfg.d) :
    (∀ p, getCodeSpline cfg = .ok p →
      ∃ t, getCodeText cfg = .ok t ∧ codeLines t = (program cfg p).map String.toList) ∧
    ∀ e, getCodeSpline cfg = .error e → getCodeText cfg = .error e :=
  ⟨fun _ h => getCodeText_ok hg h, fun _ h => getCodeText_error hg h⟩

/-- C91 for the code used by a call of `eval_spline`. -/
theorem C91_called_text {K : Type} (G : List (GridDim K)) (C : NdArray K) (vectorized allocate : Bool) (k : ℕ)
    (orders : Option (List (List ℕ))) (mode : String) :
    (∀ p, getCodeSpline (callCfg G C vectorized allocate k orders mode) = .ok p →
      ∃ t, getCodeText (callCfg G C vectorized allocate k orders mode) = .ok t ∧
        codeLines t = (program (callCfg G C vectorized allocate k orders mode) p).map String.toList) ∧
    ∀ e, getCodeSpline (callCfg G C vectorized allocate k orders mode) = .error e →
      getCodeText (callCfg G C vectorized allocate k orders mode) = .error e :=
  C91_generated_text _ (by simp [callCfg])

section Examples

/-- Two axes of both kinds, one point. -/
def textCfg : Cfg :=
  { d := 2, k := 1, vectorValued := false, vectorized := false, allocate := true,
    gridTypes := [.uniform, .nonuniform], extrap := "nearest", orders := none }

/-- C91: the whole text of a generated function. -/
example : ∃ t, getCodeText textCfg = .ok t ∧ codeLines t = [
    "def eval_spline(grid, C, points, out=None, k=1, diff=\"None\", extrap_mode='linear'):",
    "    \"This is my docstring\"",
    "    a_0 = grid[0][0]",
    "    b_0 = grid[0][1]",
    "    n_0 = grid[0][2]",
    "    δ_0 = (n_0-1.0)/(b_0-a_0)",
    "    gc_1 = grid[1]",
    "    N_1 = gc_1.shape[0]",
    "    x_0 = points[0]",
    "    x_0 = max(a_0, min(x_0, b_0))",
    "    x_1 = points[1]",
    "    x_1 = max(a_1, min(x_1, b_1))",
    "    u_0 = (x_0 - a_0)*δ_0",
    "    i_0 = int( floor( u_0 ) )",
    "    i_0 = max( min(i_0,n_0-2), 0 )",
    "    λ_0 = u_0-i_0",
    "    i_1 = int(np.searchsorted(gc_1, x_1))-1",
    "    i_1 = min(max(i_1, 0), N_1-2)",
    "    δ_1 = (gc_1[i_1+1]-gc_1[i_1])",
    "    λ_1 = (x_1-gc_1[i_1])/δ_1",
    "    Φ_0_0 = 1.0 - λ_0",
    "    Φ_0_1 = λ_0",
    "    Φ_1_0 = 1.0 - λ_1",
    "    Φ_1_1 = λ_1",
    "    val = Φ_0_0*(Φ_1_0*(C[i_0, i_1]) + Φ_1_1*(C[i_0, i_1 + 1])) + Φ_0_1*(Φ_1_0*(C[i_0 + 1, i_1]) + Φ_1_1*(C[i_0 + 1, i_1 + 1]))",
    "    return val"].map String.toList := by
  obtain ⟨t, ht, hl⟩ := (C91_generated_text textCfg rfl).1 _ rfl
  refine ⟨t, ht, hl.trans ?_⟩
  decide +kernel

/-- C91: the exception for a nonuniform axis in a cubic spline. -/
example : getCodeText { textCfg with k := 3 }
    = .error (.exception "Nonuniform grids are only supported for linear splines.") :=
  (C91_generated_text { textCfg with k := 3 } rfl).2 _ rfl

end Examples

end Interp.Props
