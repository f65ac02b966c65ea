import Verif.Proofs.SrcHermite
import Verif.Spec.SourceTexts
import Verif.Proofs.TrigReal
import Mathlib.Data.Rat.Floor
import Mathlib.Algebra.Order.Ring.Rat
import Mathlib.Tactic.NormNum

/-!
# What the source text of `hermite.py` computes: C108

`SourceTexts` has the texts of the functions character for character, `PySrc` reads them, `PyRun` executes them. The
theorems say that the execution gives what the model of `Model/Hermite.lean` says, so that the theorems about the model are theorems
about the texts.
-/

namespace Interp.Props
open Interp Interp.Spec.PySrc
open Interp.Hermite (hermiteSplines hermiteInterp hermiteInterpolation hermiteInterpolationVect hermite)

section
variable {K : Type} [Add K] [Sub K] [Mul K] [Div K] [Neg K] [Zero K] [One K] [NatCast K] [IntCast K]
  [LT K] [DecidableLT K] [LE K] [DecidableLE K] [BEq K] [IntFloor K] [Interp.Smolyak.Trig K]

/-- The texts of `hermite.py` L6-137 as a program. -/
def hermiteFile : Option Prog :=
  load [hermiteSplinesText, hermiteInterpText, hermiteInterpolationText, hermiteInterpolationVectText]
    [("hermite", [olHermiteText])] []

/-- C108. `hermite_splines(t)`. -/
theorem C108_hermite_splines (L : LitLaws K) : ∃ P, hermiteFile = some P ∧ ∀ n ≥ 1, ∀ (t : K) (h : Heap K),
    callName P n "hermite_splines" [.flt t] h =
      .ok (.tup [.flt (hermiteSplines t).1, .flt (hermiteSplines t).2.1, .flt (hermiteSplines t).2.2.1, .flt (hermiteSplines t).2.2.2], h) := by
  refine ⟨_, hermite_load, fun n hn t h => ?_⟩
  obtain ⟨n, rfl⟩ : ∃ m, n = m + 1 := ⟨n - 1, by omega⟩
  rw [callName, glob_splines, pure_bind, callN_fn, hermiteSplines_run L]
  rfl

/-- C108. `hermite_interp(x0, xk, xkn, pk, pkn, mk, mkn)`. -/
theorem C108_hermite_interp (L : LitLaws K) : ∃ P, hermiteFile = some P ∧ ∀ n ≥ 2, ∀ (x0 xk xkn pk pkn mk mkn : K) (h : Heap K),
    callName P n "hermite_interp" [.flt x0, .flt xk, .flt xkn, .flt pk, .flt pkn, .flt mk, .flt mkn] h =
      (hermiteInterp x0 xk xkn pk pkn mk mkn).map fun v => (.flt v, h) := by
  refine ⟨_, hermite_load, fun n hn x0 xk xkn pk pkn mk mkn h => ?_⟩
  obtain ⟨n, rfl⟩ : ∃ m, n = m + 2 := ⟨n - 2, by omega⟩
  rw [callName, glob_interp, pure_bind, callN_fn, hermiteInterp_run L, lift_run]
  rcases hermiteInterp x0 xk xkn pk pkn mk mkn <;> rfl

/-- C108. `HermiteInterpolation(x0, x, y, yp)`: the same result, the same exception, and no array is changed. -/
theorem C108_hermite_interpolation (L : LitLaws K) : ∃ P, hermiteFile = some P ∧
    ∀ n ≥ 3, ∀ (x0 : K) (h : Heap K) (rx ry rp : ℕ) (x y yp : List K), HasVec h rx x → HasVec h ry y → HasVec h rp yp →
      callName P n "HermiteInterpolation" [.flt x0, .arr rx [none], .arr ry [none], .arr rp [none]] h =
        (hermiteInterpolation x0 x y yp).map fun v => (.flt v, h) := by
  refine ⟨_, hermite_load, fun n hn x0 h rx ry rp x y yp ⟨X, hx, hX⟩ ⟨Y, hy, hY⟩ ⟨Z, hp, hZ⟩ => ?_⟩
  obtain ⟨n, rfl⟩ : ∃ m, n = m + 3 := ⟨n - 3, by omega⟩
  rw [callName, glob_interpolation, pure_bind, callN_fn, hermiteInterpolation_run L n x0 hx hX hy hY hp hZ]

/-- C108. `HermiteInterpolationVect(xvect, x, y, yp)`: the result is a new array. -/
theorem C108_hermite_interpolation_vect (L : LitLaws K) : ∃ P, hermiteFile = some P ∧
    ∀ n ≥ 4, ∀ (h : Heap K) (rv rx ry rp : ℕ) (v x y yp : List K),
      HasVec h rv v → HasVec h rx x → HasVec h ry y → HasVec h rp yp →
      callName P n "HermiteInterpolationVect" [.arr rv [none], .arr rx [none], .arr ry [none], .arr rp [none]] h =
        (hermiteInterpolationVect v x y yp).map fun A => (.arr h.length [none], h ++ [A]) := by
  refine ⟨_, hermite_load, fun n hn h rv rx ry rp v x y yp ⟨V, hv, hV⟩ ⟨X, hx, hX⟩ ⟨Y, hy, hY⟩ ⟨Z, hp, hZ⟩ => ?_⟩
  obtain ⟨n, rfl⟩ : ∃ m, n = m + 4 := ⟨n - 4, by omega⟩
  rw [callName, glob_vect, pure_bind, callN_fn, hermiteInterpolationVect_run L n hv (by rw [hV.1]; rfl)
    (fun i _ => ⟨[(i : ℤ)], rfl, hV.read i⟩) hx hX hy hY hp hZ]

/-- C108. `hermite(x0, x, y, yp)` for a number. -/
theorem C108_hermite_scalar (L : LitLaws K) : ∃ P, hermiteFile = some P ∧
    ∀ n ≥ 5, ∀ (x0 : K) (h : Heap K) (rx ry rp : ℕ) (x y yp : List K), HasVec h rx x → HasVec h ry y → HasVec h rp yp →
      callName P n "hermite" [.flt x0, .arr rx [none], .arr ry [none], .arr rp [none]] h =
        (hermite (.scalar x0) x y yp none) >>= fun
          | .scalar v => .ok (.flt v, h)
          | .array _ => .error .typing := by
  refine ⟨_, hermite_load, fun n hn x0 h rx ry rp x y yp ⟨X, hx, hX⟩ ⟨Y, hy, hY⟩ ⟨Z, hp, hZ⟩ => ?_⟩
  obtain ⟨n, rfl⟩ : ∃ m, n = m + 4 := ⟨n - 4, by omega⟩
  rw [callName, glob_hermite, pure_bind, hermite_scalar L n x0 hx hX hy hY hp hZ, hermite]
  rcases hermiteInterpolation x0 x y yp <;> rfl

/-- C108. `hermite(x0, x, y, yp)` for a vector. -/
theorem C108_hermite_vector (L : LitLaws K) : ∃ P, hermiteFile = some P ∧
    ∀ n ≥ 5, ∀ (h : Heap K) (rv rx ry rp : ℕ) (v x y yp : List K),
      HasVec h rv v → HasVec h rx x → HasVec h ry y → HasVec h rp yp →
      callName P n "hermite" [.arr rv [none], .arr rx [none], .arr ry [none], .arr rp [none]] h =
        (hermite (.vector v) x y yp none) >>= fun
          | .array A => .ok (.arr h.length [none], h ++ [A])
          | .scalar _ => .error .typing := by
  refine ⟨_, hermite_load, fun n hn h rv rx ry rp v x y yp ⟨V, hv, hV⟩ ⟨X, hx, hX⟩ ⟨Y, hy, hY⟩ ⟨Z, hp, hZ⟩ => ?_⟩
  obtain ⟨n, rfl⟩ : ∃ m, n = m + 5 := ⟨n - 5, by omega⟩
  rw [callName, glob_hermite, pure_bind, hermite_vector L n hv hV hx hX hy hY hp hZ, hermite]
  rcases hermiteInterpolationVect v x y yp <;> rfl

/-- C108. `hermite(x0, x, y, yp)` for a matrix: its first column. -/
theorem C108_hermite_matrix (L : LitLaws K) : ∃ P, hermiteFile = some P ∧
    ∀ n ≥ 5, ∀ (h : Heap K) (rv rx ry rp c : ℕ) (rows : List (List K)) (x y yp : List K), 1 ≤ c →
      HasMat h rv c rows → HasVec h rx x → HasVec h ry y → HasVec h rp yp →
      callName P n "hermite" [.arr rv [none, none], .arr rx [none], .arr ry [none], .arr rp [none]] h =
        (hermite (.matrix c rows) x y yp none) >>= fun
          | .array A => .ok (.arr h.length [none], h ++ [A])
          | .scalar _ => .error .typing := by
  refine ⟨_, hermite_load, fun n hn h rv rx ry rp c rows x y yp hc ⟨V, hv, hV⟩ ⟨X, hx, hX⟩ ⟨Y, hy, hY⟩ ⟨Z, hp, hZ⟩ => ?_⟩
  obtain ⟨n, rfl⟩ : ∃ m, n = m + 5 := ⟨n - 5, by omega⟩
  obtain ⟨c, rfl⟩ : ∃ m, c = m + 1 := ⟨c - 1, by omega⟩
  rw [callName, glob_hermite, pure_bind, hermite_matrix L n hv hV hx hX hy hY hp hZ, hermite]
  rcases (rows.mapM fun r => listRead r 0) with e | col
  · rfl
  · simp only [ok_bind]
    rcases hermiteInterpolationVect col x y yp <;> rfl

end

/-- The hypotheses can be met: rational numbers, and three vectors on the heap. -/
theorem litLaws_rat : LitLaws ℚ := ⟨by simp, by simp, by simp, by simp⟩

def demoVec (l : List ℚ) : NdArray ℚ := ⟨[l.length], fun i => l.getD (i.headD 0) 0⟩

theorem demoVec_isVec (l : List ℚ) : IsVec (demoVec l) l :=
  ⟨rfl, fun i hi => by simp [demoVec, hi]⟩

example : ∃ P, hermiteFile = some P ∧
    callName P 5 "hermite" [.flt (1 / 2 : ℚ), .arr 0 [none], .arr 1 [none], .arr 2 [none]]
      [demoVec [0, 1, 3], demoVec [0, 2, 4], demoVec [1, 0, 1]] =
    .ok (.flt (9 / 8), [demoVec [0, 1, 3], demoVec [0, 2, 4], demoVec [1, 0, 1]]) := by
  obtain ⟨P, hP, H⟩ := C108_hermite_scalar litLaws_rat
  refine ⟨P, hP, ?_⟩
  rw [H 5 le_rfl (1 / 2) _ 0 1 2 _ _ _ ⟨_, rfl, demoVec_isVec _⟩ ⟨_, rfl, demoVec_isVec _⟩ ⟨_, rfl, demoVec_isVec _⟩]
  have : hermite (.scalar (1 / 2 : ℚ)) [0, 1, 3] [0, 2, 4] [1, 0, 1] none = .ok (.scalar (9 / 8)) := by
    have hb : bsearch ([0, 1, 3] : List ℚ) (1 / 2) 0 3 = 1 := by
      unfold bsearch; norm_num
      unfold bsearch; norm_num
      unfold bsearch; norm_num
    norm_num [hermite, hermiteInterpolation, Hermite.npMin, Hermite.npMax, pyMin, pyMax, searchsorted, hb, listRead, wrapIndex, hermiteInterp, hermiteSplines, pyDiv]
  rw [this]
  rfl

end Interp.Props
