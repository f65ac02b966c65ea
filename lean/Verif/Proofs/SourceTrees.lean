import Verif.Spec.SourceTexts
import Verif.Spec.PySrc
import Verif.Proofs.KernelRfl

/-!
# The source texts, parsed

Written by `Verif/Tools/GenSrc.lean`; the theorems say that this is what the parser gives.
-/

namespace Interp.Spec.PySrc

set_option maxRecDepth 100000

/-- The body of the function of `hermiteSplinesText`. -/
def hermiteSplinesBody : Block :=
  .simple (.assign (.name "h00") (.bin .plus (.bin .minus (.bin .star (.int 2) (.bin .dstar (.name "lambda0") (.int 3))) (.bin .star (.int 3) (.bin .dstar (.name "lambda0") (.int 2)))) (.int 1))) <|
  .simple (.assign (.name "h10") (.bin .plus (.bin .minus (.bin .dstar (.name "lambda0") (.int 3)) (.bin .star (.int 2) (.bin .dstar (.name "lambda0") (.int 2)))) (.name "lambda0"))) <|
  .simple (.assign (.name "h01") (.bin .plus (.bin .star (.neg (.int 2)) (.bin .dstar (.name "lambda0") (.int 3))) (.bin .star (.int 3) (.bin .dstar (.name "lambda0") (.int 2))))) <|
  .simple (.assign (.name "h11") (.bin .minus (.bin .dstar (.name "lambda0") (.int 3)) (.bin .dstar (.name "lambda0") (.int 2)))) <|
  .simple (.ret (some (.tuple (.cons (.name "h00") (.cons (.name "h10") (.cons (.name "h01") (.cons (.name "h11") .nil))))))) <|
  .nil

/-- The function of `hermiteSplinesText`. -/
def hermiteSplinesFun : FunDef :=
  ⟨"hermite_splines", [("lambda0", none)], hermiteSplinesBody⟩

theorem hermiteSplines_parse : parseFun hermiteSplinesText = some hermiteSplinesFun := by kernel_rfl

/-- The body of the function of `hermiteInterpText`. -/
def hermiteInterpBody : Block :=
  .simple (.assign (.name "t") (.bin .slash (.bin .minus (.name "x0") (.name "xk")) (.bin .minus (.name "xkn") (.name "xk")))) <|
  .simple (.assign (.name "hsplines") (.call (.name "hermite_splines") (.cons (.name "t") .nil))) <|
  .simple (.ret (some (.bin .plus (.bin .plus (.bin .plus (.bin .star (.name "pk") (.index (.name "hsplines") (.cons (.int 0) .nil))) (.bin .star (.bin .star (.name "mk") (.bin .minus (.name "xkn") (.name "xk"))) (.index (.name "hsplines") (.cons (.int 1) .nil)))) (.bin .star (.name "pkn") (.index (.name "hsplines") (.cons (.int 2) .nil)))) (.bin .star (.bin .star (.name "mkn") (.bin .minus (.name "xkn") (.name "xk"))) (.index (.name "hsplines") (.cons (.int 3) .nil)))))) <|
  .nil

/-- The function of `hermiteInterpText`. -/
def hermiteInterpFun : FunDef :=
  ⟨"hermite_interp", [("x0", none), ("xk", none), ("xkn", none), ("pk", none), ("pkn", none), ("mk", none), ("mkn", none)], hermiteInterpBody⟩

theorem hermiteInterp_parse : parseFun hermiteInterpText = some hermiteInterpFun := by kernel_rfl

/-- The body of the function of `hermiteInterpolationText`. -/
def hermiteInterpolationBody : Block :=
  .ifte (.chain (.name "x0") (.link .le (.call (.attr (.name "np") "min") (.cons (.name "x") .nil)) .nil)) (
    .simple (.ret (some (.index (.name "y") (.cons (.int 0) .nil)))) <|
    .nil) (
    .ifte (.chain (.name "x0") (.link .ge (.call (.attr (.name "np") "max") (.cons (.name "x") .nil)) .nil)) (
      .simple (.ret (some (.index (.name "y") (.cons (.neg (.int 1)) .nil)))) <|
      .nil) (
      .nil) <|
    .nil) <|
  .simple (.assign (.name "indx") (.call (.attr (.name "np") "searchsorted") (.cons (.name "x") (.cons (.name "x0") .nil)))) <|
  .simple (.assign (.tuple (.cons (.name "xk") (.cons (.name "xkn") .nil))) (.tuple (.cons (.index (.name "x") (.cons (.bin .minus (.name "indx") (.int 1)) .nil)) (.cons (.index (.name "x") (.cons (.name "indx") .nil)) .nil)))) <|
  .simple (.assign (.tuple (.cons (.name "pk") (.cons (.name "pkn") .nil))) (.tuple (.cons (.index (.name "y") (.cons (.bin .minus (.name "indx") (.int 1)) .nil)) (.cons (.index (.name "y") (.cons (.name "indx") .nil)) .nil)))) <|
  .simple (.assign (.tuple (.cons (.name "mk") (.cons (.name "mkn") .nil))) (.tuple (.cons (.index (.name "yp") (.cons (.bin .minus (.name "indx") (.int 1)) .nil)) (.cons (.index (.name "yp") (.cons (.name "indx") .nil)) .nil)))) <|
  .simple (.ret (some (.call (.name "hermite_interp") (.cons (.name "x0") (.cons (.name "xk") (.cons (.name "xkn") (.cons (.name "pk") (.cons (.name "pkn") (.cons (.name "mk") (.cons (.name "mkn") .nil)))))))))) <|
  .nil

/-- The function of `hermiteInterpolationText`. -/
def hermiteInterpolationFun : FunDef :=
  ⟨"HermiteInterpolation", [("x0", none), ("x", none), ("y", none), ("yp", none)], hermiteInterpolationBody⟩

theorem hermiteInterpolation_parse : parseFun hermiteInterpolationText = some hermiteInterpolationFun := by kernel_rfl

/-- A loop body of `hermiteInterpolationVect`. -/
def hermiteInterpolationVectLoop0 : Block :=
  .simple (.assign (.name "x0") (.index (.name "xvect") (.cons (.name "i") .nil))) <|
  .simple (.assign (.index (.name "out") (.cons (.name "i") .nil)) (.call (.name "HermiteInterpolation") (.cons (.name "x0") (.cons (.name "x") (.cons (.name "y") (.cons (.name "yp") .nil)))))) <|
  .nil

/-- The body of the function of `hermiteInterpolationVectText`. -/
def hermiteInterpolationVectBody : Block :=
  .simple (.assign (.name "N") (.call (.name "len") (.cons (.name "xvect") .nil))) <|
  .simple (.assign (.name "out") (.call (.attr (.name "np") "zeros") (.cons (.name "N") .nil))) <|
  .for (.name "i") (.call (.name "range") (.cons (.name "N") .nil)) hermiteInterpolationVectLoop0 <|
  .simple (.ret (some (.name "out"))) <|
  .nil

/-- The function of `hermiteInterpolationVectText`. -/
def hermiteInterpolationVectFun : FunDef :=
  ⟨"HermiteInterpolationVect", [("xvect", none), ("x", none), ("y", none), ("yp", none)], hermiteInterpolationVectBody⟩

theorem hermiteInterpolationVect_parse : parseFun hermiteInterpolationVectText = some hermiteInterpolationVectFun := by kernel_rfl

/-- The body of a function inside `olHermite`. -/
def olHermiteFun0 : Block :=
  .simple (.ret (some (.call (.name "HermiteInterpolation") (.cons (.name "x0") (.cons (.name "x") (.cons (.name "y") (.cons (.name "yp") .nil))))))) <|
  .nil

/-- The body of a function inside `olHermite`. -/
def olHermiteFun1 : Block :=
  .simple (.ret (some (.call (.name "HermiteInterpolationVect") (.cons (.name "x0") (.cons (.name "x") (.cons (.name "y") (.cons (.name "yp") .nil))))))) <|
  .nil

/-- The body of a function inside `olHermite`. -/
def olHermiteFun2 : Block :=
  .simple (.ret (some (.call (.name "HermiteInterpolationVect") (.cons (.index (.name "x0") (.cons .full (.cons (.int 0) .nil))) (.cons (.name "x") (.cons (.name "y") (.cons (.name "yp") .nil))))))) <|
  .nil

/-- The body of the function of `olHermiteText`. -/
def olHermiteBody : Block :=
  .tryE (
    .simple (.assign (.name "n") (.attr (.name "x0") "ndim")) <|
    .ifte (.chain (.name "n") (.link .eqeq (.int 1) .nil)) (
      .simple (.assign (.name "input_type") (.str "vector")) <|
      .nil) (
      .ifte (.chain (.name "n") (.link .eqeq (.int 2) .nil)) (
        .simple (.assign (.name "input_type") (.str "matrix")) <|
        .nil) (
        .simple (.raise (.call (.name "Exception") (.cons (.str "Invalid input type") .nil))) <|
        .nil) <|
      .nil) <|
    .nil) (
    .simple (.assign (.name "input_type") (.str "scalar")) <|
    .nil) <|
  .ifte (.chain (.name "input_type") (.link .eqeq (.str "scalar") .nil)) (
    .funDef "_hermite" [("x0", none), ("x", none), ("y", none), ("yp", none), ("out", some (.name "None"))] olHermiteFun0 <|
    .nil) (
    .ifte (.chain (.name "input_type") (.link .eqeq (.str "vector") .nil)) (
      .funDef "_hermite" [("x0", none), ("x", none), ("y", none), ("yp", none), ("out", some (.name "None"))] olHermiteFun1 <|
      .nil) (
      .ifte (.chain (.name "input_type") (.link .eqeq (.str "matrix") .nil)) (
        .funDef "_hermite" [("x0", none), ("x", none), ("y", none), ("yp", none), ("out", some (.name "None"))] olHermiteFun2 <|
        .nil) (
        .nil) <|
      .nil) <|
    .nil) <|
  .simple (.ret (some (.name "_hermite"))) <|
  .nil

/-- The function of `olHermiteText`. -/
def olHermiteFun : FunDef :=
  ⟨"ol_hermite", [("x0", none), ("x", none), ("y", none), ("yp", none), ("out", some (.name "None"))], olHermiteBody⟩

theorem olHermite_parse : parseFun olHermiteText = some olHermiteFun := by kernel_rfl

/-- A loop body of `solve`. -/
def solveLoop0 : Block :=
  .simple (.aug .minus (.index (.name "bands") (.cons (.name "row") (.cons (.int 1) .nil))) (.bin .star (.index (.name "bands") (.cons (.name "row") (.cons (.int 0) .nil))) (.index (.name "bands") (.cons (.bin .minus (.name "row") (.int 1)) (.cons (.int 2) .nil))))) <|
  .simple (.aug .minus (.index (.name "bands") (.cons (.name "row") (.cons (.int 3) .nil))) (.bin .star (.index (.name "bands") (.cons (.name "row") (.cons (.int 0) .nil))) (.index (.name "bands") (.cons (.bin .minus (.name "row") (.int 1)) (.cons (.int 3) .nil))))) <|
  .simple (.aug .slash (.index (.name "bands") (.cons (.name "row") (.cons (.int 2) .nil))) (.index (.name "bands") (.cons (.name "row") (.cons (.int 1) .nil)))) <|
  .simple (.aug .slash (.index (.name "bands") (.cons (.name "row") (.cons (.int 3) .nil))) (.index (.name "bands") (.cons (.name "row") (.cons (.int 1) .nil)))) <|
  .simple (.assign (.index (.name "bands") (.cons (.name "row") (.cons (.int 0) .nil))) (.float 0 0)) <|
  .simple (.assign (.index (.name "bands") (.cons (.name "row") (.cons (.int 1) .nil))) (.float 1 0)) <|
  .nil

/-- A loop body of `solve`. -/
def solveLoop1 : Block :=
  .simple (.assign (.index (.name "coefs") (.cons (.name "row") .nil)) (.bin .minus (.index (.name "bands") (.cons (.name "row") (.cons (.int 3) .nil))) (.bin .star (.index (.name "bands") (.cons (.name "row") (.cons (.int 2) .nil))) (.index (.name "coefs") (.cons (.bin .plus (.name "row") (.int 1)) .nil))))) <|
  .nil

/-- The body of the function of `solveText`. -/
def solveBody : Block :=
  .simple (.assign (.name "M") (.bin .minus (.index (.attr (.name "coefs") "shape") (.cons (.int 0) .nil)) (.int 2))) <|
  .simple (.aug .slash (.index (.name "bands") (.cons (.int 0) (.cons (.int 1) .nil))) (.index (.name "bands") (.cons (.int 0) (.cons (.int 0) .nil)))) <|
  .simple (.aug .slash (.index (.name "bands") (.cons (.int 0) (.cons (.int 2) .nil))) (.index (.name "bands") (.cons (.int 0) (.cons (.int 0) .nil)))) <|
  .simple (.aug .slash (.index (.name "bands") (.cons (.int 0) (.cons (.int 3) .nil))) (.index (.name "bands") (.cons (.int 0) (.cons (.int 0) .nil)))) <|
  .simple (.assign (.index (.name "bands") (.cons (.int 0) (.cons (.int 0) .nil))) (.float 1 0)) <|
  .simple (.aug .minus (.index (.name "bands") (.cons (.int 1) (.cons (.int 1) .nil))) (.bin .star (.index (.name "bands") (.cons (.int 1) (.cons (.int 0) .nil))) (.index (.name "bands") (.cons (.int 0) (.cons (.int 1) .nil))))) <|
  .simple (.aug .minus (.index (.name "bands") (.cons (.int 1) (.cons (.int 2) .nil))) (.bin .star (.index (.name "bands") (.cons (.int 1) (.cons (.int 0) .nil))) (.index (.name "bands") (.cons (.int 0) (.cons (.int 2) .nil))))) <|
  .simple (.aug .minus (.index (.name "bands") (.cons (.int 1) (.cons (.int 3) .nil))) (.bin .star (.index (.name "bands") (.cons (.int 1) (.cons (.int 0) .nil))) (.index (.name "bands") (.cons (.int 0) (.cons (.int 3) .nil))))) <|
  .simple (.assign (.index (.name "bands") (.cons (.int 0) (.cons (.int 0) .nil))) (.float 0 0)) <|
  .simple (.aug .slash (.index (.name "bands") (.cons (.int 1) (.cons (.int 2) .nil))) (.index (.name "bands") (.cons (.int 1) (.cons (.int 1) .nil)))) <|
  .simple (.aug .slash (.index (.name "bands") (.cons (.int 1) (.cons (.int 3) .nil))) (.index (.name "bands") (.cons (.int 1) (.cons (.int 1) .nil)))) <|
  .simple (.assign (.index (.name "bands") (.cons (.int 1) (.cons (.int 1) .nil))) (.float 1 0)) <|
  .for (.name "row") (.call (.name "range") (.cons (.int 2) (.cons (.bin .plus (.name "M") (.int 1)) .nil))) solveLoop0 <|
  .simple (.aug .minus (.index (.name "bands") (.cons (.bin .plus (.name "M") (.int 1)) (.cons (.int 1) .nil))) (.bin .star (.index (.name "bands") (.cons (.bin .plus (.name "M") (.int 1)) (.cons (.int 0) .nil))) (.index (.name "bands") (.cons (.bin .minus (.name "M") (.int 1)) (.cons (.int 2) .nil))))) <|
  .simple (.aug .minus (.index (.name "bands") (.cons (.bin .plus (.name "M") (.int 1)) (.cons (.int 3) .nil))) (.bin .star (.index (.name "bands") (.cons (.bin .plus (.name "M") (.int 1)) (.cons (.int 0) .nil))) (.index (.name "bands") (.cons (.bin .minus (.name "M") (.int 1)) (.cons (.int 3) .nil))))) <|
  .simple (.aug .minus (.index (.name "bands") (.cons (.bin .plus (.name "M") (.int 1)) (.cons (.int 2) .nil))) (.bin .star (.index (.name "bands") (.cons (.bin .plus (.name "M") (.int 1)) (.cons (.int 1) .nil))) (.index (.name "bands") (.cons (.name "M") (.cons (.int 2) .nil))))) <|
  .simple (.aug .minus (.index (.name "bands") (.cons (.bin .plus (.name "M") (.int 1)) (.cons (.int 3) .nil))) (.bin .star (.index (.name "bands") (.cons (.bin .plus (.name "M") (.int 1)) (.cons (.int 1) .nil))) (.index (.name "bands") (.cons (.name "M") (.cons (.int 3) .nil))))) <|
  .simple (.aug .slash (.index (.name "bands") (.cons (.bin .plus (.name "M") (.int 1)) (.cons (.int 3) .nil))) (.index (.name "bands") (.cons (.bin .plus (.name "M") (.int 1)) (.cons (.int 2) .nil)))) <|
  .simple (.assign (.index (.name "bands") (.cons (.bin .plus (.name "M") (.int 1)) (.cons (.int 2) .nil))) (.float 1 0)) <|
  .simple (.assign (.index (.name "coefs") (.cons (.bin .plus (.name "M") (.int 1)) .nil)) (.index (.name "bands") (.cons (.bin .plus (.name "M") (.int 1)) (.cons (.int 3) .nil)))) <|
  .for (.name "row") (.call (.name "range") (.cons (.name "M") (.cons (.int 0) (.cons (.neg (.int 1)) .nil)))) solveLoop1 <|
  .simple (.assign (.index (.name "coefs") (.cons (.int 0) .nil)) (.bin .minus (.bin .minus (.index (.name "bands") (.cons (.int 0) (.cons (.int 3) .nil))) (.bin .star (.index (.name "bands") (.cons (.int 0) (.cons (.int 1) .nil))) (.index (.name "coefs") (.cons (.int 1) .nil)))) (.bin .star (.index (.name "bands") (.cons (.int 0) (.cons (.int 2) .nil))) (.index (.name "coefs") (.cons (.int 2) .nil))))) <|
  .nil

/-- The function of `solveText`. -/
def solveFun : FunDef :=
  ⟨"solve_deriv_interp_1d", [("bands", none), ("coefs", none)], solveBody⟩

theorem solve_parse : parseFun solveText = some solveFun := by kernel_rfl

/-- A loop body of `findCoefs`. -/
def findCoefsLoop0 : Block :=
  .simple (.assign (.index (.name "bands") (.cons (.int 0) (.cons (.name "i") .nil))) (.index (.name "abcd_left") (.cons (.name "i") .nil))) <|
  .simple (.assign (.index (.name "bands") (.cons (.bin .plus (.name "M") (.int 1)) (.cons (.name "i") .nil))) (.index (.name "abcd_right") (.cons (.name "i") .nil))) <|
  .nil

/-- A loop body of `findCoefs`. -/
def findCoefsLoop1 : Block :=
  .simple (.assign (.index (.name "bands") (.cons (.bin .plus (.name "i") (.int 1)) (.cons (.name "j") .nil))) (.index (.name "basis") (.cons (.name "j") .nil))) <|
  .simple (.assign (.index (.name "bands") (.cons (.bin .plus (.name "i") (.int 1)) (.cons (.int 3) .nil))) (.index (.name "data") (.cons (.name "i") .nil))) <|
  .nil

/-- A loop body of `findCoefs`. -/
def findCoefsLoop2 : Block :=
  .for (.name "j") (.call (.name "range") (.cons (.int 3) .nil)) findCoefsLoop1 <|
  .nil

/-- The body of the function of `findCoefsText`. -/
def findCoefsBody : Block :=
  .simple (.assign (.name "M") (.bin .minus (.index (.attr (.name "bands") "shape") (.cons (.int 0) .nil)) (.int 2))) <|
  .simple (.assign (.name "abcd_left") (.tuple (.cons (.bin .star (.bin .star (.float 1 0) (.name "δ")) (.name "δ")) (.cons (.bin .star (.bin .star (.neg (.float 2 0)) (.name "δ")) (.name "δ")) (.cons (.bin .star (.bin .star (.float 1 0) (.name "δ")) (.name "δ")) (.cons (.float 0 0) .nil)))))) <|
  .simple (.assign (.name "abcd_right") (.tuple (.cons (.bin .star (.bin .star (.float 1 0) (.name "δ")) (.name "δ")) (.cons (.bin .star (.bin .star (.neg (.float 2 0)) (.name "δ")) (.name "δ")) (.cons (.bin .star (.bin .star (.float 1 0) (.name "δ")) (.name "δ")) (.cons (.float 0 0) .nil)))))) <|
  .for (.name "i") (.call (.name "range") (.cons (.int 4) .nil)) findCoefsLoop0 <|
  .for (.name "i") (.call (.name "range") (.cons (.name "M") .nil)) findCoefsLoop2 <|
  .simple (.expr (.call (.name "solve_deriv_interp_1d") (.cons (.name "bands") (.cons (.name "coefs") .nil)))) <|
  .nil

/-- The function of `findCoefsText`. -/
def findCoefsFun : FunDef :=
  ⟨"find_coefs_1d", [("δ", none), ("data", none), ("coefs", none), ("bands", none)], findCoefsBody⟩

theorem findCoefs_parse : parseFun findCoefsText = some findCoefsFun := by kernel_rfl

/-- A loop body of `filter`. -/
def filterLoop0 : Block :=
  .simple (.expr (.call (.name "_filter_cubic") (.cons (.name "grid") (.cons (.index (.name "D") (.cons .dots (.cons (.name "i_x") .nil))) (.cons (.index (.name "C") (.cons .dots (.cons (.name "i_x") .nil))) .nil))))) <|
  .nil

/-- The body of a function inside `filter`. -/
def filterFun1 : Block :=
  .simple (.assign (.name "n_x") (.index (.attr (.name "C") "shape") (.cons (.neg (.int 1)) .nil))) <|
  .for (.name "i_x") (.call (.name "range") (.cons (.name "n_x") .nil)) filterLoop0 <|
  .nil

/-- The body of a function inside `filter`. -/
def filterFun2 : Block :=
  .simple (.assign (.name "dinv_0") (.bin .slash (.bin .minus (.index (.index (.name "grid") (.cons (.int 0) .nil)) (.cons (.int 1) .nil)) (.index (.index (.name "grid") (.cons (.int 0) .nil)) (.cons (.int 0) .nil))) (.index (.index (.name "grid") (.cons (.int 0) .nil)) (.cons (.int 2) .nil)))) <|
  .simple (.assign (.name "Mx") (.index (.attr (.name "D") "shape") (.cons (.int 0) .nil))) <|
  .simple (.assign (.name "Nx") (.bin .plus (.name "Mx") (.int 2))) <|
  .simple (.assign (.name "bands") (.call (.attr (.name "np") "zeros") (.cons (.tuple (.cons (.bin .plus (.name "Mx") (.int 2)) (.cons (.int 4) .nil))) .nil))) <|
  .simple (.expr (.call (.name "find_coefs_1d") (.cons (.name "dinv_0") (.cons (.name "D") (.cons (.name "C") (.cons (.name "bands") .nil)))))) <|
  .nil

/-- A loop body of `filter`. -/
def filterLoop3 : Block :=
  .simple (.expr (.call (.name "find_coefs_1d") (.cons (.name "dinv_0") (.cons (.index (.name "D") (.cons .full (.cons (.name "iy") .nil))) (.cons (.index (.name "C") (.cons .full (.cons (.name "iy") .nil))) (.cons (.name "bands") .nil)))))) <|
  .nil

/-- A loop body of `filter`. -/
def filterLoop4 : Block :=
  .simple (.expr (.call (.name "find_coefs_1d") (.cons (.name "dinv_0") (.cons (.index (.name "C") (.cons (.name "ix") (.cons .full .nil))) (.cons (.index (.name "C") (.cons (.name "ix") (.cons .full .nil))) (.cons (.name "bands") .nil)))))) <|
  .nil

/-- The body of a function inside `filter`. -/
def filterFun5 : Block :=
  .simple (.assign (.name "dinv_0") (.bin .slash (.bin .minus (.index (.index (.name "grid") (.cons (.int 0) .nil)) (.cons (.int 1) .nil)) (.index (.index (.name "grid") (.cons (.int 0) .nil)) (.cons (.int 0) .nil))) (.index (.index (.name "grid") (.cons (.int 0) .nil)) (.cons (.int 2) .nil)))) <|
  .simple (.assign (.name "dinv_1") (.bin .slash (.bin .minus (.index (.index (.name "grid") (.cons (.int 1) .nil)) (.cons (.int 1) .nil)) (.index (.index (.name "grid") (.cons (.int 1) .nil)) (.cons (.int 0) .nil))) (.index (.index (.name "grid") (.cons (.int 1) .nil)) (.cons (.int 2) .nil)))) <|
  .simple (.assign (.name "Mx") (.index (.attr (.name "D") "shape") (.cons (.int 0) .nil))) <|
  .simple (.assign (.name "My") (.index (.attr (.name "D") "shape") (.cons (.int 1) .nil))) <|
  .simple (.assign (.name "Nx") (.bin .plus (.name "Mx") (.int 2))) <|
  .simple (.assign (.name "Ny") (.bin .plus (.name "My") (.int 2))) <|
  .simple (.assign (.name "bands") (.call (.attr (.name "np") "zeros") (.cons (.tuple (.cons (.bin .plus (.name "Mx") (.int 2)) (.cons (.int 4) .nil))) .nil))) <|
  .for (.name "iy") (.call (.name "range") (.cons (.name "My") .nil)) filterLoop3 <|
  .simple (.assign (.name "bands") (.call (.attr (.name "np") "zeros") (.cons (.tuple (.cons (.bin .plus (.name "My") (.int 2)) (.cons (.int 4) .nil))) .nil))) <|
  .for (.name "ix") (.call (.name "range") (.cons (.name "Nx") .nil)) filterLoop4 <|
  .nil

/-- A loop body of `filter`. -/
def filterLoop6 : Block :=
  .simple (.expr (.call (.name "find_coefs_1d") (.cons (.name "dinv_0") (.cons (.index (.name "D") (.cons .full (.cons (.name "iy") (.cons (.name "iz") .nil)))) (.cons (.index (.name "C") (.cons .full (.cons (.name "iy") (.cons (.name "iz") .nil)))) (.cons (.name "bands") .nil)))))) <|
  .nil

/-- A loop body of `filter`. -/
def filterLoop7 : Block :=
  .for (.name "iz") (.call (.name "range") (.cons (.name "Mz") .nil)) filterLoop6 <|
  .nil

/-- A loop body of `filter`. -/
def filterLoop8 : Block :=
  .simple (.expr (.call (.name "find_coefs_1d") (.cons (.name "dinv_1") (.cons (.index (.name "C") (.cons (.name "ix") (.cons .full (.cons (.name "iz") .nil)))) (.cons (.index (.name "C") (.cons (.name "ix") (.cons .full (.cons (.name "iz") .nil)))) (.cons (.name "bands") .nil)))))) <|
  .nil

/-- A loop body of `filter`. -/
def filterLoop9 : Block :=
  .for (.name "iz") (.call (.name "range") (.cons (.name "Mz") .nil)) filterLoop8 <|
  .nil

/-- A loop body of `filter`. -/
def filterLoop10 : Block :=
  .simple (.expr (.call (.name "find_coefs_1d") (.cons (.name "dinv_2") (.cons (.index (.name "C") (.cons (.name "ix") (.cons (.name "iy") (.cons .full .nil)))) (.cons (.index (.name "C") (.cons (.name "ix") (.cons (.name "iy") (.cons .full .nil)))) (.cons (.name "bands") .nil)))))) <|
  .nil

/-- A loop body of `filter`. -/
def filterLoop11 : Block :=
  .for (.name "iy") (.call (.name "range") (.cons (.name "Ny") .nil)) filterLoop10 <|
  .nil

/-- The body of a function inside `filter`. -/
def filterFun12 : Block :=
  .simple (.assign (.name "dinv_0") (.bin .slash (.bin .minus (.index (.index (.name "grid") (.cons (.int 0) .nil)) (.cons (.int 1) .nil)) (.index (.index (.name "grid") (.cons (.int 0) .nil)) (.cons (.int 0) .nil))) (.index (.index (.name "grid") (.cons (.int 0) .nil)) (.cons (.int 2) .nil)))) <|
  .simple (.assign (.name "dinv_1") (.bin .slash (.bin .minus (.index (.index (.name "grid") (.cons (.int 1) .nil)) (.cons (.int 1) .nil)) (.index (.index (.name "grid") (.cons (.int 1) .nil)) (.cons (.int 0) .nil))) (.index (.index (.name "grid") (.cons (.int 1) .nil)) (.cons (.int 2) .nil)))) <|
  .simple (.assign (.name "dinv_2") (.bin .slash (.bin .minus (.index (.index (.name "grid") (.cons (.int 2) .nil)) (.cons (.int 1) .nil)) (.index (.index (.name "grid") (.cons (.int 2) .nil)) (.cons (.int 0) .nil))) (.index (.index (.name "grid") (.cons (.int 2) .nil)) (.cons (.int 2) .nil)))) <|
  .simple (.assign (.name "Mx") (.index (.attr (.name "D") "shape") (.cons (.int 0) .nil))) <|
  .simple (.assign (.name "My") (.index (.attr (.name "D") "shape") (.cons (.int 1) .nil))) <|
  .simple (.assign (.name "Mz") (.index (.attr (.name "D") "shape") (.cons (.int 2) .nil))) <|
  .simple (.assign (.name "Nx") (.bin .plus (.name "Mx") (.int 2))) <|
  .simple (.assign (.name "Ny") (.bin .plus (.name "My") (.int 2))) <|
  .simple (.assign (.name "Nz") (.bin .plus (.name "Mz") (.int 2))) <|
  .simple (.assign (.name "bands") (.call (.attr (.name "np") "zeros") (.cons (.tuple (.cons (.bin .plus (.name "Mx") (.int 2)) (.cons (.int 4) .nil))) .nil))) <|
  .for (.name "iy") (.call (.name "range") (.cons (.name "My") .nil)) filterLoop7 <|
  .simple (.assign (.name "bands") (.call (.attr (.name "np") "zeros") (.cons (.tuple (.cons (.bin .plus (.name "My") (.int 2)) (.cons (.int 4) .nil))) .nil))) <|
  .for (.name "ix") (.call (.name "range") (.cons (.name "Nx") .nil)) filterLoop9 <|
  .simple (.assign (.name "bands") (.call (.attr (.name "np") "zeros") (.cons (.tuple (.cons (.bin .plus (.name "Mz") (.int 2)) (.cons (.int 4) .nil))) .nil))) <|
  .for (.name "ix") (.call (.name "range") (.cons (.name "Nx") .nil)) filterLoop11 <|
  .nil

/-- A loop body of `filter`. -/
def filterLoop13 : Block :=
  .simple (.expr (.call (.name "find_coefs_1d") (.cons (.name "dinv_0") (.cons (.index (.name "D") (.cons .full (.cons (.name "iy") (.cons (.name "iz") (.cons (.name "iz4") .nil))))) (.cons (.index (.name "C") (.cons .full (.cons (.name "iy") (.cons (.name "iz") (.cons (.name "iz4") .nil))))) (.cons (.name "bands") .nil)))))) <|
  .nil

/-- A loop body of `filter`. -/
def filterLoop14 : Block :=
  .for (.name "iz4") (.call (.name "range") (.cons (.name "Mz4") .nil)) filterLoop13 <|
  .nil

/-- A loop body of `filter`. -/
def filterLoop15 : Block :=
  .for (.name "iz") (.call (.name "range") (.cons (.name "Mz") .nil)) filterLoop14 <|
  .nil

/-- A loop body of `filter`. -/
def filterLoop16 : Block :=
  .simple (.expr (.call (.name "find_coefs_1d") (.cons (.name "dinv_1") (.cons (.index (.name "C") (.cons (.name "ix") (.cons .full (.cons (.name "iz") (.cons (.name "iz4") .nil))))) (.cons (.index (.name "C") (.cons (.name "ix") (.cons .full (.cons (.name "iz") (.cons (.name "iz4") .nil))))) (.cons (.name "bands") .nil)))))) <|
  .nil

/-- A loop body of `filter`. -/
def filterLoop17 : Block :=
  .for (.name "iz4") (.call (.name "range") (.cons (.name "Mz4") .nil)) filterLoop16 <|
  .nil

/-- A loop body of `filter`. -/
def filterLoop18 : Block :=
  .for (.name "iz") (.call (.name "range") (.cons (.name "Mz") .nil)) filterLoop17 <|
  .nil

/-- A loop body of `filter`. -/
def filterLoop19 : Block :=
  .simple (.expr (.call (.name "find_coefs_1d") (.cons (.name "dinv_2") (.cons (.index (.name "C") (.cons (.name "ix") (.cons (.name "iy") (.cons .full (.cons (.name "iz4") .nil))))) (.cons (.index (.name "C") (.cons (.name "ix") (.cons (.name "iy") (.cons .full (.cons (.name "iz4") .nil))))) (.cons (.name "bands") .nil)))))) <|
  .nil

/-- A loop body of `filter`. -/
def filterLoop20 : Block :=
  .for (.name "iz4") (.call (.name "range") (.cons (.name "Mz4") .nil)) filterLoop19 <|
  .nil

/-- A loop body of `filter`. -/
def filterLoop21 : Block :=
  .for (.name "iy") (.call (.name "range") (.cons (.name "Ny") .nil)) filterLoop20 <|
  .nil

/-- A loop body of `filter`. -/
def filterLoop22 : Block :=
  .simple (.expr (.call (.name "find_coefs_1d") (.cons (.name "dinv_3") (.cons (.index (.name "C") (.cons (.name "ix") (.cons (.name "iy") (.cons (.name "iz") (.cons .full .nil))))) (.cons (.index (.name "C") (.cons (.name "ix") (.cons (.name "iy") (.cons (.name "iz") (.cons .full .nil))))) (.cons (.name "bands") .nil)))))) <|
  .nil

/-- A loop body of `filter`. -/
def filterLoop23 : Block :=
  .for (.name "iz") (.call (.name "range") (.cons (.name "Nz") .nil)) filterLoop22 <|
  .nil

/-- A loop body of `filter`. -/
def filterLoop24 : Block :=
  .for (.name "iy") (.call (.name "range") (.cons (.name "Ny") .nil)) filterLoop23 <|
  .nil

/-- The body of a function inside `filter`. -/
def filterFun25 : Block :=
  .simple (.assign (.name "dinv_0") (.bin .slash (.bin .minus (.index (.index (.name "grid") (.cons (.int 0) .nil)) (.cons (.int 1) .nil)) (.index (.index (.name "grid") (.cons (.int 0) .nil)) (.cons (.int 0) .nil))) (.index (.index (.name "grid") (.cons (.int 0) .nil)) (.cons (.int 2) .nil)))) <|
  .simple (.assign (.name "dinv_1") (.bin .slash (.bin .minus (.index (.index (.name "grid") (.cons (.int 1) .nil)) (.cons (.int 1) .nil)) (.index (.index (.name "grid") (.cons (.int 1) .nil)) (.cons (.int 0) .nil))) (.index (.index (.name "grid") (.cons (.int 1) .nil)) (.cons (.int 2) .nil)))) <|
  .simple (.assign (.name "dinv_2") (.bin .slash (.bin .minus (.index (.index (.name "grid") (.cons (.int 2) .nil)) (.cons (.int 1) .nil)) (.index (.index (.name "grid") (.cons (.int 2) .nil)) (.cons (.int 0) .nil))) (.index (.index (.name "grid") (.cons (.int 2) .nil)) (.cons (.int 2) .nil)))) <|
  .simple (.assign (.name "dinv_3") (.bin .slash (.bin .minus (.index (.index (.name "grid") (.cons (.int 3) .nil)) (.cons (.int 1) .nil)) (.index (.index (.name "grid") (.cons (.int 3) .nil)) (.cons (.int 0) .nil))) (.index (.index (.name "grid") (.cons (.int 3) .nil)) (.cons (.int 2) .nil)))) <|
  .simple (.assign (.name "Mx") (.index (.attr (.name "D") "shape") (.cons (.int 0) .nil))) <|
  .simple (.assign (.name "My") (.index (.attr (.name "D") "shape") (.cons (.int 1) .nil))) <|
  .simple (.assign (.name "Mz") (.index (.attr (.name "D") "shape") (.cons (.int 2) .nil))) <|
  .simple (.assign (.name "Mz4") (.index (.attr (.name "D") "shape") (.cons (.int 3) .nil))) <|
  .simple (.assign (.name "Nx") (.bin .plus (.name "Mx") (.int 2))) <|
  .simple (.assign (.name "Ny") (.bin .plus (.name "My") (.int 2))) <|
  .simple (.assign (.name "Nz") (.bin .plus (.name "Mz") (.int 2))) <|
  .simple (.assign (.name "Nz4") (.bin .plus (.name "Mz4") (.int 2))) <|
  .simple (.assign (.name "bands") (.call (.attr (.name "np") "zeros") (.cons (.tuple (.cons (.bin .plus (.name "Mx") (.int 2)) (.cons (.int 4) .nil))) .nil))) <|
  .for (.name "iy") (.call (.name "range") (.cons (.name "My") .nil)) filterLoop15 <|
  .simple (.assign (.name "bands") (.call (.attr (.name "np") "zeros") (.cons (.tuple (.cons (.bin .plus (.name "My") (.int 2)) (.cons (.int 4) .nil))) .nil))) <|
  .for (.name "ix") (.call (.name "range") (.cons (.name "Nx") .nil)) filterLoop18 <|
  .simple (.assign (.name "bands") (.call (.attr (.name "np") "zeros") (.cons (.tuple (.cons (.bin .plus (.name "Mz") (.int 2)) (.cons (.int 4) .nil))) .nil))) <|
  .for (.name "ix") (.call (.name "range") (.cons (.name "Nx") .nil)) filterLoop21 <|
  .simple (.assign (.name "bands") (.call (.attr (.name "np") "zeros") (.cons (.tuple (.cons (.bin .plus (.name "Mz4") (.int 2)) (.cons (.int 4) .nil))) .nil))) <|
  .for (.name "ix") (.call (.name "range") (.cons (.name "Nx") .nil)) filterLoop24 <|
  .nil

/-- The body of the function of `filterText`. -/
def filterBody : Block :=
  .simple (.assign (.name "d") (.call (.name "len") (.cons (.attr (.name "grid") "types") .nil))) <|
  .ifte (.chain (.attr (.name "D") "ndim") (.link .gt (.name "d") .nil)) (
    .funDef "___filter_cubic" [("grid", none), ("D", none), ("C", none)] filterFun1 <|
    .simple (.ret (some (.name "___filter_cubic"))) <|
    .nil) (
    .nil) <|
  .ifte (.chain (.name "d") (.link .eqeq (.int 1) .nil)) (
    .funDef "___filter_cubic" [("grid", none), ("D", none), ("C", none)] filterFun2 <|
    .simple (.ret (some (.name "___filter_cubic"))) <|
    .nil) (
    .nil) <|
  .ifte (.chain (.name "d") (.link .eqeq (.int 2) .nil)) (
    .funDef "___filter_cubic" [("grid", none), ("D", none), ("C", none)] filterFun5 <|
    .simple (.ret (some (.name "___filter_cubic"))) <|
    .nil) (
    .nil) <|
  .ifte (.chain (.name "d") (.link .eqeq (.int 3) .nil)) (
    .funDef "___filter_cubic" [("grid", none), ("D", none), ("C", none)] filterFun12 <|
    .simple (.ret (some (.name "___filter_cubic"))) <|
    .nil) (
    .nil) <|
  .ifte (.chain (.name "d") (.link .eqeq (.int 4) .nil)) (
    .funDef "___filter_cubic" [("grid", none), ("D", none), ("C", none)] filterFun25 <|
    .simple (.ret (some (.name "___filter_cubic"))) <|
    .nil) (
    .nil) <|
  .nil

/-- The function of `filterText`. -/
def filterFun : FunDef :=
  ⟨"__filter_cubic", [("grid", none), ("D", none), ("C", none)], filterBody⟩

theorem filter_parse : parseFun filterText = some filterFun := by kernel_rfl

/-- The body of a function inside `filterAlloc`. -/
def filterAllocFun0 : Block :=
  .simple (.assign (.name "C") (.call (.attr (.name "np") "zeros") (.cons (.bin .plus (.index (.attr (.name "D") "shape") (.cons (.int 0) .nil)) (.int 2)) .nil))) <|
  .simple (.expr (.call (.name "_filter_cubic") (.cons (.name "grid") (.cons (.name "D") (.cons (.name "C") .nil))))) <|
  .simple (.ret (some (.name "C"))) <|
  .nil

/-- The body of a function inside `filterAlloc`. -/
def filterAllocFun1 : Block :=
  .simple (.assign (.name "C") (.call (.attr (.name "np") "zeros") (.cons (.tuple (.cons (.bin .plus (.index (.attr (.name "D") "shape") (.cons (.int 0) .nil)) (.int 2)) (.cons (.bin .plus (.index (.attr (.name "D") "shape") (.cons (.int 1) .nil)) (.int 2)) .nil))) .nil))) <|
  .simple (.expr (.call (.name "_filter_cubic") (.cons (.name "grid") (.cons (.name "D") (.cons (.name "C") .nil))))) <|
  .simple (.ret (some (.name "C"))) <|
  .nil

/-- The body of a function inside `filterAlloc`. -/
def filterAllocFun2 : Block :=
  .simple (.assign (.name "C") (.call (.attr (.name "np") "zeros") (.cons (.tuple (.cons (.bin .plus (.index (.attr (.name "D") "shape") (.cons (.int 0) .nil)) (.int 2)) (.cons (.bin .plus (.index (.attr (.name "D") "shape") (.cons (.int 1) .nil)) (.int 2)) (.cons (.bin .plus (.index (.attr (.name "D") "shape") (.cons (.int 2) .nil)) (.int 2)) .nil)))) .nil))) <|
  .simple (.expr (.call (.name "_filter_cubic") (.cons (.name "grid") (.cons (.name "D") (.cons (.name "C") .nil))))) <|
  .simple (.ret (some (.name "C"))) <|
  .nil

/-- The body of a function inside `filterAlloc`. -/
def filterAllocFun3 : Block :=
  .simple (.assign (.name "C") (.call (.attr (.name "np") "zeros") (.cons (.tuple (.cons (.bin .plus (.index (.attr (.name "D") "shape") (.cons (.int 0) .nil)) (.int 2)) (.cons (.bin .plus (.index (.attr (.name "D") "shape") (.cons (.int 1) .nil)) (.int 2)) (.cons (.bin .plus (.index (.attr (.name "D") "shape") (.cons (.int 2) .nil)) (.int 2)) (.cons (.bin .plus (.index (.attr (.name "D") "shape") (.cons (.int 3) .nil)) (.int 2)) .nil))))) .nil))) <|
  .simple (.expr (.call (.name "_filter_cubic") (.cons (.name "grid") (.cons (.name "D") (.cons (.name "C") .nil))))) <|
  .simple (.ret (some (.name "C"))) <|
  .nil

/-- The body of a function inside `filterAlloc`. -/
def filterAllocFun4 : Block :=
  .simple (.assign (.name "C") (.call (.attr (.name "np") "zeros") (.cons (.tuple (.cons (.bin .plus (.index (.attr (.name "D") "shape") (.cons (.int 0) .nil)) (.int 2)) (.cons (.index (.attr (.name "D") "shape") (.cons (.int 1) .nil)) .nil))) .nil))) <|
  .simple (.expr (.call (.name "_filter_cubic") (.cons (.name "grid") (.cons (.name "D") (.cons (.name "C") .nil))))) <|
  .simple (.ret (some (.name "C"))) <|
  .nil

/-- The body of a function inside `filterAlloc`. -/
def filterAllocFun5 : Block :=
  .simple (.assign (.name "C") (.call (.attr (.name "np") "zeros") (.cons (.tuple (.cons (.bin .plus (.index (.attr (.name "D") "shape") (.cons (.int 0) .nil)) (.int 2)) (.cons (.bin .plus (.index (.attr (.name "D") "shape") (.cons (.int 1) .nil)) (.int 2)) (.cons (.index (.attr (.name "D") "shape") (.cons (.int 2) .nil)) .nil)))) .nil))) <|
  .simple (.expr (.call (.name "_filter_cubic") (.cons (.name "grid") (.cons (.name "D") (.cons (.name "C") .nil))))) <|
  .simple (.ret (some (.name "C"))) <|
  .nil

/-- The body of a function inside `filterAlloc`. -/
def filterAllocFun6 : Block :=
  .simple (.assign (.name "C") (.call (.attr (.name "np") "zeros") (.cons (.tuple (.cons (.bin .plus (.index (.attr (.name "D") "shape") (.cons (.int 0) .nil)) (.int 2)) (.cons (.bin .plus (.index (.attr (.name "D") "shape") (.cons (.int 1) .nil)) (.int 2)) (.cons (.bin .plus (.index (.attr (.name "D") "shape") (.cons (.int 2) .nil)) (.int 2)) (.cons (.index (.attr (.name "D") "shape") (.cons (.int 3) .nil)) .nil))))) .nil))) <|
  .simple (.expr (.call (.name "_filter_cubic") (.cons (.name "grid") (.cons (.name "D") (.cons (.name "C") .nil))))) <|
  .simple (.ret (some (.name "C"))) <|
  .nil

/-- The body of a function inside `filterAlloc`. -/
def filterAllocFun7 : Block :=
  .simple (.assign (.name "C") (.call (.attr (.name "np") "zeros") (.cons (.tuple (.cons (.bin .plus (.index (.attr (.name "D") "shape") (.cons (.int 0) .nil)) (.int 2)) (.cons (.bin .plus (.index (.attr (.name "D") "shape") (.cons (.int 1) .nil)) (.int 2)) (.cons (.bin .plus (.index (.attr (.name "D") "shape") (.cons (.int 2) .nil)) (.int 2)) (.cons (.bin .plus (.index (.attr (.name "D") "shape") (.cons (.int 3) .nil)) (.int 2)) (.cons (.index (.attr (.name "D") "shape") (.cons (.int 4) .nil)) .nil)))))) .nil))) <|
  .simple (.expr (.call (.name "_filter_cubic") (.cons (.name "grid") (.cons (.name "D") (.cons (.name "C") .nil))))) <|
  .simple (.ret (some (.name "C"))) <|
  .nil

/-- The body of the function of `filterAllocText`. -/
def filterAllocBody : Block :=
  .simple (.assign (.name "d") (.call (.name "len") (.cons (.attr (.name "grid") "types") .nil))) <|
  .ifte (.chain (.attr (.name "D") "ndim") (.link .eqeq (.name "d") .nil)) (
    .ifte (.chain (.attr (.name "D") "ndim") (.link .eqeq (.int 1) .nil)) (
      .funDef "___filter_cubic" [("grid", none), ("D", none)] filterAllocFun0 <|
      .nil) (
      .nil) <|
    .ifte (.chain (.attr (.name "D") "ndim") (.link .eqeq (.int 2) .nil)) (
      .funDef "___filter_cubic" [("grid", none), ("D", none)] filterAllocFun1 <|
      .nil) (
      .nil) <|
    .ifte (.chain (.attr (.name "D") "ndim") (.link .eqeq (.int 3) .nil)) (
      .funDef "___filter_cubic" [("grid", none), ("D", none)] filterAllocFun2 <|
      .nil) (
      .nil) <|
    .ifte (.chain (.attr (.name "D") "ndim") (.link .eqeq (.int 4) .nil)) (
      .funDef "___filter_cubic" [("grid", none), ("D", none)] filterAllocFun3 <|
      .nil) (
      .nil) <|
    .simple (.ret (some (.name "___filter_cubic"))) <|
    .nil) (
    .ifte (.chain (.attr (.name "D") "ndim") (.link .eqeq (.bin .plus (.name "d") (.int 1)) .nil)) (
      .ifte (.chain (.name "d") (.link .eqeq (.int 1) .nil)) (
        .funDef "___filter_cubic" [("grid", none), ("D", none)] filterAllocFun4 <|
        .nil) (
        .nil) <|
      .ifte (.chain (.name "d") (.link .eqeq (.int 2) .nil)) (
        .funDef "___filter_cubic" [("grid", none), ("D", none)] filterAllocFun5 <|
        .nil) (
        .nil) <|
      .ifte (.chain (.name "d") (.link .eqeq (.int 3) .nil)) (
        .funDef "___filter_cubic" [("grid", none), ("D", none)] filterAllocFun6 <|
        .nil) (
        .nil) <|
      .ifte (.chain (.name "d") (.link .eqeq (.int 4) .nil)) (
        .funDef "___filter_cubic" [("grid", none), ("D", none)] filterAllocFun7 <|
        .nil) (
        .nil) <|
      .simple (.ret (some (.name "___filter_cubic"))) <|
      .nil) (
      .nil) <|
    .nil) <|
  .nil

/-- The function of `filterAllocText`. -/
def filterAllocFun : FunDef :=
  ⟨"__filter_cubic", [("grid", none), ("D", none)], filterAllocBody⟩

theorem filterAlloc_parse : parseFun filterAllocText = some filterAllocFun := by kernel_rfl

/-- The body of the function of `b0Text`. -/
def b0Body : Block :=
  .ifte (.chain (.index (.name "u") (.cons (.name "i") .nil)) (.link .le (.name "x") (.link .lt (.index (.name "u") (.cons (.bin .plus (.name "i") (.int 1)) .nil)) .nil))) (
    .simple (.ret (some (.float 1 0))) <|
    .nil) (
    .simple (.ret (some (.float 0 0))) <|
    .nil) <|
  .nil

/-- The function of `b0Text`. -/
def b0Fun : FunDef :=
  ⟨"B0", [("u", none), ("i", none), ("x", none)], b0Body⟩

theorem b0_parse : parseFun b0Text = some b0Fun := by kernel_rfl

/-- The body of the function of `bText`. -/
def bBody : Block :=
  .ifte (.chain (.name "p") (.link .eqeq (.int 0) .nil)) (
    .simple (.ret (some (.call (.name "B0") (.cons (.name "u") (.cons (.name "i") (.cons (.name "x") .nil)))))) <|
    .nil) (
    .simple (.ret (some (.bin .plus (.bin .star (.bin .slash (.bin .minus (.name "x") (.index (.name "u") (.cons (.name "i") .nil))) (.bin .minus (.index (.name "u") (.cons (.bin .plus (.name "i") (.name "p")) .nil)) (.index (.name "u") (.cons (.name "i") .nil)))) (.call (.name "B") (.cons (.bin .minus (.name "p") (.int 1)) (.cons (.name "u") (.cons (.name "i") (.cons (.name "x") .nil)))))) (.bin .star (.bin .slash (.bin .minus (.index (.name "u") (.cons (.bin .plus (.bin .plus (.name "i") (.name "p")) (.int 1)) .nil)) (.name "x")) (.bin .minus (.index (.name "u") (.cons (.bin .plus (.bin .plus (.name "i") (.name "p")) (.int 1)) .nil)) (.index (.name "u") (.cons (.bin .plus (.name "i") (.int 1)) .nil)))) (.call (.name "B") (.cons (.bin .minus (.name "p") (.int 1)) (.cons (.name "u") (.cons (.bin .plus (.name "i") (.int 1)) (.cons (.name "x") .nil))))))))) <|
    .nil) <|
  .nil

/-- The function of `bText`. -/
def bFun : FunDef :=
  ⟨"B", [("p", none), ("u", none), ("i", none), ("x", none)], bBody⟩

theorem b_parse : parseFun bText = some bFun := by kernel_rfl

/-- A loop body of `nComplete`. -/
def nCompleteLoop0 : Block :=
  .simple (.aug .star (.name "tmp") (.bin .plus (.name "n") (.name "j"))) <|
  .nil

/-- A loop body of `nComplete`. -/
def nCompleteLoop1 : Block :=
  .simple (.assign (.name "tmp") (.int 1)) <|
  .simple (.aug .star (.name "denom") (.bin .plus (.name "i") (.int 1))) <|
  .for (.name "j") (.call (.name "range") (.cons (.bin .plus (.name "i") (.int 1)) .nil)) nCompleteLoop0 <|
  .simple (.aug .plus (.name "out") (.bin .dslash (.name "tmp") (.name "denom"))) <|
  .nil

/-- The body of the function of `nCompleteText`. -/
def nCompleteBody : Block :=
  .simple (.assign (.name "out") (.int 1)) <|
  .simple (.assign (.name "denom") (.int 1)) <|
  .for (.name "i") (.call (.name "range") (.cons (.name "d") .nil)) nCompleteLoop1 <|
  .simple (.ret (some (.name "out"))) <|
  .nil

/-- The function of `nCompleteText`. -/
def nCompleteFun : FunDef :=
  ⟨"n_complete", [("n", none), ("d", none)], nCompleteBody⟩

theorem nComplete_parse : parseFun nCompleteText = some nCompleteFun := by kernel_rfl

/-- A loop body of `implVec`. -/
def implVecLoop0 : Block :=
  .simple (.assign (.index (.name "out") (.cons (.name "i") .nil)) (.index (.name "z") (.cons (.bin .minus (.name "i") (.int 1)) .nil))) <|
  .nil

/-- A loop body of `implVec`. -/
def implVecLoop1 : Block :=
  .simple (.aug .plus (.name "ix") (.int 1)) <|
  .simple (.assign (.index (.name "out") (.cons (.name "ix") .nil)) (.bin .star (.index (.name "z") (.cons (.name "i1") .nil)) (.index (.name "z") (.cons (.name "i2") .nil)))) <|
  .nil

/-- A loop body of `implVec`. -/
def implVecLoop2 : Block :=
  .for (.name "i2") (.call (.name "range") (.cons (.name "i1") (.cons (.name "nvar") .nil))) implVecLoop1 <|
  .nil

/-- A loop body of `implVec`. -/
def implVecLoop3 : Block :=
  .simple (.aug .plus (.name "ix") (.int 1)) <|
  .simple (.assign (.index (.name "out") (.cons (.name "ix") .nil)) (.bin .star (.bin .star (.index (.name "z") (.cons (.name "i1") .nil)) (.index (.name "z") (.cons (.name "i2") .nil))) (.index (.name "z") (.cons (.name "i3") .nil)))) <|
  .nil

/-- A loop body of `implVec`. -/
def implVecLoop4 : Block :=
  .simple (.aug .plus (.name "ix") (.int 1)) <|
  .simple (.assign (.index (.name "out") (.cons (.name "ix") .nil)) (.bin .star (.index (.name "z") (.cons (.name "i1") .nil)) (.index (.name "z") (.cons (.name "i2") .nil)))) <|
  .for (.name "i3") (.call (.name "range") (.cons (.name "i2") (.cons (.name "nvar") .nil))) implVecLoop3 <|
  .nil

/-- A loop body of `implVec`. -/
def implVecLoop5 : Block :=
  .for (.name "i2") (.call (.name "range") (.cons (.name "i1") (.cons (.name "nvar") .nil))) implVecLoop4 <|
  .nil

/-- A loop body of `implVec`. -/
def implVecLoop6 : Block :=
  .simple (.aug .plus (.name "ix") (.int 1)) <|
  .simple (.assign (.index (.name "out") (.cons (.name "ix") .nil)) (.bin .star (.bin .star (.bin .star (.index (.name "z") (.cons (.name "i1") .nil)) (.index (.name "z") (.cons (.name "i2") .nil))) (.index (.name "z") (.cons (.name "i3") .nil))) (.index (.name "z") (.cons (.name "i4") .nil)))) <|
  .nil

/-- A loop body of `implVec`. -/
def implVecLoop7 : Block :=
  .simple (.aug .plus (.name "ix") (.int 1)) <|
  .simple (.assign (.index (.name "out") (.cons (.name "ix") .nil)) (.bin .star (.bin .star (.index (.name "z") (.cons (.name "i1") .nil)) (.index (.name "z") (.cons (.name "i2") .nil))) (.index (.name "z") (.cons (.name "i3") .nil)))) <|
  .for (.name "i4") (.call (.name "range") (.cons (.name "i3") (.cons (.name "nvar") .nil))) implVecLoop6 <|
  .nil

/-- A loop body of `implVec`. -/
def implVecLoop8 : Block :=
  .simple (.aug .plus (.name "ix") (.int 1)) <|
  .simple (.assign (.index (.name "out") (.cons (.name "ix") .nil)) (.bin .star (.index (.name "z") (.cons (.name "i1") .nil)) (.index (.name "z") (.cons (.name "i2") .nil)))) <|
  .for (.name "i3") (.call (.name "range") (.cons (.name "i2") (.cons (.name "nvar") .nil))) implVecLoop7 <|
  .nil

/-- A loop body of `implVec`. -/
def implVecLoop9 : Block :=
  .for (.name "i2") (.call (.name "range") (.cons (.name "i1") (.cons (.name "nvar") .nil))) implVecLoop8 <|
  .nil

/-- A loop body of `implVec`. -/
def implVecLoop10 : Block :=
  .simple (.aug .plus (.name "ix") (.int 1)) <|
  .simple (.assign (.index (.name "out") (.cons (.name "ix") .nil)) (.bin .star (.bin .star (.bin .star (.bin .star (.index (.name "z") (.cons (.name "i1") .nil)) (.index (.name "z") (.cons (.name "i2") .nil))) (.index (.name "z") (.cons (.name "i3") .nil))) (.index (.name "z") (.cons (.name "i4") .nil))) (.index (.name "z") (.cons (.name "i5") .nil)))) <|
  .nil

/-- A loop body of `implVec`. -/
def implVecLoop11 : Block :=
  .simple (.aug .plus (.name "ix") (.int 1)) <|
  .simple (.assign (.index (.name "out") (.cons (.name "ix") .nil)) (.bin .star (.bin .star (.bin .star (.index (.name "z") (.cons (.name "i1") .nil)) (.index (.name "z") (.cons (.name "i2") .nil))) (.index (.name "z") (.cons (.name "i3") .nil))) (.index (.name "z") (.cons (.name "i4") .nil)))) <|
  .for (.name "i5") (.call (.name "range") (.cons (.name "i4") (.cons (.name "nvar") .nil))) implVecLoop10 <|
  .nil

/-- A loop body of `implVec`. -/
def implVecLoop12 : Block :=
  .simple (.aug .plus (.name "ix") (.int 1)) <|
  .simple (.assign (.index (.name "out") (.cons (.name "ix") .nil)) (.bin .star (.bin .star (.index (.name "z") (.cons (.name "i1") .nil)) (.index (.name "z") (.cons (.name "i2") .nil))) (.index (.name "z") (.cons (.name "i3") .nil)))) <|
  .for (.name "i4") (.call (.name "range") (.cons (.name "i3") (.cons (.name "nvar") .nil))) implVecLoop11 <|
  .nil

/-- A loop body of `implVec`. -/
def implVecLoop13 : Block :=
  .simple (.aug .plus (.name "ix") (.int 1)) <|
  .simple (.assign (.index (.name "out") (.cons (.name "ix") .nil)) (.bin .star (.index (.name "z") (.cons (.name "i1") .nil)) (.index (.name "z") (.cons (.name "i2") .nil)))) <|
  .for (.name "i3") (.call (.name "range") (.cons (.name "i2") (.cons (.name "nvar") .nil))) implVecLoop12 <|
  .nil

/-- A loop body of `implVec`. -/
def implVecLoop14 : Block :=
  .for (.name "i2") (.call (.name "range") (.cons (.name "i1") (.cons (.name "nvar") .nil))) implVecLoop13 <|
  .nil

/-- The body of the function of `implVecText`. -/
def implVecBody : Block :=
  .simple (.expr (.str "out and z should be vectors")) <|
  .simple (.assign (.name "nvar") (.index (.attr (.name "z") "shape") (.cons (.int 0) .nil))) <|
  .simple (.assign (.index (.name "out") (.cons (.int 0) .nil)) (.float 1 0)) <|
  .ifte (.chain (.name "d") (.link .ge (.int 1) .nil)) (
    .for (.name "i") (.call (.name "range") (.cons (.int 1) (.cons (.bin .plus (.name "nvar") (.int 1)) .nil))) implVecLoop0 <|
    .nil) (
    .nil) <|
  .ifte (.chain (.name "d") (.link .eqeq (.int 1) .nil)) (
    .simple (.ret none) <|
    .nil) (
    .nil) <|
  .simple (.assign (.name "ix") (.name "nvar")) <|
  .ifte (.chain (.name "d") (.link .eqeq (.int 2) .nil)) (
    .for (.name "i1") (.call (.name "range") (.cons (.name "nvar") .nil)) implVecLoop2 <|
    .simple (.ret none) <|
    .nil) (
    .nil) <|
  .ifte (.chain (.name "d") (.link .eqeq (.int 3) .nil)) (
    .for (.name "i1") (.call (.name "range") (.cons (.name "nvar") .nil)) implVecLoop5 <|
    .simple (.ret none) <|
    .nil) (
    .nil) <|
  .ifte (.chain (.name "d") (.link .eqeq (.int 4) .nil)) (
    .for (.name "i1") (.call (.name "range") (.cons (.name "nvar") .nil)) implVecLoop9 <|
    .simple (.ret none) <|
    .nil) (
    .nil) <|
  .ifte (.chain (.name "d") (.link .eqeq (.int 5) .nil)) (
    .for (.name "i1") (.call (.name "range") (.cons (.name "nvar") .nil)) implVecLoop14 <|
    .simple (.ret none) <|
    .nil) (
    .nil) <|
  .nil

/-- The function of `implVecText`. -/
def implVecFun : FunDef :=
  ⟨"_complete_poly_impl_vec", [("z", none), ("d", none), ("out", none)], implVecBody⟩

theorem implVec_parse : parseFun implVecText = some implVecFun := by kernel_rfl

/-- A loop body of `implMat`. -/
def implMatLoop0 : Block :=
  .simple (.assign (.index (.name "out") (.cons (.int 0) (.cons (.name "k") .nil))) (.float 1 0)) <|
  .nil

/-- A loop body of `implMat`. -/
def implMatLoop1 : Block :=
  .simple (.assign (.index (.name "out") (.cons (.name "i") (.cons (.name "k") .nil))) (.index (.name "z") (.cons (.bin .minus (.name "i") (.int 1)) (.cons (.name "k") .nil)))) <|
  .nil

/-- A loop body of `implMat`. -/
def implMatLoop2 : Block :=
  .for (.name "k") (.call (.name "range") (.cons (.name "nobs") .nil)) implMatLoop1 <|
  .nil

/-- A loop body of `implMat`. -/
def implMatLoop3 : Block :=
  .simple (.assign (.index (.name "out") (.cons (.name "ix") (.cons (.name "k") .nil))) (.bin .star (.index (.name "z") (.cons (.name "i1") (.cons (.name "k") .nil))) (.index (.name "z") (.cons (.name "i2") (.cons (.name "k") .nil))))) <|
  .nil

/-- A loop body of `implMat`. -/
def implMatLoop4 : Block :=
  .simple (.aug .plus (.name "ix") (.int 1)) <|
  .for (.name "k") (.call (.name "range") (.cons (.name "nobs") .nil)) implMatLoop3 <|
  .nil

/-- A loop body of `implMat`. -/
def implMatLoop5 : Block :=
  .for (.name "i2") (.call (.name "range") (.cons (.name "i1") (.cons (.name "nvar") .nil))) implMatLoop4 <|
  .nil

/-- A loop body of `implMat`. -/
def implMatLoop6 : Block :=
  .simple (.assign (.index (.name "out") (.cons (.name "ix") (.cons (.name "k") .nil))) (.bin .star (.index (.name "z") (.cons (.name "i1") (.cons (.name "k") .nil))) (.index (.name "z") (.cons (.name "i2") (.cons (.name "k") .nil))))) <|
  .nil

/-- A loop body of `implMat`. -/
def implMatLoop7 : Block :=
  .simple (.assign (.index (.name "out") (.cons (.name "ix") (.cons (.name "k") .nil))) (.bin .star (.bin .star (.index (.name "z") (.cons (.name "i1") (.cons (.name "k") .nil))) (.index (.name "z") (.cons (.name "i2") (.cons (.name "k") .nil)))) (.index (.name "z") (.cons (.name "i3") (.cons (.name "k") .nil))))) <|
  .nil

/-- A loop body of `implMat`. -/
def implMatLoop8 : Block :=
  .simple (.aug .plus (.name "ix") (.int 1)) <|
  .for (.name "k") (.call (.name "range") (.cons (.name "nobs") .nil)) implMatLoop7 <|
  .nil

/-- A loop body of `implMat`. -/
def implMatLoop9 : Block :=
  .simple (.aug .plus (.name "ix") (.int 1)) <|
  .for (.name "k") (.call (.name "range") (.cons (.name "nobs") .nil)) implMatLoop6 <|
  .for (.name "i3") (.call (.name "range") (.cons (.name "i2") (.cons (.name "nvar") .nil))) implMatLoop8 <|
  .nil

/-- A loop body of `implMat`. -/
def implMatLoop10 : Block :=
  .for (.name "i2") (.call (.name "range") (.cons (.name "i1") (.cons (.name "nvar") .nil))) implMatLoop9 <|
  .nil

/-- A loop body of `implMat`. -/
def implMatLoop11 : Block :=
  .simple (.assign (.index (.name "out") (.cons (.name "ix") (.cons (.name "k") .nil))) (.bin .star (.index (.name "z") (.cons (.name "i1") (.cons (.name "k") .nil))) (.index (.name "z") (.cons (.name "i2") (.cons (.name "k") .nil))))) <|
  .nil

/-- A loop body of `implMat`. -/
def implMatLoop12 : Block :=
  .simple (.assign (.index (.name "out") (.cons (.name "ix") (.cons (.name "k") .nil))) (.bin .star (.bin .star (.index (.name "z") (.cons (.name "i1") (.cons (.name "k") .nil))) (.index (.name "z") (.cons (.name "i2") (.cons (.name "k") .nil)))) (.index (.name "z") (.cons (.name "i3") (.cons (.name "k") .nil))))) <|
  .nil

/-- A loop body of `implMat`. -/
def implMatLoop13 : Block :=
  .simple (.assign (.index (.name "out") (.cons (.name "ix") (.cons (.name "k") .nil))) (.bin .star (.bin .star (.bin .star (.index (.name "z") (.cons (.name "i1") (.cons (.name "k") .nil))) (.index (.name "z") (.cons (.name "i2") (.cons (.name "k") .nil)))) (.index (.name "z") (.cons (.name "i3") (.cons (.name "k") .nil)))) (.index (.name "z") (.cons (.name "i4") (.cons (.name "k") .nil))))) <|
  .nil

/-- A loop body of `implMat`. -/
def implMatLoop14 : Block :=
  .simple (.aug .plus (.name "ix") (.int 1)) <|
  .for (.name "k") (.call (.name "range") (.cons (.name "nobs") .nil)) implMatLoop13 <|
  .nil

/-- A loop body of `implMat`. -/
def implMatLoop15 : Block :=
  .simple (.aug .plus (.name "ix") (.int 1)) <|
  .for (.name "k") (.call (.name "range") (.cons (.name "nobs") .nil)) implMatLoop12 <|
  .for (.name "i4") (.call (.name "range") (.cons (.name "i3") (.cons (.name "nvar") .nil))) implMatLoop14 <|
  .nil

/-- A loop body of `implMat`. -/
def implMatLoop16 : Block :=
  .simple (.aug .plus (.name "ix") (.int 1)) <|
  .for (.name "k") (.call (.name "range") (.cons (.name "nobs") .nil)) implMatLoop11 <|
  .for (.name "i3") (.call (.name "range") (.cons (.name "i2") (.cons (.name "nvar") .nil))) implMatLoop15 <|
  .nil

/-- A loop body of `implMat`. -/
def implMatLoop17 : Block :=
  .for (.name "i2") (.call (.name "range") (.cons (.name "i1") (.cons (.name "nvar") .nil))) implMatLoop16 <|
  .nil

/-- A loop body of `implMat`. -/
def implMatLoop18 : Block :=
  .simple (.assign (.index (.name "out") (.cons (.name "ix") (.cons (.name "k") .nil))) (.bin .star (.index (.name "z") (.cons (.name "i1") (.cons (.name "k") .nil))) (.index (.name "z") (.cons (.name "i2") (.cons (.name "k") .nil))))) <|
  .nil

/-- A loop body of `implMat`. -/
def implMatLoop19 : Block :=
  .simple (.assign (.index (.name "out") (.cons (.name "ix") (.cons (.name "k") .nil))) (.bin .star (.bin .star (.index (.name "z") (.cons (.name "i1") (.cons (.name "k") .nil))) (.index (.name "z") (.cons (.name "i2") (.cons (.name "k") .nil)))) (.index (.name "z") (.cons (.name "i3") (.cons (.name "k") .nil))))) <|
  .nil

/-- A loop body of `implMat`. -/
def implMatLoop20 : Block :=
  .simple (.assign (.index (.name "out") (.cons (.name "ix") (.cons (.name "k") .nil))) (.bin .star (.bin .star (.bin .star (.index (.name "z") (.cons (.name "i1") (.cons (.name "k") .nil))) (.index (.name "z") (.cons (.name "i2") (.cons (.name "k") .nil)))) (.index (.name "z") (.cons (.name "i3") (.cons (.name "k") .nil)))) (.index (.name "z") (.cons (.name "i4") (.cons (.name "k") .nil))))) <|
  .nil

/-- A loop body of `implMat`. -/
def implMatLoop21 : Block :=
  .simple (.assign (.index (.name "out") (.cons (.name "ix") (.cons (.name "k") .nil))) (.bin .star (.bin .star (.bin .star (.bin .star (.index (.name "z") (.cons (.name "i1") (.cons (.name "k") .nil))) (.index (.name "z") (.cons (.name "i2") (.cons (.name "k") .nil)))) (.index (.name "z") (.cons (.name "i3") (.cons (.name "k") .nil)))) (.index (.name "z") (.cons (.name "i4") (.cons (.name "k") .nil)))) (.index (.name "z") (.cons (.name "i5") (.cons (.name "k") .nil))))) <|
  .nil

/-- A loop body of `implMat`. -/
def implMatLoop22 : Block :=
  .simple (.aug .plus (.name "ix") (.int 1)) <|
  .for (.name "k") (.call (.name "range") (.cons (.name "nobs") .nil)) implMatLoop21 <|
  .nil

/-- A loop body of `implMat`. -/
def implMatLoop23 : Block :=
  .simple (.aug .plus (.name "ix") (.int 1)) <|
  .for (.name "k") (.call (.name "range") (.cons (.name "nobs") .nil)) implMatLoop20 <|
  .for (.name "i5") (.call (.name "range") (.cons (.name "i4") (.cons (.name "nvar") .nil))) implMatLoop22 <|
  .nil

/-- A loop body of `implMat`. -/
def implMatLoop24 : Block :=
  .simple (.aug .plus (.name "ix") (.int 1)) <|
  .for (.name "k") (.call (.name "range") (.cons (.name "nobs") .nil)) implMatLoop19 <|
  .for (.name "i4") (.call (.name "range") (.cons (.name "i3") (.cons (.name "nvar") .nil))) implMatLoop23 <|
  .nil

/-- A loop body of `implMat`. -/
def implMatLoop25 : Block :=
  .simple (.aug .plus (.name "ix") (.int 1)) <|
  .for (.name "k") (.call (.name "range") (.cons (.name "nobs") .nil)) implMatLoop18 <|
  .for (.name "i3") (.call (.name "range") (.cons (.name "i2") (.cons (.name "nvar") .nil))) implMatLoop24 <|
  .nil

/-- A loop body of `implMat`. -/
def implMatLoop26 : Block :=
  .for (.name "i2") (.call (.name "range") (.cons (.name "i1") (.cons (.name "nvar") .nil))) implMatLoop25 <|
  .nil

/-- The body of the function of `implMatText`. -/
def implMatBody : Block :=
  .simple (.assign (.name "nvar") (.index (.attr (.name "z") "shape") (.cons (.int 0) .nil))) <|
  .simple (.assign (.name "nobs") (.index (.attr (.name "z") "shape") (.cons (.int 1) .nil))) <|
  .for (.name "k") (.call (.name "range") (.cons (.name "nobs") .nil)) implMatLoop0 <|
  .ifte (.chain (.name "d") (.link .ge (.int 1) .nil)) (
    .for (.name "i") (.call (.name "range") (.cons (.int 1) (.cons (.bin .plus (.name "nvar") (.int 1)) .nil))) implMatLoop2 <|
    .nil) (
    .nil) <|
  .ifte (.chain (.name "d") (.link .eqeq (.int 1) .nil)) (
    .simple (.ret none) <|
    .nil) (
    .nil) <|
  .simple (.assign (.name "ix") (.name "nvar")) <|
  .ifte (.chain (.name "d") (.link .eqeq (.int 2) .nil)) (
    .for (.name "i1") (.call (.name "range") (.cons (.name "nvar") .nil)) implMatLoop5 <|
    .simple (.ret none) <|
    .nil) (
    .nil) <|
  .ifte (.chain (.name "d") (.link .eqeq (.int 3) .nil)) (
    .for (.name "i1") (.call (.name "range") (.cons (.name "nvar") .nil)) implMatLoop10 <|
    .simple (.ret none) <|
    .nil) (
    .nil) <|
  .ifte (.chain (.name "d") (.link .eqeq (.int 4) .nil)) (
    .for (.name "i1") (.call (.name "range") (.cons (.name "nvar") .nil)) implMatLoop17 <|
    .simple (.ret none) <|
    .nil) (
    .nil) <|
  .ifte (.chain (.name "d") (.link .eqeq (.int 5) .nil)) (
    .for (.name "i1") (.call (.name "range") (.cons (.name "nvar") .nil)) implMatLoop26 <|
    .simple (.ret none) <|
    .nil) (
    .nil) <|
  .nil

/-- The function of `implMatText`. -/
def implMatFun : FunDef :=
  ⟨"_complete_poly_impl", [("z", none), ("d", none), ("out", none)], implMatBody⟩

theorem implMat_parse : parseFun implMatText = some implMatFun := by kernel_rfl

/-- A loop body of `derImplVec`. -/
def derImplVecLoop0 : Block :=
  .simple (.assign (.index (.name "out") (.cons (.bin .plus (.name "i") (.int 1)) .nil)) (.float 0 0)) <|
  .nil

/-- A loop body of `derImplVec`. -/
def derImplVecLoop1 : Block :=
  .simple (.assign (.tuple (.cons (.name "c2") (.cons (.name "t2") .nil))) (.ite (.tuple (.cons (.bin .plus (.name "c1") (.int 1)) (.cons (.float 1 0) .nil))) (.chain (.name "i2") (.link .eqeq (.name "der") .nil)) (.tuple (.cons (.name "c1") (.cons (.index (.name "z") (.cons (.name "i2") .nil)) .nil))))) <|
  .simple (.aug .plus (.name "ix") (.int 1)) <|
  .simple (.assign (.index (.name "out") (.cons (.name "ix") .nil)) (.ite (.bin .star (.bin .star (.bin .star (.name "c2") (.name "t1")) (.name "t2")) (.bin .dstar (.index (.name "z") (.cons (.name "der") .nil)) (.bin .minus (.name "c2") (.int 1)))) (.chain (.name "c2") (.link .gt (.int 0) .nil)) (.float 0 0))) <|
  .nil

/-- A loop body of `derImplVec`. -/
def derImplVecLoop2 : Block :=
  .simple (.assign (.tuple (.cons (.name "c1") (.cons (.name "t1") .nil))) (.ite (.tuple (.cons (.int 1) (.cons (.float 1 0) .nil))) (.chain (.name "i1") (.link .eqeq (.name "der") .nil)) (.tuple (.cons (.int 0) (.cons (.index (.name "z") (.cons (.name "i1") .nil)) .nil))))) <|
  .for (.name "i2") (.call (.name "range") (.cons (.name "i1") (.cons (.name "nvar") .nil))) derImplVecLoop1 <|
  .nil

/-- A loop body of `derImplVec`. -/
def derImplVecLoop3 : Block :=
  .simple (.assign (.tuple (.cons (.name "c3") (.cons (.name "t3") .nil))) (.ite (.tuple (.cons (.bin .plus (.name "c2") (.int 1)) (.cons (.float 1 0) .nil))) (.chain (.name "i3") (.link .eqeq (.name "der") .nil)) (.tuple (.cons (.name "c2") (.cons (.index (.name "z") (.cons (.name "i3") .nil)) .nil))))) <|
  .simple (.aug .plus (.name "ix") (.int 1)) <|
  .simple (.assign (.index (.name "out") (.cons (.name "ix") .nil)) (.ite (.bin .star (.bin .star (.bin .star (.bin .star (.name "c3") (.name "t1")) (.name "t2")) (.name "t3")) (.bin .dstar (.index (.name "z") (.cons (.name "der") .nil)) (.bin .minus (.name "c3") (.int 1)))) (.chain (.name "c3") (.link .gt (.int 0) .nil)) (.float 0 0))) <|
  .nil

/-- A loop body of `derImplVec`. -/
def derImplVecLoop4 : Block :=
  .simple (.assign (.tuple (.cons (.name "c2") (.cons (.name "t2") .nil))) (.ite (.tuple (.cons (.bin .plus (.name "c1") (.int 1)) (.cons (.float 1 0) .nil))) (.chain (.name "i2") (.link .eqeq (.name "der") .nil)) (.tuple (.cons (.name "c1") (.cons (.index (.name "z") (.cons (.name "i2") .nil)) .nil))))) <|
  .simple (.aug .plus (.name "ix") (.int 1)) <|
  .simple (.assign (.index (.name "out") (.cons (.name "ix") .nil)) (.ite (.bin .star (.bin .star (.bin .star (.name "c2") (.name "t1")) (.name "t2")) (.bin .dstar (.index (.name "z") (.cons (.name "der") .nil)) (.bin .minus (.name "c2") (.int 1)))) (.chain (.name "c2") (.link .gt (.int 0) .nil)) (.float 0 0))) <|
  .for (.name "i3") (.call (.name "range") (.cons (.name "i2") (.cons (.name "nvar") .nil))) derImplVecLoop3 <|
  .nil

/-- A loop body of `derImplVec`. -/
def derImplVecLoop5 : Block :=
  .simple (.assign (.tuple (.cons (.name "c1") (.cons (.name "t1") .nil))) (.ite (.tuple (.cons (.int 1) (.cons (.float 1 0) .nil))) (.chain (.name "i1") (.link .eqeq (.name "der") .nil)) (.tuple (.cons (.int 0) (.cons (.index (.name "z") (.cons (.name "i1") .nil)) .nil))))) <|
  .for (.name "i2") (.call (.name "range") (.cons (.name "i1") (.cons (.name "nvar") .nil))) derImplVecLoop4 <|
  .nil

/-- A loop body of `derImplVec`. -/
def derImplVecLoop6 : Block :=
  .simple (.assign (.tuple (.cons (.name "c4") (.cons (.name "t4") .nil))) (.ite (.tuple (.cons (.bin .plus (.name "c3") (.int 1)) (.cons (.float 1 0) .nil))) (.chain (.name "i4") (.link .eqeq (.name "der") .nil)) (.tuple (.cons (.name "c3") (.cons (.index (.name "z") (.cons (.name "i4") .nil)) .nil))))) <|
  .simple (.aug .plus (.name "ix") (.int 1)) <|
  .simple (.assign (.index (.name "out") (.cons (.name "ix") .nil)) (.ite (.bin .star (.bin .star (.bin .star (.bin .star (.bin .star (.name "c4") (.name "t1")) (.name "t2")) (.name "t3")) (.name "t4")) (.bin .dstar (.index (.name "z") (.cons (.name "der") .nil)) (.bin .minus (.name "c4") (.int 1)))) (.chain (.name "c4") (.link .gt (.int 0) .nil)) (.float 0 0))) <|
  .nil

/-- A loop body of `derImplVec`. -/
def derImplVecLoop7 : Block :=
  .simple (.assign (.tuple (.cons (.name "c3") (.cons (.name "t3") .nil))) (.ite (.tuple (.cons (.bin .plus (.name "c2") (.int 1)) (.cons (.float 1 0) .nil))) (.chain (.name "i3") (.link .eqeq (.name "der") .nil)) (.tuple (.cons (.name "c2") (.cons (.index (.name "z") (.cons (.name "i3") .nil)) .nil))))) <|
  .simple (.aug .plus (.name "ix") (.int 1)) <|
  .simple (.assign (.index (.name "out") (.cons (.name "ix") .nil)) (.ite (.bin .star (.bin .star (.bin .star (.bin .star (.name "c3") (.name "t1")) (.name "t2")) (.name "t3")) (.bin .dstar (.index (.name "z") (.cons (.name "der") .nil)) (.bin .minus (.name "c3") (.int 1)))) (.chain (.name "c3") (.link .gt (.int 0) .nil)) (.float 0 0))) <|
  .for (.name "i4") (.call (.name "range") (.cons (.name "i3") (.cons (.name "nvar") .nil))) derImplVecLoop6 <|
  .nil

/-- A loop body of `derImplVec`. -/
def derImplVecLoop8 : Block :=
  .simple (.assign (.tuple (.cons (.name "c2") (.cons (.name "t2") .nil))) (.ite (.tuple (.cons (.bin .plus (.name "c1") (.int 1)) (.cons (.float 1 0) .nil))) (.chain (.name "i2") (.link .eqeq (.name "der") .nil)) (.tuple (.cons (.name "c1") (.cons (.index (.name "z") (.cons (.name "i2") .nil)) .nil))))) <|
  .simple (.aug .plus (.name "ix") (.int 1)) <|
  .simple (.assign (.index (.name "out") (.cons (.name "ix") .nil)) (.ite (.bin .star (.bin .star (.bin .star (.name "c2") (.name "t1")) (.name "t2")) (.bin .dstar (.index (.name "z") (.cons (.name "der") .nil)) (.bin .minus (.name "c2") (.int 1)))) (.chain (.name "c2") (.link .gt (.int 0) .nil)) (.float 0 0))) <|
  .for (.name "i3") (.call (.name "range") (.cons (.name "i2") (.cons (.name "nvar") .nil))) derImplVecLoop7 <|
  .nil

/-- A loop body of `derImplVec`. -/
def derImplVecLoop9 : Block :=
  .simple (.assign (.tuple (.cons (.name "c1") (.cons (.name "t1") .nil))) (.ite (.tuple (.cons (.int 1) (.cons (.float 1 0) .nil))) (.chain (.name "i1") (.link .eqeq (.name "der") .nil)) (.tuple (.cons (.int 0) (.cons (.index (.name "z") (.cons (.name "i1") .nil)) .nil))))) <|
  .for (.name "i2") (.call (.name "range") (.cons (.name "i1") (.cons (.name "nvar") .nil))) derImplVecLoop8 <|
  .nil

/-- A loop body of `derImplVec`. -/
def derImplVecLoop10 : Block :=
  .simple (.assign (.tuple (.cons (.name "c5") (.cons (.name "t5") .nil))) (.ite (.tuple (.cons (.bin .plus (.name "c4") (.int 1)) (.cons (.float 1 0) .nil))) (.chain (.name "i5") (.link .eqeq (.name "der") .nil)) (.tuple (.cons (.name "c4") (.cons (.index (.name "z") (.cons (.name "i5") .nil)) .nil))))) <|
  .simple (.aug .plus (.name "ix") (.int 1)) <|
  .simple (.assign (.index (.name "out") (.cons (.name "ix") .nil)) (.ite (.bin .star (.bin .star (.bin .star (.bin .star (.bin .star (.bin .star (.name "c5") (.name "t1")) (.name "t2")) (.name "t3")) (.name "t4")) (.name "t5")) (.bin .dstar (.index (.name "z") (.cons (.name "der") .nil)) (.bin .minus (.name "c5") (.int 1)))) (.chain (.name "c5") (.link .gt (.int 0) .nil)) (.float 0 0))) <|
  .nil

/-- A loop body of `derImplVec`. -/
def derImplVecLoop11 : Block :=
  .simple (.assign (.tuple (.cons (.name "c4") (.cons (.name "t4") .nil))) (.ite (.tuple (.cons (.bin .plus (.name "c3") (.int 1)) (.cons (.float 1 0) .nil))) (.chain (.name "i4") (.link .eqeq (.name "der") .nil)) (.tuple (.cons (.name "c3") (.cons (.index (.name "z") (.cons (.name "i4") .nil)) .nil))))) <|
  .simple (.aug .plus (.name "ix") (.int 1)) <|
  .simple (.assign (.index (.name "out") (.cons (.name "ix") .nil)) (.ite (.bin .star (.bin .star (.bin .star (.bin .star (.bin .star (.name "c4") (.name "t1")) (.name "t2")) (.name "t3")) (.name "t4")) (.bin .dstar (.index (.name "z") (.cons (.name "der") .nil)) (.bin .minus (.name "c4") (.int 1)))) (.chain (.name "c4") (.link .gt (.int 0) .nil)) (.float 0 0))) <|
  .for (.name "i5") (.call (.name "range") (.cons (.name "i4") (.cons (.name "nvar") .nil))) derImplVecLoop10 <|
  .nil

/-- A loop body of `derImplVec`. -/
def derImplVecLoop12 : Block :=
  .simple (.assign (.tuple (.cons (.name "c3") (.cons (.name "t3") .nil))) (.ite (.tuple (.cons (.bin .plus (.name "c2") (.int 1)) (.cons (.float 1 0) .nil))) (.chain (.name "i3") (.link .eqeq (.name "der") .nil)) (.tuple (.cons (.name "c2") (.cons (.index (.name "z") (.cons (.name "i3") .nil)) .nil))))) <|
  .simple (.aug .plus (.name "ix") (.int 1)) <|
  .simple (.assign (.index (.name "out") (.cons (.name "ix") .nil)) (.ite (.bin .star (.bin .star (.bin .star (.bin .star (.name "c3") (.name "t1")) (.name "t2")) (.name "t3")) (.bin .dstar (.index (.name "z") (.cons (.name "der") .nil)) (.bin .minus (.name "c3") (.int 1)))) (.chain (.name "c3") (.link .gt (.int 0) .nil)) (.float 0 0))) <|
  .for (.name "i4") (.call (.name "range") (.cons (.name "i3") (.cons (.name "nvar") .nil))) derImplVecLoop11 <|
  .nil

/-- A loop body of `derImplVec`. -/
def derImplVecLoop13 : Block :=
  .simple (.assign (.tuple (.cons (.name "c2") (.cons (.name "t2") .nil))) (.ite (.tuple (.cons (.bin .plus (.name "c1") (.int 1)) (.cons (.float 1 0) .nil))) (.chain (.name "i2") (.link .eqeq (.name "der") .nil)) (.tuple (.cons (.name "c1") (.cons (.index (.name "z") (.cons (.name "i2") .nil)) .nil))))) <|
  .simple (.aug .plus (.name "ix") (.int 1)) <|
  .simple (.assign (.index (.name "out") (.cons (.name "ix") .nil)) (.ite (.bin .star (.bin .star (.bin .star (.name "c2") (.name "t1")) (.name "t2")) (.bin .dstar (.index (.name "z") (.cons (.name "der") .nil)) (.bin .minus (.name "c2") (.int 1)))) (.chain (.name "c2") (.link .gt (.int 0) .nil)) (.float 0 0))) <|
  .for (.name "i3") (.call (.name "range") (.cons (.name "i2") (.cons (.name "nvar") .nil))) derImplVecLoop12 <|
  .nil

/-- A loop body of `derImplVec`. -/
def derImplVecLoop14 : Block :=
  .simple (.assign (.tuple (.cons (.name "c1") (.cons (.name "t1") .nil))) (.ite (.tuple (.cons (.int 1) (.cons (.float 1 0) .nil))) (.chain (.name "i1") (.link .eqeq (.name "der") .nil)) (.tuple (.cons (.int 0) (.cons (.index (.name "z") (.cons (.name "i1") .nil)) .nil))))) <|
  .for (.name "i2") (.call (.name "range") (.cons (.name "i1") (.cons (.name "nvar") .nil))) derImplVecLoop13 <|
  .nil

/-- The body of the function of `derImplVecText`. -/
def derImplVecBody : Block :=
  .simple (.expr (.str "out and z should be vectors")) <|
  .simple (.assign (.name "nvar") (.index (.attr (.name "z") "shape") (.cons (.int 0) .nil))) <|
  .simple (.assign (.index (.name "out") (.cons (.int 0) .nil)) (.float 0 0)) <|
  .ifte (.chain (.name "d") (.link .ge (.int 1) .nil)) (
    .for (.name "i") (.call (.name "range") (.cons (.name "nvar") .nil)) derImplVecLoop0 <|
    .simple (.assign (.index (.name "out") (.cons (.bin .plus (.name "der") (.int 1)) .nil)) (.float 1 0)) <|
    .nil) (
    .nil) <|
  .ifte (.chain (.name "d") (.link .eqeq (.int 1) .nil)) (
    .simple (.ret none) <|
    .nil) (
    .nil) <|
  .simple (.assign (.name "ix") (.name "nvar")) <|
  .ifte (.chain (.name "d") (.link .eqeq (.int 2) .nil)) (
    .for (.name "i1") (.call (.name "range") (.cons (.name "nvar") .nil)) derImplVecLoop2 <|
    .simple (.ret none) <|
    .nil) (
    .nil) <|
  .ifte (.chain (.name "d") (.link .eqeq (.int 3) .nil)) (
    .for (.name "i1") (.call (.name "range") (.cons (.name "nvar") .nil)) derImplVecLoop5 <|
    .simple (.ret none) <|
    .nil) (
    .nil) <|
  .ifte (.chain (.name "d") (.link .eqeq (.int 4) .nil)) (
    .for (.name "i1") (.call (.name "range") (.cons (.name "nvar") .nil)) derImplVecLoop9 <|
    .simple (.ret none) <|
    .nil) (
    .nil) <|
  .ifte (.chain (.name "d") (.link .eqeq (.int 5) .nil)) (
    .for (.name "i1") (.call (.name "range") (.cons (.name "nvar") .nil)) derImplVecLoop14 <|
    .simple (.ret none) <|
    .nil) (
    .nil) <|
  .nil

/-- The function of `derImplVecText`. -/
def derImplVecFun : FunDef :=
  ⟨"_complete_poly_der_impl_vec", [("z", none), ("d", none), ("der", none), ("out", none)], derImplVecBody⟩

theorem derImplVec_parse : parseFun derImplVecText = some derImplVecFun := by kernel_rfl

/-- A loop body of `derImplMat`. -/
def derImplMatLoop0 : Block :=
  .simple (.assign (.index (.name "out") (.cons (.int 0) (.cons (.name "k") .nil))) (.float 0 0)) <|
  .nil

/-- A loop body of `derImplMat`. -/
def derImplMatLoop1 : Block :=
  .simple (.assign (.index (.name "out") (.cons (.bin .plus (.name "i") (.int 1)) (.cons (.name "k") .nil))) (.float 0 0)) <|
  .nil

/-- A loop body of `derImplMat`. -/
def derImplMatLoop2 : Block :=
  .for (.name "k") (.call (.name "range") (.cons (.name "nobs") .nil)) derImplMatLoop1 <|
  .nil

/-- A loop body of `derImplMat`. -/
def derImplMatLoop3 : Block :=
  .simple (.assign (.index (.name "out") (.cons (.bin .plus (.name "der") (.int 1)) (.cons (.name "k") .nil))) (.float 1 0)) <|
  .nil

/-- A loop body of `derImplMat`. -/
def derImplMatLoop4 : Block :=
  .simple (.assign (.tuple (.cons (.name "c1") (.cons (.name "t1") .nil))) (.ite (.tuple (.cons (.int 1) (.cons (.float 1 0) .nil))) (.chain (.name "i1") (.link .eqeq (.name "der") .nil)) (.tuple (.cons (.int 0) (.cons (.index (.name "z") (.cons (.name "i1") (.cons (.name "k") .nil))) .nil))))) <|
  .simple (.assign (.tuple (.cons (.name "c2") (.cons (.name "t2") .nil))) (.ite (.tuple (.cons (.bin .plus (.name "c1") (.int 1)) (.cons (.float 1 0) .nil))) (.chain (.name "i2") (.link .eqeq (.name "der") .nil)) (.tuple (.cons (.name "c1") (.cons (.index (.name "z") (.cons (.name "i2") (.cons (.name "k") .nil))) .nil))))) <|
  .simple (.assign (.index (.name "out") (.cons (.name "ix") (.cons (.name "k") .nil))) (.ite (.bin .star (.bin .star (.bin .star (.name "c2") (.name "t1")) (.name "t2")) (.bin .dstar (.index (.name "z") (.cons (.name "der") (.cons (.name "k") .nil))) (.bin .minus (.name "c2") (.int 1)))) (.chain (.name "c2") (.link .gt (.int 0) .nil)) (.float 0 0))) <|
  .nil

/-- A loop body of `derImplMat`. -/
def derImplMatLoop5 : Block :=
  .simple (.aug .plus (.name "ix") (.int 1)) <|
  .for (.name "k") (.call (.name "range") (.cons (.name "nobs") .nil)) derImplMatLoop4 <|
  .nil

/-- A loop body of `derImplMat`. -/
def derImplMatLoop6 : Block :=
  .for (.name "i2") (.call (.name "range") (.cons (.name "i1") (.cons (.name "nvar") .nil))) derImplMatLoop5 <|
  .nil

/-- A loop body of `derImplMat`. -/
def derImplMatLoop7 : Block :=
  .simple (.assign (.tuple (.cons (.name "c1") (.cons (.name "t1") .nil))) (.ite (.tuple (.cons (.int 1) (.cons (.float 1 0) .nil))) (.chain (.name "i1") (.link .eqeq (.name "der") .nil)) (.tuple (.cons (.int 0) (.cons (.index (.name "z") (.cons (.name "i1") (.cons (.name "k") .nil))) .nil))))) <|
  .simple (.assign (.tuple (.cons (.name "c2") (.cons (.name "t2") .nil))) (.ite (.tuple (.cons (.bin .plus (.name "c1") (.int 1)) (.cons (.float 1 0) .nil))) (.chain (.name "i2") (.link .eqeq (.name "der") .nil)) (.tuple (.cons (.name "c1") (.cons (.index (.name "z") (.cons (.name "i2") (.cons (.name "k") .nil))) .nil))))) <|
  .simple (.assign (.index (.name "out") (.cons (.name "ix") (.cons (.name "k") .nil))) (.ite (.bin .star (.bin .star (.bin .star (.name "c2") (.name "t1")) (.name "t2")) (.bin .dstar (.index (.name "z") (.cons (.name "der") (.cons (.name "k") .nil))) (.bin .minus (.name "c2") (.int 1)))) (.chain (.name "c2") (.link .gt (.int 0) .nil)) (.float 0 0))) <|
  .nil

/-- A loop body of `derImplMat`. -/
def derImplMatLoop8 : Block :=
  .simple (.assign (.tuple (.cons (.name "c1") (.cons (.name "t1") .nil))) (.ite (.tuple (.cons (.int 1) (.cons (.float 1 0) .nil))) (.chain (.name "i1") (.link .eqeq (.name "der") .nil)) (.tuple (.cons (.int 0) (.cons (.index (.name "z") (.cons (.name "i1") (.cons (.name "k") .nil))) .nil))))) <|
  .simple (.assign (.tuple (.cons (.name "c2") (.cons (.name "t2") .nil))) (.ite (.tuple (.cons (.bin .plus (.name "c1") (.int 1)) (.cons (.float 1 0) .nil))) (.chain (.name "i2") (.link .eqeq (.name "der") .nil)) (.tuple (.cons (.name "c1") (.cons (.index (.name "z") (.cons (.name "i2") (.cons (.name "k") .nil))) .nil))))) <|
  .simple (.assign (.tuple (.cons (.name "c3") (.cons (.name "t3") .nil))) (.ite (.tuple (.cons (.bin .plus (.name "c2") (.int 1)) (.cons (.float 1 0) .nil))) (.chain (.name "i3") (.link .eqeq (.name "der") .nil)) (.tuple (.cons (.name "c2") (.cons (.index (.name "z") (.cons (.name "i3") (.cons (.name "k") .nil))) .nil))))) <|
  .simple (.assign (.index (.name "out") (.cons (.name "ix") (.cons (.name "k") .nil))) (.ite (.bin .star (.bin .star (.bin .star (.bin .star (.name "c3") (.name "t1")) (.name "t2")) (.name "t3")) (.bin .dstar (.index (.name "z") (.cons (.name "der") (.cons (.name "k") .nil))) (.bin .minus (.name "c3") (.int 1)))) (.chain (.name "c3") (.link .gt (.int 0) .nil)) (.float 0 0))) <|
  .nil

/-- A loop body of `derImplMat`. -/
def derImplMatLoop9 : Block :=
  .simple (.aug .plus (.name "ix") (.int 1)) <|
  .for (.name "k") (.call (.name "range") (.cons (.name "nobs") .nil)) derImplMatLoop8 <|
  .nil

/-- A loop body of `derImplMat`. -/
def derImplMatLoop10 : Block :=
  .simple (.aug .plus (.name "ix") (.int 1)) <|
  .for (.name "k") (.call (.name "range") (.cons (.name "nobs") .nil)) derImplMatLoop7 <|
  .for (.name "i3") (.call (.name "range") (.cons (.name "i2") (.cons (.name "nvar") .nil))) derImplMatLoop9 <|
  .nil

/-- A loop body of `derImplMat`. -/
def derImplMatLoop11 : Block :=
  .for (.name "i2") (.call (.name "range") (.cons (.name "i1") (.cons (.name "nvar") .nil))) derImplMatLoop10 <|
  .nil

/-- A loop body of `derImplMat`. -/
def derImplMatLoop12 : Block :=
  .simple (.assign (.tuple (.cons (.name "c1") (.cons (.name "t1") .nil))) (.ite (.tuple (.cons (.int 1) (.cons (.float 1 0) .nil))) (.chain (.name "i1") (.link .eqeq (.name "der") .nil)) (.tuple (.cons (.int 0) (.cons (.index (.name "z") (.cons (.name "i1") (.cons (.name "k") .nil))) .nil))))) <|
  .simple (.assign (.tuple (.cons (.name "c2") (.cons (.name "t2") .nil))) (.ite (.tuple (.cons (.bin .plus (.name "c1") (.int 1)) (.cons (.float 1 0) .nil))) (.chain (.name "i2") (.link .eqeq (.name "der") .nil)) (.tuple (.cons (.name "c1") (.cons (.index (.name "z") (.cons (.name "i2") (.cons (.name "k") .nil))) .nil))))) <|
  .simple (.assign (.index (.name "out") (.cons (.name "ix") (.cons (.name "k") .nil))) (.ite (.bin .star (.bin .star (.bin .star (.name "c2") (.name "t1")) (.name "t2")) (.bin .dstar (.index (.name "z") (.cons (.name "der") (.cons (.name "k") .nil))) (.bin .minus (.name "c2") (.int 1)))) (.chain (.name "c2") (.link .gt (.int 0) .nil)) (.float 0 0))) <|
  .nil

/-- A loop body of `derImplMat`. -/
def derImplMatLoop13 : Block :=
  .simple (.assign (.tuple (.cons (.name "c1") (.cons (.name "t1") .nil))) (.ite (.tuple (.cons (.int 1) (.cons (.float 1 0) .nil))) (.chain (.name "i1") (.link .eqeq (.name "der") .nil)) (.tuple (.cons (.int 0) (.cons (.index (.name "z") (.cons (.name "i1") (.cons (.name "k") .nil))) .nil))))) <|
  .simple (.assign (.tuple (.cons (.name "c2") (.cons (.name "t2") .nil))) (.ite (.tuple (.cons (.bin .plus (.name "c1") (.int 1)) (.cons (.float 1 0) .nil))) (.chain (.name "i2") (.link .eqeq (.name "der") .nil)) (.tuple (.cons (.name "c1") (.cons (.index (.name "z") (.cons (.name "i2") (.cons (.name "k") .nil))) .nil))))) <|
  .simple (.assign (.tuple (.cons (.name "c3") (.cons (.name "t3") .nil))) (.ite (.tuple (.cons (.bin .plus (.name "c2") (.int 1)) (.cons (.float 1 0) .nil))) (.chain (.name "i3") (.link .eqeq (.name "der") .nil)) (.tuple (.cons (.name "c2") (.cons (.index (.name "z") (.cons (.name "i3") (.cons (.name "k") .nil))) .nil))))) <|
  .simple (.assign (.index (.name "out") (.cons (.name "ix") (.cons (.name "k") .nil))) (.ite (.bin .star (.bin .star (.bin .star (.bin .star (.name "c3") (.name "t1")) (.name "t2")) (.name "t3")) (.bin .dstar (.index (.name "z") (.cons (.name "der") (.cons (.name "k") .nil))) (.bin .minus (.name "c3") (.int 1)))) (.chain (.name "c3") (.link .gt (.int 0) .nil)) (.float 0 0))) <|
  .nil

/-- A loop body of `derImplMat`. -/
def derImplMatLoop14 : Block :=
  .simple (.assign (.tuple (.cons (.name "c1") (.cons (.name "t1") .nil))) (.ite (.tuple (.cons (.int 1) (.cons (.float 1 0) .nil))) (.chain (.name "i1") (.link .eqeq (.name "der") .nil)) (.tuple (.cons (.int 0) (.cons (.index (.name "z") (.cons (.name "i1") (.cons (.name "k") .nil))) .nil))))) <|
  .simple (.assign (.tuple (.cons (.name "c2") (.cons (.name "t2") .nil))) (.ite (.tuple (.cons (.bin .plus (.name "c1") (.int 1)) (.cons (.float 1 0) .nil))) (.chain (.name "i2") (.link .eqeq (.name "der") .nil)) (.tuple (.cons (.name "c1") (.cons (.index (.name "z") (.cons (.name "i2") (.cons (.name "k") .nil))) .nil))))) <|
  .simple (.assign (.tuple (.cons (.name "c3") (.cons (.name "t3") .nil))) (.ite (.tuple (.cons (.bin .plus (.name "c2") (.int 1)) (.cons (.float 1 0) .nil))) (.chain (.name "i3") (.link .eqeq (.name "der") .nil)) (.tuple (.cons (.name "c2") (.cons (.index (.name "z") (.cons (.name "i3") (.cons (.name "k") .nil))) .nil))))) <|
  .simple (.assign (.tuple (.cons (.name "c4") (.cons (.name "t4") .nil))) (.ite (.tuple (.cons (.bin .plus (.name "c3") (.int 1)) (.cons (.float 1 0) .nil))) (.chain (.name "i4") (.link .eqeq (.name "der") .nil)) (.tuple (.cons (.name "c3") (.cons (.index (.name "z") (.cons (.name "i4") (.cons (.name "k") .nil))) .nil))))) <|
  .simple (.assign (.index (.name "out") (.cons (.name "ix") (.cons (.name "k") .nil))) (.ite (.bin .star (.bin .star (.bin .star (.bin .star (.bin .star (.name "c4") (.name "t1")) (.name "t2")) (.name "t3")) (.name "t4")) (.bin .dstar (.index (.name "z") (.cons (.name "der") (.cons (.name "k") .nil))) (.bin .minus (.name "c4") (.int 1)))) (.chain (.name "c4") (.link .gt (.int 0) .nil)) (.float 0 0))) <|
  .nil

/-- A loop body of `derImplMat`. -/
def derImplMatLoop15 : Block :=
  .simple (.aug .plus (.name "ix") (.int 1)) <|
  .for (.name "k") (.call (.name "range") (.cons (.name "nobs") .nil)) derImplMatLoop14 <|
  .nil

/-- A loop body of `derImplMat`. -/
def derImplMatLoop16 : Block :=
  .simple (.aug .plus (.name "ix") (.int 1)) <|
  .for (.name "k") (.call (.name "range") (.cons (.name "nobs") .nil)) derImplMatLoop13 <|
  .for (.name "i4") (.call (.name "range") (.cons (.name "i3") (.cons (.name "nvar") .nil))) derImplMatLoop15 <|
  .nil

/-- A loop body of `derImplMat`. -/
def derImplMatLoop17 : Block :=
  .simple (.aug .plus (.name "ix") (.int 1)) <|
  .for (.name "k") (.call (.name "range") (.cons (.name "nobs") .nil)) derImplMatLoop12 <|
  .for (.name "i3") (.call (.name "range") (.cons (.name "i2") (.cons (.name "nvar") .nil))) derImplMatLoop16 <|
  .nil

/-- A loop body of `derImplMat`. -/
def derImplMatLoop18 : Block :=
  .for (.name "i2") (.call (.name "range") (.cons (.name "i1") (.cons (.name "nvar") .nil))) derImplMatLoop17 <|
  .nil

/-- A loop body of `derImplMat`. -/
def derImplMatLoop19 : Block :=
  .simple (.assign (.tuple (.cons (.name "c1") (.cons (.name "t1") .nil))) (.ite (.tuple (.cons (.int 1) (.cons (.float 1 0) .nil))) (.chain (.name "i1") (.link .eqeq (.name "der") .nil)) (.tuple (.cons (.int 0) (.cons (.index (.name "z") (.cons (.name "i1") (.cons (.name "k") .nil))) .nil))))) <|
  .simple (.assign (.tuple (.cons (.name "c2") (.cons (.name "t2") .nil))) (.ite (.tuple (.cons (.bin .plus (.name "c1") (.int 1)) (.cons (.float 1 0) .nil))) (.chain (.name "i2") (.link .eqeq (.name "der") .nil)) (.tuple (.cons (.name "c1") (.cons (.index (.name "z") (.cons (.name "i2") (.cons (.name "k") .nil))) .nil))))) <|
  .simple (.assign (.index (.name "out") (.cons (.name "ix") (.cons (.name "k") .nil))) (.ite (.bin .star (.bin .star (.bin .star (.name "c2") (.name "t1")) (.name "t2")) (.bin .dstar (.index (.name "z") (.cons (.name "der") (.cons (.name "k") .nil))) (.bin .minus (.name "c2") (.int 1)))) (.chain (.name "c2") (.link .gt (.int 0) .nil)) (.float 0 0))) <|
  .nil

/-- A loop body of `derImplMat`. -/
def derImplMatLoop20 : Block :=
  .simple (.assign (.tuple (.cons (.name "c1") (.cons (.name "t1") .nil))) (.ite (.tuple (.cons (.int 1) (.cons (.float 1 0) .nil))) (.chain (.name "i1") (.link .eqeq (.name "der") .nil)) (.tuple (.cons (.int 0) (.cons (.index (.name "z") (.cons (.name "i1") (.cons (.name "k") .nil))) .nil))))) <|
  .simple (.assign (.tuple (.cons (.name "c2") (.cons (.name "t2") .nil))) (.ite (.tuple (.cons (.bin .plus (.name "c1") (.int 1)) (.cons (.float 1 0) .nil))) (.chain (.name "i2") (.link .eqeq (.name "der") .nil)) (.tuple (.cons (.name "c1") (.cons (.index (.name "z") (.cons (.name "i2") (.cons (.name "k") .nil))) .nil))))) <|
  .simple (.assign (.tuple (.cons (.name "c3") (.cons (.name "t3") .nil))) (.ite (.tuple (.cons (.bin .plus (.name "c2") (.int 1)) (.cons (.float 1 0) .nil))) (.chain (.name "i3") (.link .eqeq (.name "der") .nil)) (.tuple (.cons (.name "c2") (.cons (.index (.name "z") (.cons (.name "i3") (.cons (.name "k") .nil))) .nil))))) <|
  .simple (.assign (.index (.name "out") (.cons (.name "ix") (.cons (.name "k") .nil))) (.ite (.bin .star (.bin .star (.bin .star (.bin .star (.name "c3") (.name "t1")) (.name "t2")) (.name "t3")) (.bin .dstar (.index (.name "z") (.cons (.name "der") (.cons (.name "k") .nil))) (.bin .minus (.name "c3") (.int 1)))) (.chain (.name "c3") (.link .gt (.int 0) .nil)) (.float 0 0))) <|
  .nil

/-- A loop body of `derImplMat`. -/
def derImplMatLoop21 : Block :=
  .simple (.assign (.tuple (.cons (.name "c1") (.cons (.name "t1") .nil))) (.ite (.tuple (.cons (.int 1) (.cons (.float 1 0) .nil))) (.chain (.name "i1") (.link .eqeq (.name "der") .nil)) (.tuple (.cons (.int 0) (.cons (.index (.name "z") (.cons (.name "i1") (.cons (.name "k") .nil))) .nil))))) <|
  .simple (.assign (.tuple (.cons (.name "c2") (.cons (.name "t2") .nil))) (.ite (.tuple (.cons (.bin .plus (.name "c1") (.int 1)) (.cons (.float 1 0) .nil))) (.chain (.name "i2") (.link .eqeq (.name "der") .nil)) (.tuple (.cons (.name "c1") (.cons (.index (.name "z") (.cons (.name "i2") (.cons (.name "k") .nil))) .nil))))) <|
  .simple (.assign (.tuple (.cons (.name "c3") (.cons (.name "t3") .nil))) (.ite (.tuple (.cons (.bin .plus (.name "c2") (.int 1)) (.cons (.float 1 0) .nil))) (.chain (.name "i3") (.link .eqeq (.name "der") .nil)) (.tuple (.cons (.name "c2") (.cons (.index (.name "z") (.cons (.name "i3") (.cons (.name "k") .nil))) .nil))))) <|
  .simple (.assign (.tuple (.cons (.name "c4") (.cons (.name "t4") .nil))) (.ite (.tuple (.cons (.bin .plus (.name "c3") (.int 1)) (.cons (.float 1 0) .nil))) (.chain (.name "i4") (.link .eqeq (.name "der") .nil)) (.tuple (.cons (.name "c3") (.cons (.index (.name "z") (.cons (.name "i4") (.cons (.name "k") .nil))) .nil))))) <|
  .simple (.assign (.index (.name "out") (.cons (.name "ix") (.cons (.name "k") .nil))) (.ite (.bin .star (.bin .star (.bin .star (.bin .star (.bin .star (.name "c4") (.name "t1")) (.name "t2")) (.name "t3")) (.name "t4")) (.bin .dstar (.index (.name "z") (.cons (.name "der") (.cons (.name "k") .nil))) (.bin .minus (.name "c4") (.int 1)))) (.chain (.name "c4") (.link .gt (.int 0) .nil)) (.float 0 0))) <|
  .nil

/-- A loop body of `derImplMat`. -/
def derImplMatLoop22 : Block :=
  .simple (.assign (.tuple (.cons (.name "c1") (.cons (.name "t1") .nil))) (.ite (.tuple (.cons (.int 1) (.cons (.float 1 0) .nil))) (.chain (.name "i1") (.link .eqeq (.name "der") .nil)) (.tuple (.cons (.int 0) (.cons (.index (.name "z") (.cons (.name "i1") (.cons (.name "k") .nil))) .nil))))) <|
  .simple (.assign (.tuple (.cons (.name "c2") (.cons (.name "t2") .nil))) (.ite (.tuple (.cons (.bin .plus (.name "c1") (.int 1)) (.cons (.float 1 0) .nil))) (.chain (.name "i2") (.link .eqeq (.name "der") .nil)) (.tuple (.cons (.name "c1") (.cons (.index (.name "z") (.cons (.name "i2") (.cons (.name "k") .nil))) .nil))))) <|
  .simple (.assign (.tuple (.cons (.name "c3") (.cons (.name "t3") .nil))) (.ite (.tuple (.cons (.bin .plus (.name "c2") (.int 1)) (.cons (.float 1 0) .nil))) (.chain (.name "i3") (.link .eqeq (.name "der") .nil)) (.tuple (.cons (.name "c2") (.cons (.index (.name "z") (.cons (.name "i3") (.cons (.name "k") .nil))) .nil))))) <|
  .simple (.assign (.tuple (.cons (.name "c4") (.cons (.name "t4") .nil))) (.ite (.tuple (.cons (.bin .plus (.name "c3") (.int 1)) (.cons (.float 1 0) .nil))) (.chain (.name "i4") (.link .eqeq (.name "der") .nil)) (.tuple (.cons (.name "c3") (.cons (.index (.name "z") (.cons (.name "i4") (.cons (.name "k") .nil))) .nil))))) <|
  .simple (.assign (.tuple (.cons (.name "c5") (.cons (.name "t5") .nil))) (.ite (.tuple (.cons (.bin .plus (.name "c4") (.int 1)) (.cons (.float 1 0) .nil))) (.chain (.name "i5") (.link .eqeq (.name "der") .nil)) (.tuple (.cons (.name "c4") (.cons (.index (.name "z") (.cons (.name "i5") (.cons (.name "k") .nil))) .nil))))) <|
  .simple (.assign (.index (.name "out") (.cons (.name "ix") (.cons (.name "k") .nil))) (.ite (.bin .star (.bin .star (.bin .star (.bin .star (.bin .star (.bin .star (.name "c5") (.name "t1")) (.name "t2")) (.name "t3")) (.name "t4")) (.name "t5")) (.bin .dstar (.index (.name "z") (.cons (.name "der") (.cons (.name "k") .nil))) (.bin .minus (.name "c5") (.int 1)))) (.chain (.name "c5") (.link .gt (.int 0) .nil)) (.float 0 0))) <|
  .nil

/-- A loop body of `derImplMat`. -/
def derImplMatLoop23 : Block :=
  .simple (.aug .plus (.name "ix") (.int 1)) <|
  .for (.name "k") (.call (.name "range") (.cons (.name "nobs") .nil)) derImplMatLoop22 <|
  .nil

/-- A loop body of `derImplMat`. -/
def derImplMatLoop24 : Block :=
  .simple (.aug .plus (.name "ix") (.int 1)) <|
  .for (.name "k") (.call (.name "range") (.cons (.name "nobs") .nil)) derImplMatLoop21 <|
  .for (.name "i5") (.call (.name "range") (.cons (.name "i4") (.cons (.name "nvar") .nil))) derImplMatLoop23 <|
  .nil

/-- A loop body of `derImplMat`. -/
def derImplMatLoop25 : Block :=
  .simple (.aug .plus (.name "ix") (.int 1)) <|
  .for (.name "k") (.call (.name "range") (.cons (.name "nobs") .nil)) derImplMatLoop20 <|
  .for (.name "i4") (.call (.name "range") (.cons (.name "i3") (.cons (.name "nvar") .nil))) derImplMatLoop24 <|
  .nil

/-- A loop body of `derImplMat`. -/
def derImplMatLoop26 : Block :=
  .simple (.aug .plus (.name "ix") (.int 1)) <|
  .for (.name "k") (.call (.name "range") (.cons (.name "nobs") .nil)) derImplMatLoop19 <|
  .for (.name "i3") (.call (.name "range") (.cons (.name "i2") (.cons (.name "nvar") .nil))) derImplMatLoop25 <|
  .nil

/-- A loop body of `derImplMat`. -/
def derImplMatLoop27 : Block :=
  .for (.name "i2") (.call (.name "range") (.cons (.name "i1") (.cons (.name "nvar") .nil))) derImplMatLoop26 <|
  .nil

/-- The body of the function of `derImplMatText`. -/
def derImplMatBody : Block :=
  .simple (.assign (.name "nvar") (.index (.attr (.name "z") "shape") (.cons (.int 0) .nil))) <|
  .simple (.assign (.name "nobs") (.index (.attr (.name "z") "shape") (.cons (.int 1) .nil))) <|
  .for (.name "k") (.call (.name "range") (.cons (.name "nobs") .nil)) derImplMatLoop0 <|
  .ifte (.chain (.name "d") (.link .ge (.int 1) .nil)) (
    .for (.name "i") (.call (.name "range") (.cons (.name "nvar") .nil)) derImplMatLoop2 <|
    .for (.name "k") (.call (.name "range") (.cons (.name "nobs") .nil)) derImplMatLoop3 <|
    .nil) (
    .nil) <|
  .ifte (.chain (.name "d") (.link .eqeq (.int 1) .nil)) (
    .simple (.ret none) <|
    .nil) (
    .nil) <|
  .simple (.assign (.name "ix") (.name "nvar")) <|
  .ifte (.chain (.name "d") (.link .eqeq (.int 2) .nil)) (
    .for (.name "i1") (.call (.name "range") (.cons (.name "nvar") .nil)) derImplMatLoop6 <|
    .simple (.ret none) <|
    .nil) (
    .nil) <|
  .ifte (.chain (.name "d") (.link .eqeq (.int 3) .nil)) (
    .for (.name "i1") (.call (.name "range") (.cons (.name "nvar") .nil)) derImplMatLoop11 <|
    .simple (.ret none) <|
    .nil) (
    .nil) <|
  .ifte (.chain (.name "d") (.link .eqeq (.int 4) .nil)) (
    .for (.name "i1") (.call (.name "range") (.cons (.name "nvar") .nil)) derImplMatLoop18 <|
    .simple (.ret none) <|
    .nil) (
    .nil) <|
  .ifte (.chain (.name "d") (.link .eqeq (.int 5) .nil)) (
    .for (.name "i1") (.call (.name "range") (.cons (.name "nvar") .nil)) derImplMatLoop27 <|
    .simple (.ret none) <|
    .nil) (
    .nil) <|
  .nil

/-- The function of `derImplMatText`. -/
def derImplMatFun : FunDef :=
  ⟨"_complete_poly_der_impl", [("z", none), ("d", none), ("der", none), ("out", none)], derImplMatBody⟩

theorem derImplMat_parse : parseFun derImplMatText = some derImplMatFun := by kernel_rfl

/-- The body of the function of `completePolynomialText`. -/
def completePolynomialBody : Block :=
  .simple (.assert (.cons (.chain (.name "d") (.link .ge (.int 0) .nil)) (.cons (.str "d must be non-negative") .nil))) <|
  .ifte (.chain (.name "d") (.link .gt (.int 5) .nil)) (
    .simple (.raise (.call (.name "ValueError") (.cons (.str "Complete polynomial only implemeted up to degree 5") .nil))) <|
    .nil) (
    .nil) <|
  .simple (.assign (.name "z") (.call (.attr (.name "np") "asarray") (.cons (.name "z") .nil))) <|
  .ifte (.chain (.call (.attr (.name "np") "ndim") (.cons (.name "z") .nil)) (.link .eqeq (.int 1) .nil)) (
    .simple (.assign (.name "nvar") (.attr (.name "z") "size")) <|
    .simple (.assign (.name "out") (.call (.attr (.name "np") "zeros") (.cons (.call (.name "n_complete") (.cons (.name "nvar") (.cons (.name "d") .nil))) .nil))) <|
    .simple (.expr (.call (.name "_complete_poly_impl_vec") (.cons (.name "z") (.cons (.name "d") (.cons (.name "out") .nil))))) <|
    .nil) (
    .simple (.assign (.tuple (.cons (.name "nvar") (.cons (.name "nobs") .nil))) (.attr (.name "z") "shape")) <|
    .simple (.assign (.name "out") (.call (.attr (.name "np") "zeros") (.cons (.tuple (.cons (.call (.name "n_complete") (.cons (.name "nvar") (.cons (.name "d") .nil))) (.cons (.name "nobs") .nil))) .nil))) <|
    .simple (.expr (.call (.name "_complete_poly_impl") (.cons (.name "z") (.cons (.name "d") (.cons (.name "out") .nil))))) <|
    .nil) <|
  .simple (.ret (some (.name "out"))) <|
  .nil

/-- The function of `completePolynomialText`. -/
def completePolynomialFun : FunDef :=
  ⟨"complete_polynomial", [("z", none), ("d", none)], completePolynomialBody⟩

theorem completePolynomial_parse : parseFun completePolynomialText = some completePolynomialFun := by kernel_rfl

/-- The body of the function of `completePolynomialDerText`. -/
def completePolynomialDerBody : Block :=
  .simple (.assert (.cons (.chain (.name "d") (.link .ge (.int 0) .nil)) (.cons (.str "d must be non-negative") .nil))) <|
  .simple (.assert (.cons (.chain (.name "der") (.link .ge (.int 0) .nil)) (.cons (.str "derivative must be non-negative") .nil))) <|
  .ifte (.chain (.name "d") (.link .gt (.int 5) .nil)) (
    .simple (.raise (.call (.name "ValueError") (.cons (.str "Complete polynomial only implemeted up to degree 5") .nil))) <|
    .nil) (
    .nil) <|
  .simple (.assign (.name "z") (.call (.attr (.name "np") "asarray") (.cons (.name "z") .nil))) <|
  .ifte (.chain (.call (.attr (.name "np") "ndim") (.cons (.name "z") .nil)) (.link .eqeq (.int 1) .nil)) (
    .simple (.assign (.name "nvar") (.attr (.name "z") "size")) <|
    .simple (.assert (.cons (.chain (.name "der") (.link .lt (.name "nvar") .nil)) (.cons (.str "derivative integer must be smaller than nobs in z") .nil))) <|
    .simple (.assign (.name "out") (.call (.attr (.name "np") "zeros") (.cons (.call (.name "n_complete") (.cons (.name "nvar") (.cons (.name "d") .nil))) .nil))) <|
    .simple (.expr (.call (.name "_complete_poly_der_impl_vec") (.cons (.name "z") (.cons (.name "d") (.cons (.name "der") (.cons (.name "out") .nil)))))) <|
    .nil) (
    .simple (.assign (.tuple (.cons (.name "nvar") (.cons (.name "nobs") .nil))) (.attr (.name "z") "shape")) <|
    .simple (.assert (.cons (.chain (.name "der") (.link .lt (.name "nvar") .nil)) (.cons (.str "derivative integer must be smaller than nobs in z") .nil))) <|
    .simple (.assign (.name "out") (.call (.attr (.name "np") "zeros") (.cons (.tuple (.cons (.call (.name "n_complete") (.cons (.name "nvar") (.cons (.name "d") .nil))) (.cons (.name "nobs") .nil))) .nil))) <|
    .simple (.expr (.call (.name "_complete_poly_der_impl") (.cons (.name "z") (.cons (.name "d") (.cons (.name "der") (.cons (.name "out") .nil)))))) <|
    .nil) <|
  .simple (.ret (some (.name "out"))) <|
  .nil

/-- The function of `completePolynomialDerText`. -/
def completePolynomialDerFun : FunDef :=
  ⟨"complete_polynomial_der", [("z", none), ("d", none), ("der", none)], completePolynomialDerBody⟩

theorem completePolynomialDer_parse : parseFun completePolynomialDerText = some completePolynomialDerFun := by kernel_rfl

/-- The expression `basisText`. -/
def basisEx : Ex :=
  (.tuple (.cons (.bin .slash (.float 1 0) (.float 6 0)) (.cons (.bin .slash (.float 2 0) (.float 3 0)) (.cons (.bin .slash (.float 1 0) (.float 6 0)) (.cons (.float 0 0) .nil)))))

theorem basis_parse : parseExpr basisText = some basisEx := by kernel_rfl

end Interp.Spec.PySrc
