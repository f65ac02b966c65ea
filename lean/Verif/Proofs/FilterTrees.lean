import Verif.Spec.MoreTexts
import Verif.Spec.PySrc
import Verif.Proofs.KernelRfl
import Verif.Proofs.SourceTrees

/-!
# The syntax trees of `filter_cubic.py`
-/

namespace Interp.Spec.PySrc

set_option maxRecDepth 100000

theorem oldSolve_text : oldSolveText = solveText := by kernel_rfl

/-- A loop body of `oldFindCoefs`. -/
def oldFindCoefsLoop0 : Block :=
  .simple (.assign (.index (.name "bands") (.cons (.int 0) (.cons (.name "i") .nil))) (.index (.name "abcd_left") (.cons (.name "i") .nil))) <|
  .simple (.assign (.index (.name "bands") (.cons (.bin .plus (.name "M") (.int 1)) (.cons (.name "i") .nil))) (.index (.name "abcd_right") (.cons (.name "i") .nil))) <|
  .nil

/-- A loop body of `oldFindCoefs`. -/
def oldFindCoefsLoop1 : Block :=
  .simple (.assign (.index (.name "bands") (.cons (.bin .plus (.name "i") (.int 1)) (.cons (.name "j") .nil))) (.index (.name "basis") (.cons (.name "j") .nil))) <|
  .simple (.assign (.index (.name "bands") (.cons (.bin .plus (.name "i") (.int 1)) (.cons (.int 3) .nil))) (.index (.name "data") (.cons (.name "i") .nil))) <|
  .nil

/-- A loop body of `oldFindCoefs`. -/
def oldFindCoefsLoop2 : Block :=
  .for (.name "j") (.call (.name "range") (.cons (.int 3) .nil)) oldFindCoefsLoop1 <|
  .nil

/-- The body of `oldFindCoefs`. -/
def oldFindCoefsBody : Block :=
  .simple (.assign (.name "bands") (.call (.attr (.name "np") "zeros") (.cons (.tuple (.cons (.bin .plus (.name "M") (.int 2)) (.cons (.int 4) .nil))) .nil))) <|
  .simple (.assign (.name "abcd_left") (.call (.attr (.name "np") "zeros") (.cons (.int 4) .nil))) <|
  .simple (.assign (.name "abcd_right") (.call (.attr (.name "np") "zeros") (.cons (.int 4) .nil))) <|
  .simple (.assign (.index (.name "abcd_left") (.cons (.int 0) .nil)) (.bin .star (.bin .star (.float 1 0) (.name "delta_inv")) (.name "delta_inv"))) <|
  .simple (.assign (.index (.name "abcd_left") (.cons (.int 1) .nil)) (.bin .star (.bin .star (.neg (.float 2 0)) (.name "delta_inv")) (.name "delta_inv"))) <|
  .simple (.assign (.index (.name "abcd_left") (.cons (.int 2) .nil)) (.bin .star (.bin .star (.float 1 0) (.name "delta_inv")) (.name "delta_inv"))) <|
  .simple (.assign (.index (.name "abcd_left") (.cons (.int 3) .nil)) (.int 0)) <|
  .simple (.assign (.index (.name "abcd_right") (.cons (.int 0) .nil)) (.bin .star (.bin .star (.float 1 0) (.name "delta_inv")) (.name "delta_inv"))) <|
  .simple (.assign (.index (.name "abcd_right") (.cons (.int 1) .nil)) (.bin .star (.bin .star (.neg (.float 2 0)) (.name "delta_inv")) (.name "delta_inv"))) <|
  .simple (.assign (.index (.name "abcd_right") (.cons (.int 2) .nil)) (.bin .star (.bin .star (.float 1 0) (.name "delta_inv")) (.name "delta_inv"))) <|
  .simple (.assign (.index (.name "abcd_right") (.cons (.int 3) .nil)) (.int 0)) <|
  .for (.name "i") (.call (.name "range") (.cons (.int 4) .nil)) oldFindCoefsLoop0 <|
  .for (.name "i") (.call (.name "range") (.cons (.name "M") .nil)) oldFindCoefsLoop2 <|
  .simple (.expr (.call (.name "solve_deriv_interp_1d") (.cons (.name "bands") (.cons (.name "coefs") .nil)))) <|
  .nil

/-- The function of `oldFindCoefsText`. -/
def oldFindCoefsFun : FunDef :=
  ⟨"find_coefs_1d", [("delta_inv", none), ("M", none), ("data", none), ("coefs", none)], oldFindCoefsBody⟩

theorem oldFindCoefs_parse : parseFun oldFindCoefsText = some oldFindCoefsFun := by kernel_rfl

/-- The body of `filterCoeffs1d`. -/
def filterCoeffs1dBody : Block :=
  .simple (.assign (.name "M") (.index (.attr (.name "data") "shape") (.cons (.int 0) .nil))) <|
  .simple (.assign (.name "N") (.bin .plus (.name "M") (.int 2))) <|
  .simple (.assign (.name "coefs") (.call (.attr (.name "np") "zeros") (.cons (.name "N") .nil))) <|
  .simple (.expr (.call (.name "find_coefs_1d") (.cons (.index (.name "dinv") (.cons (.int 0) .nil)) (.cons (.name "M") (.cons (.name "data") (.cons (.name "coefs") .nil)))))) <|
  .simple (.ret (some (.name "coefs"))) <|
  .nil

/-- The function of `filterCoeffs1dText`. -/
def filterCoeffs1dFun : FunDef :=
  ⟨"filter_coeffs_1d", [("dinv", none), ("data", none)], filterCoeffs1dBody⟩

theorem filterCoeffs1d_parse : parseFun filterCoeffs1dText = some filterCoeffs1dFun := by kernel_rfl

/-- A loop body of `filterCoeffs2d`. -/
def filterCoeffs2dLoop0 : Block :=
  .simple (.expr (.call (.name "find_coefs_1d") (.cons (.index (.name "dinv") (.cons (.int 0) .nil)) (.cons (.name "Mx") (.cons (.index (.name "data") (.cons .full (.cons (.name "iy") .nil))) (.cons (.index (.name "coefs") (.cons .full (.cons (.name "iy") .nil))) .nil)))))) <|
  .nil

/-- A loop body of `filterCoeffs2d`. -/
def filterCoeffs2dLoop1 : Block :=
  .simple (.expr (.call (.name "find_coefs_1d") (.cons (.index (.name "dinv") (.cons (.int 1) .nil)) (.cons (.name "My") (.cons (.index (.name "coefs") (.cons (.name "ix") (.cons .full .nil))) (.cons (.index (.name "coefs") (.cons (.name "ix") (.cons .full .nil))) .nil)))))) <|
  .nil

/-- The body of `filterCoeffs2d`. -/
def filterCoeffs2dBody : Block :=
  .simple (.assign (.name "Mx") (.index (.attr (.name "data") "shape") (.cons (.int 0) .nil))) <|
  .simple (.assign (.name "My") (.index (.attr (.name "data") "shape") (.cons (.int 1) .nil))) <|
  .simple (.assign (.name "Nx") (.bin .plus (.name "Mx") (.int 2))) <|
  .simple (.assign (.name "Ny") (.bin .plus (.name "My") (.int 2))) <|
  .simple (.assign (.name "coefs") (.call (.attr (.name "np") "zeros") (.cons (.tuple (.cons (.name "Nx") (.cons (.name "Ny") .nil))) .nil))) <|
  .for (.name "iy") (.call (.name "range") (.cons (.name "My") .nil)) filterCoeffs2dLoop0 <|
  .for (.name "ix") (.call (.name "range") (.cons (.name "Nx") .nil)) filterCoeffs2dLoop1 <|
  .simple (.ret (some (.name "coefs"))) <|
  .nil

/-- The function of `filterCoeffs2dText`. -/
def filterCoeffs2dFun : FunDef :=
  ⟨"filter_coeffs_2d", [("dinv", none), ("data", none)], filterCoeffs2dBody⟩

theorem filterCoeffs2d_parse : parseFun filterCoeffs2dText = some filterCoeffs2dFun := by kernel_rfl

/-- A loop body of `filterCoeffs3d`. -/
def filterCoeffs3dLoop0 : Block :=
  .simple (.expr (.call (.name "find_coefs_1d") (.cons (.index (.name "dinv") (.cons (.int 0) .nil)) (.cons (.name "Mx") (.cons (.index (.name "data") (.cons .full (.cons (.name "iy") (.cons (.name "iz") .nil)))) (.cons (.index (.name "coefs") (.cons .full (.cons (.name "iy") (.cons (.name "iz") .nil)))) .nil)))))) <|
  .nil

/-- A loop body of `filterCoeffs3d`. -/
def filterCoeffs3dLoop1 : Block :=
  .for (.name "iz") (.call (.name "range") (.cons (.name "Mz") .nil)) filterCoeffs3dLoop0 <|
  .nil

/-- A loop body of `filterCoeffs3d`. -/
def filterCoeffs3dLoop2 : Block :=
  .simple (.expr (.call (.name "find_coefs_1d") (.cons (.index (.name "dinv") (.cons (.int 1) .nil)) (.cons (.name "My") (.cons (.index (.name "coefs") (.cons (.name "ix") (.cons .full (.cons (.name "iz") .nil)))) (.cons (.index (.name "coefs") (.cons (.name "ix") (.cons .full (.cons (.name "iz") .nil)))) .nil)))))) <|
  .nil

/-- A loop body of `filterCoeffs3d`. -/
def filterCoeffs3dLoop3 : Block :=
  .for (.name "iz") (.call (.name "range") (.cons (.name "Mz") .nil)) filterCoeffs3dLoop2 <|
  .nil

/-- A loop body of `filterCoeffs3d`. -/
def filterCoeffs3dLoop4 : Block :=
  .simple (.expr (.call (.name "find_coefs_1d") (.cons (.index (.name "dinv") (.cons (.int 2) .nil)) (.cons (.name "Mz") (.cons (.index (.name "coefs") (.cons (.name "ix") (.cons (.name "iy") (.cons .full .nil)))) (.cons (.index (.name "coefs") (.cons (.name "ix") (.cons (.name "iy") (.cons .full .nil)))) .nil)))))) <|
  .nil

/-- A loop body of `filterCoeffs3d`. -/
def filterCoeffs3dLoop5 : Block :=
  .for (.name "iy") (.call (.name "range") (.cons (.name "Ny") .nil)) filterCoeffs3dLoop4 <|
  .nil

/-- The body of `filterCoeffs3d`. -/
def filterCoeffs3dBody : Block :=
  .simple (.assign (.name "Mx") (.index (.attr (.name "data") "shape") (.cons (.int 0) .nil))) <|
  .simple (.assign (.name "My") (.index (.attr (.name "data") "shape") (.cons (.int 1) .nil))) <|
  .simple (.assign (.name "Mz") (.index (.attr (.name "data") "shape") (.cons (.int 2) .nil))) <|
  .simple (.assign (.name "Nx") (.bin .plus (.name "Mx") (.int 2))) <|
  .simple (.assign (.name "Ny") (.bin .plus (.name "My") (.int 2))) <|
  .simple (.assign (.name "Nz") (.bin .plus (.name "Mz") (.int 2))) <|
  .simple (.assign (.name "coefs") (.call (.attr (.name "np") "zeros") (.cons (.tuple (.cons (.name "Nx") (.cons (.name "Ny") (.cons (.name "Nz") .nil)))) .nil))) <|
  .for (.name "iy") (.call (.name "range") (.cons (.name "My") .nil)) filterCoeffs3dLoop1 <|
  .for (.name "ix") (.call (.name "range") (.cons (.name "Nx") .nil)) filterCoeffs3dLoop3 <|
  .for (.name "ix") (.call (.name "range") (.cons (.name "Nx") .nil)) filterCoeffs3dLoop5 <|
  .simple (.ret (some (.name "coefs"))) <|
  .nil

/-- The function of `filterCoeffs3dText`. -/
def filterCoeffs3dFun : FunDef :=
  ⟨"filter_coeffs_3d", [("dinv", none), ("data", none)], filterCoeffs3dBody⟩

theorem filterCoeffs3d_parse : parseFun filterCoeffs3dText = some filterCoeffs3dFun := by kernel_rfl

/-- A loop body of `filterCoeffs4d`. -/
def filterCoeffs4dLoop0 : Block :=
  .simple (.expr (.call (.name "find_coefs_1d") (.cons (.index (.name "dinv") (.cons (.int 0) .nil)) (.cons (.name "Mx") (.cons (.index (.name "data") (.cons .full (.cons (.name "iy") (.cons (.name "iz") (.cons (.name "iz4") .nil))))) (.cons (.index (.name "coefs") (.cons .full (.cons (.name "iy") (.cons (.name "iz") (.cons (.name "iz4") .nil))))) .nil)))))) <|
  .nil

/-- A loop body of `filterCoeffs4d`. -/
def filterCoeffs4dLoop1 : Block :=
  .for (.name "iz4") (.call (.name "range") (.cons (.name "Mz4") .nil)) filterCoeffs4dLoop0 <|
  .nil

/-- A loop body of `filterCoeffs4d`. -/
def filterCoeffs4dLoop2 : Block :=
  .for (.name "iz") (.call (.name "range") (.cons (.name "Mz") .nil)) filterCoeffs4dLoop1 <|
  .nil

/-- A loop body of `filterCoeffs4d`. -/
def filterCoeffs4dLoop3 : Block :=
  .simple (.expr (.call (.name "find_coefs_1d") (.cons (.index (.name "dinv") (.cons (.int 1) .nil)) (.cons (.name "My") (.cons (.index (.name "coefs") (.cons (.name "ix") (.cons .full (.cons (.name "iz") (.cons (.name "iz4") .nil))))) (.cons (.index (.name "coefs") (.cons (.name "ix") (.cons .full (.cons (.name "iz") (.cons (.name "iz4") .nil))))) .nil)))))) <|
  .nil

/-- A loop body of `filterCoeffs4d`. -/
def filterCoeffs4dLoop4 : Block :=
  .for (.name "iz4") (.call (.name "range") (.cons (.name "Mz4") .nil)) filterCoeffs4dLoop3 <|
  .nil

/-- A loop body of `filterCoeffs4d`. -/
def filterCoeffs4dLoop5 : Block :=
  .for (.name "iz") (.call (.name "range") (.cons (.name "Mz") .nil)) filterCoeffs4dLoop4 <|
  .nil

/-- A loop body of `filterCoeffs4d`. -/
def filterCoeffs4dLoop6 : Block :=
  .simple (.expr (.call (.name "find_coefs_1d") (.cons (.index (.name "dinv") (.cons (.int 2) .nil)) (.cons (.name "Mz") (.cons (.index (.name "coefs") (.cons (.name "ix") (.cons (.name "iy") (.cons .full (.cons (.name "iz4") .nil))))) (.cons (.index (.name "coefs") (.cons (.name "ix") (.cons (.name "iy") (.cons .full (.cons (.name "iz4") .nil))))) .nil)))))) <|
  .nil

/-- A loop body of `filterCoeffs4d`. -/
def filterCoeffs4dLoop7 : Block :=
  .for (.name "iz4") (.call (.name "range") (.cons (.name "Mz4") .nil)) filterCoeffs4dLoop6 <|
  .nil

/-- A loop body of `filterCoeffs4d`. -/
def filterCoeffs4dLoop8 : Block :=
  .for (.name "iy") (.call (.name "range") (.cons (.name "Ny") .nil)) filterCoeffs4dLoop7 <|
  .nil

/-- A loop body of `filterCoeffs4d`. -/
def filterCoeffs4dLoop9 : Block :=
  .simple (.expr (.call (.name "find_coefs_1d") (.cons (.index (.name "dinv") (.cons (.int 3) .nil)) (.cons (.name "Mz4") (.cons (.index (.name "coefs") (.cons (.name "ix") (.cons (.name "iy") (.cons (.name "iz") (.cons .full .nil))))) (.cons (.index (.name "coefs") (.cons (.name "ix") (.cons (.name "iy") (.cons (.name "iz") (.cons .full .nil))))) .nil)))))) <|
  .nil

/-- A loop body of `filterCoeffs4d`. -/
def filterCoeffs4dLoop10 : Block :=
  .for (.name "iz") (.call (.name "range") (.cons (.name "Nz") .nil)) filterCoeffs4dLoop9 <|
  .nil

/-- A loop body of `filterCoeffs4d`. -/
def filterCoeffs4dLoop11 : Block :=
  .for (.name "iy") (.call (.name "range") (.cons (.name "Ny") .nil)) filterCoeffs4dLoop10 <|
  .nil

/-- The body of `filterCoeffs4d`. -/
def filterCoeffs4dBody : Block :=
  .simple (.assign (.name "Mx") (.index (.attr (.name "data") "shape") (.cons (.int 0) .nil))) <|
  .simple (.assign (.name "My") (.index (.attr (.name "data") "shape") (.cons (.int 1) .nil))) <|
  .simple (.assign (.name "Mz") (.index (.attr (.name "data") "shape") (.cons (.int 2) .nil))) <|
  .simple (.assign (.name "Mz4") (.index (.attr (.name "data") "shape") (.cons (.int 3) .nil))) <|
  .simple (.assign (.name "Nx") (.bin .plus (.name "Mx") (.int 2))) <|
  .simple (.assign (.name "Ny") (.bin .plus (.name "My") (.int 2))) <|
  .simple (.assign (.name "Nz") (.bin .plus (.name "Mz") (.int 2))) <|
  .simple (.assign (.name "Nz4") (.bin .plus (.name "Mz4") (.int 2))) <|
  .simple (.assign (.name "coefs") (.call (.attr (.name "np") "zeros") (.cons (.tuple (.cons (.name "Nx") (.cons (.name "Ny") (.cons (.name "Nz") (.cons (.name "Nz4") .nil))))) .nil))) <|
  .for (.name "iy") (.call (.name "range") (.cons (.name "My") .nil)) filterCoeffs4dLoop2 <|
  .for (.name "ix") (.call (.name "range") (.cons (.name "Nx") .nil)) filterCoeffs4dLoop5 <|
  .for (.name "ix") (.call (.name "range") (.cons (.name "Nx") .nil)) filterCoeffs4dLoop8 <|
  .for (.name "ix") (.call (.name "range") (.cons (.name "Nx") .nil)) filterCoeffs4dLoop11 <|
  .simple (.ret (some (.name "coefs"))) <|
  .nil

/-- The function of `filterCoeffs4dText`. -/
def filterCoeffs4dFun : FunDef :=
  ⟨"filter_coeffs_4d", [("dinv", none), ("data", none)], filterCoeffs4dBody⟩

theorem filterCoeffs4d_parse : parseFun filterCoeffs4dText = some filterCoeffs4dFun := by kernel_rfl

/-- The body of `filterCoeffs`. -/
def filterCoeffsBody : Block :=
  .simple (.assign (.name "smin") (.callX (.attr (.name "np") "array") (.cons (.name "smin") (.cons (.kw "dtype" (.name "float")) .nil)))) <|
  .simple (.assign (.name "smax") (.callX (.attr (.name "np") "array") (.cons (.name "smax") (.cons (.kw "dtype" (.name "float")) .nil)))) <|
  .simple (.assign (.name "dinv") (.bin .slash (.bin .minus (.name "smax") (.name "smin")) (.name "orders"))) <|
  .simple (.assign (.name "data") (.call (.attr (.name "data") "reshape") (.cons (.name "orders") .nil))) <|
  .simple (.ret (some (.call (.name "filter_data") (.cons (.name "dinv") (.cons (.name "data") .nil))))) <|
  .nil

/-- The function of `filterCoeffsText`. -/
def filterCoeffsFun : FunDef :=
  ⟨"filter_coeffs", [("smin", none), ("smax", none), ("orders", none), ("data", none)], filterCoeffsBody⟩

theorem filterCoeffs_parse : parseFun filterCoeffsText = some filterCoeffsFun := by kernel_rfl

/-- A loop body of `filterMcoeffs`. -/
def filterMcoeffsLoop0 : Block :=
  .simple (.assign (.index (.name "coefs") (.cons .dots (.cons (.name "i") .nil))) (.call (.name "filter_coeffs") (.cons (.name "smin") (.cons (.name "smax") (.cons (.name "orders") (.cons (.index (.name "data") (.cons .dots (.cons (.name "i") .nil))) .nil)))))) <|
  .nil

/-- The body of `filterMcoeffs`. -/
def filterMcoeffsBody : Block :=
  .simple (.assign (.name "order") (.call (.name "len") (.cons (.name "smin") .nil))) <|
  .simple (.assign (.name "n_splines") (.index (.attr (.name "data") "shape") (.cons (.neg (.int 1)) .nil))) <|
  .simple (.assign (.name "coefs") (.call (.attr (.name "np") "zeros") (.cons (.bin .plus (.call (.name "tuple") (.cons (.comp (.bin .plus (.name "i") (.int 2)) "i" (.name "orders") .nil) .nil)) (.tuple (.cons (.name "n_splines") .nil))) .nil))) <|
  .for (.name "i") (.call (.name "range") (.cons (.name "n_splines") .nil)) filterMcoeffsLoop0 <|
  .simple (.ret (some (.name "coefs"))) <|
  .nil

/-- The function of `filterMcoeffsText`. -/
def filterMcoeffsFun : FunDef :=
  ⟨"filter_mcoeffs", [("smin", none), ("smax", none), ("orders", none), ("data", none)], filterMcoeffsBody⟩

theorem filterMcoeffs_parse : parseFun filterMcoeffsText = some filterMcoeffsFun := by kernel_rfl

/-- The body of `filterData`. -/
def filterDataBody : Block :=
  .ifte (.chain (.call (.name "len") (.cons (.name "dinv") .nil)) (.link .eqeq (.int 1) .nil)) (
    .simple (.ret (some (.call (.name "filter_coeffs_1d") (.cons (.name "dinv") (.cons (.name "data") .nil))))) <|
    .nil) (
    .ifte (.chain (.call (.name "len") (.cons (.name "dinv") .nil)) (.link .eqeq (.int 2) .nil)) (
      .simple (.ret (some (.call (.name "filter_coeffs_2d") (.cons (.name "dinv") (.cons (.name "data") .nil))))) <|
      .nil) (
      .ifte (.chain (.call (.name "len") (.cons (.name "dinv") .nil)) (.link .eqeq (.int 3) .nil)) (
        .simple (.ret (some (.call (.name "filter_coeffs_3d") (.cons (.name "dinv") (.cons (.name "data") .nil))))) <|
        .nil) (
        .ifte (.chain (.call (.name "len") (.cons (.name "dinv") .nil)) (.link .eqeq (.int 4) .nil)) (
          .simple (.ret (some (.call (.name "filter_coeffs_4d") (.cons (.name "dinv") (.cons (.name "data") .nil))))) <|
          .nil) (
          .nil) <|
        .nil) <|
      .nil) <|
    .nil) <|
  .nil

/-- The function of `filterDataText`. -/
def filterDataFun : FunDef :=
  ⟨"filter_data", [("dinv", none), ("data", none)], filterDataBody⟩

theorem filterData_parse : parseFun filterDataText = some filterDataFun := by kernel_rfl

/-- The value of `basis`. -/
def oldBasisEx : Ex :=
  (.call (.attr (.name "np") "array") (.cons (.list (.cons (.bin .slash (.float 1 0) (.float 6 0)) (.cons (.bin .slash (.float 2 0) (.float 3 0)) (.cons (.bin .slash (.float 1 0) (.float 6 0)) (.cons (.float 0 0) .nil))))) .nil))

theorem oldBasis_parse : parseExpr oldBasisText = some oldBasisEx := by kernel_rfl

end Interp.Spec.PySrc
