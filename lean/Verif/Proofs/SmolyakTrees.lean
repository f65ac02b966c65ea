import Verif.Spec.MoreTexts
import Verif.Spec.PySrc
import Verif.Proofs.KernelRfl

/-!
# The syntax trees of `smolyak/util.py` and `smolyak/grid.py`
-/

namespace Interp.Spec.PySrc

set_option maxRecDepth 100000

/-- A loop body of `permute`. -/
def permuteLoop0 : Block :=
  .simple (.aug .minus (.name "j") (.int 1)) <|
  .nil

/-- A loop body of `permute`. -/
def permuteLoop1 : Block :=
  .simple (.aug .minus (.name "i") (.int 1)) <|
  .ifte (.chain (.index (.name "a") (.cons (.name "i") .nil)) (.link .lt (.index (.name "a") (.cons (.bin .plus (.name "i") (.int 1)) .nil)) .nil)) (
    .simple (.assign (.name "j") (.bin .minus (.name "alen") (.int 1))) <|
    .while (.not (.chain (.index (.name "a") (.cons (.name "i") .nil)) (.link .lt (.index (.name "a") (.cons (.name "j") .nil)) .nil))) permuteLoop0 <|
    .simple (.assign (.tuple (.cons (.index (.name "a") (.cons (.name "i") .nil)) (.cons (.index (.name "a") (.cons (.name "j") .nil)) .nil))) (.tuple (.cons (.index (.name "a") (.cons (.name "j") .nil)) (.cons (.index (.name "a") (.cons (.name "i") .nil)) .nil)))) <|
    .simple (.assign (.name "t") (.index (.name "a") (.cons (.slice (.bin .plus (.name "i") (.int 1)) (.name "alen")) .nil))) <|
    .simple (.mutate "t" "reverse" .nil) <|
    .simple (.assign (.index (.name "a") (.cons (.slice (.bin .plus (.name "i") (.int 1)) (.name "alen")) .nil)) (.name "t")) <|
    .simple (.mutate "yield" "append" (.cons (.call (.name "list") (.cons (.name "a") .nil)) .nil)) <|
    .simple (.brk) <|
    .nil) (
    .nil) <|
  .ifte (.chain (.name "i") (.link .eqeq (.name "first") .nil)) (
    .simple (.mutate "a" "reverse" .nil) <|
    .simple (.ret (some (.name "yield"))) <|
    .nil) (
    .nil) <|
  .nil

/-- A loop body of `permute`. -/
def permuteLoop2 : Block :=
  .simple (.assign (.name "i") (.bin .minus (.name "alen") (.int 1))) <|
  .while (.name "True") permuteLoop1 <|
  .nil

/-- The body of `permute`. -/
def permuteBody : Block :=
  .simple (.assign (.name "yield") (.list .nil)) <|
  .simple (.mutate "a" "sort" .nil) <|
  .simple (.mutate "yield" "append" (.cons (.call (.name "list") (.cons (.name "a") .nil)) .nil)) <|
  .simple (.assign (.name "i") (.int 0)) <|
  .simple (.assign (.name "first") (.int 0)) <|
  .simple (.assign (.name "alen") (.call (.name "len") (.cons (.name "a") .nil))) <|
  .while (.name "True") permuteLoop2 <|
  .simple (.ret (some (.name "yield"))) <|
  .nil

/-- The function of `permuteText`. -/
def permuteFun : FunDef :=
  ⟨"permute", [("a", none)], permuteBody⟩

theorem permute_parse : parseFun permuteText = some permuteFun := by kernel_rfl

/-- The body of `numGridPoints`. -/
def numGridPointsBody : Block :=
  .ifte (.chain (.name "mu") (.link .eqeq (.int 1) .nil)) (
    .simple (.ret (some (.bin .plus (.bin .star (.int 2) (.name "d")) (.int 1)))) <|
    .nil) (
    .nil) <|
  .ifte (.chain (.name "mu") (.link .eqeq (.int 2) .nil)) (
    .simple (.ret (some (.bin .plus (.bin .plus (.int 1) (.bin .star (.int 4) (.name "d"))) (.bin .slash (.bin .star (.bin .star (.int 4) (.name "d")) (.bin .minus (.name "d") (.int 1))) (.float 2 0))))) <|
    .nil) (
    .nil) <|
  .ifte (.chain (.name "mu") (.link .eqeq (.int 3) .nil)) (
    .simple (.ret (some (.bin .plus (.bin .plus (.bin .plus (.int 1) (.bin .star (.int 8) (.name "d"))) (.bin .slash (.bin .star (.bin .star (.int 12) (.name "d")) (.bin .minus (.name "d") (.int 1))) (.float 2 0))) (.bin .slash (.bin .star (.bin .star (.bin .star (.int 8) (.name "d")) (.bin .minus (.name "d") (.int 1))) (.bin .minus (.name "d") (.int 2))) (.float 6 0))))) <|
    .nil) (
    .nil) <|
  .nil

/-- The function of `numGridPointsText`. -/
def numGridPointsFun : FunDef :=
  ⟨"num_grid_points", [("d", none), ("mu", none)], numGridPointsBody⟩

theorem numGridPoints_parse : parseFun numGridPointsText = some numGridPointsFun := by kernel_rfl

/-- The body of `mI`. -/
def mIBody : Block :=
  .ifte (.chain (.name "i") (.link .lt (.int 0) .nil)) (
    .simple (.raise (.call (.name "ValueError") (.cons (.str "i must be positive") .nil))) <|
    .nil) (
    .ifte (.chain (.name "i") (.link .eqeq (.int 0) .nil)) (
      .simple (.ret (some (.int 0))) <|
      .nil) (
      .ifte (.chain (.name "i") (.link .eqeq (.int 1) .nil)) (
        .simple (.ret (some (.int 1))) <|
        .nil) (
        .simple (.ret (some (.bin .plus (.bin .dstar (.int 2) (.bin .minus (.name "i") (.int 1))) (.int 1)))) <|
        .nil) <|
      .nil) <|
    .nil) <|
  .nil

/-- The function of `mIText`. -/
def mIFun : FunDef :=
  ⟨"m_i", [("i", none)], mIBody⟩

theorem mI_parse : parseFun mIText = some mIFun := by kernel_rfl

/-- A loop body of `cheby2n`. -/
def cheby2nLoop0 : Block :=
  .simple (.assign (.index (.name "results") (.cons (.name "i") (.cons .dots .nil))) (.bin .minus (.bin .star (.bin .star (.int 2) (.name "x")) (.index (.name "results") (.cons (.bin .minus (.name "i") (.int 1)) (.cons .dots .nil)))) (.index (.name "results") (.cons (.bin .minus (.name "i") (.int 2)) (.cons .dots .nil))))) <|
  .nil

/-- The body of `cheby2n`. -/
def cheby2nBody : Block :=
  .simple (.assign (.name "x") (.call (.attr (.name "np") "asarray") (.cons (.name "x") .nil))) <|
  .simple (.assign (.name "dim") (.attr (.name "x") "shape")) <|
  .simple (.assign (.name "results") (.call (.attr (.name "np") "zeros") (.cons (.bin .plus (.tuple (.cons (.bin .plus (.name "n") (.int 1)) .nil)) (.name "dim")) .nil))) <|
  .simple (.assign (.index (.name "results") (.cons (.int 0) (.cons .dots .nil))) (.call (.attr (.name "np") "ones") (.cons (.name "dim") .nil))) <|
  .simple (.assign (.index (.name "results") (.cons (.int 1) (.cons .dots .nil))) (.bin .star (.name "x") (.name "kind"))) <|
  .for (.name "i") (.call (.name "range") (.cons (.int 2) (.cons (.bin .plus (.name "n") (.int 1)) .nil))) cheby2nLoop0 <|
  .simple (.ret (some (.name "results"))) <|
  .nil

/-- The function of `cheby2nText`. -/
def cheby2nFun : FunDef :=
  ⟨"cheby2n", [("x", none), ("n", none), ("kind", some (.float 1 0))], cheby2nBody⟩

theorem cheby2n_parse : parseFun cheby2nText = some cheby2nFun := by kernel_rfl

/-- A loop body of `phiChain`. -/
def phiChainLoop0 : Block :=
  .simple (.assign (.name "end_val") (.bin .plus (.bin .dstar (.int 2) (.bin .minus (.name "i") (.int 1))) (.int 1))) <|
  .simple (.assign (.name "temp") (.call (.name "range") (.cons (.name "curr_val") (.cons (.bin .plus (.name "end_val") (.int 1)) .nil)))) <|
  .simple (.assign (.index (.name "aphi_chain") (.cons (.name "i") .nil)) (.name "temp")) <|
  .simple (.assign (.name "curr_val") (.bin .plus (.name "end_val") (.int 1))) <|
  .nil

/-- The body of `phiChain`. -/
def phiChainBody : Block :=
  .simple (.assign (.name "aphi_chain") .dict) <|
  .simple (.assign (.index (.name "aphi_chain") (.cons (.int 1) .nil)) (.list (.cons (.int 1) .nil))) <|
  .simple (.assign (.index (.name "aphi_chain") (.cons (.int 2) .nil)) (.list (.cons (.int 2) (.cons (.int 3) .nil)))) <|
  .simple (.assign (.name "curr_val") (.int 4)) <|
  .for (.name "i") (.call (.name "range") (.cons (.int 3) (.cons (.bin .plus (.name "n") (.int 1)) .nil))) phiChainLoop0 <|
  .simple (.ret (some (.name "aphi_chain"))) <|
  .nil

/-- The function of `phiChainText`. -/
def phiChainFun : FunDef :=
  ⟨"phi_chain", [("n", none)], phiChainBody⟩

theorem phiChain_parse : parseFun phiChainText = some phiChainFun := by kernel_rfl

/-- The body of the function of `sNText`. -/
def sNBody : Block :=
  .ifte (.chain (.name "n") (.link .eqeq (.int 1) .nil)) (
    .simple (.ret (some (.call (.attr (.name "np") "array") (.cons (.list (.cons (.float 0 0) .nil)) .nil)))) <|
    .nil) (
    .nil) <|
  .simple (.assign (.name "m_i") (.bin .plus (.bin .dstar (.int 2) (.bin .minus (.name "n") (.int 1))) (.int 1))) <|
  .simple (.assign (.name "comp_vals") (.call (.attr (.name "np") "arange") (.cons (.float 1 0) (.cons (.bin .plus (.name "m_i") (.float 1 0)) .nil)))) <|
  .simple (.assign (.name "vals") (.bin .star (.neg (.float 1 0)) (.call (.attr (.name "np") "cos") (.cons (.bin .slash (.bin .star (.attr (.name "np") "pi") (.bin .minus (.name "comp_vals") (.float 1 0))) (.bin .minus (.name "m_i") (.float 1 0))) .nil)))) <|
  .simple (.assign (.index (.name "vals") (.cons (.call (.attr (.name "np") "where") (.cons (.chain (.call (.attr (.name "np") "abs") (.cons (.name "vals") .nil)) (.link .lt (.float 1 14) .nil)) .nil)) .nil)) (.float 0 0)) <|
  .simple (.ret (some (.name "vals"))) <|
  .nil

/-- The function of `sNText`. -/
def sNFun : FunDef :=
  ⟨"s_n", [("n", none)], sNBody⟩

theorem sN_parse : parseFun sNText = some sNFun := by kernel_rfl

/-- A loop body of `aChain`. -/
def aChainLoop0 : Block :=
  .simple (.assign (.name "num") (.attr (.name "Sn") "size")) <|
  .simple (.assign (.index (.name "A_chain") (.cons (.name "seq") .nil)) (.call (.name "tuple") (.cons (.index (.name "Sn") (.cons (.call (.name "range") (.cons (.int 1) (.cons (.name "num") (.cons (.int 2) .nil)))) .nil)) .nil))) <|
  .simple (.assign (.name "Sn") (.index (.name "Sn") (.cons (.call (.name "range") (.cons (.int 0) (.cons (.name "num") (.cons (.int 2) .nil)))) .nil))) <|
  .nil

/-- The body of the function of `aChainText`. -/
def aChainBody : Block :=
  .simple (.assign (.name "Sn") (.call (.name "s_n") (.cons (.name "n") .nil))) <|
  .simple (.assign (.name "A_chain") .dict) <|
  .simple (.assign (.index (.name "A_chain") (.cons (.int 1) .nil)) (.list (.cons (.float 0 0) .nil))) <|
  .simple (.assign (.index (.name "A_chain") (.cons (.int 2) .nil)) (.list (.cons (.neg (.float 1 0)) (.cons (.float 1 0) .nil)))) <|
  .for (.name "seq") (.call (.name "range") (.cons (.name "n") (.cons (.int 2) (.cons (.neg (.int 1)) .nil)))) aChainLoop0 <|
  .simple (.ret (some (.name "A_chain"))) <|
  .nil

/-- The function of `aChainText`. -/
def aChainFun : FunDef :=
  ⟨"a_chain", [("n", none)], aChainBody⟩

theorem aChain_parse : parseFun aChainText = some aChainFun := by kernel_rfl

/-- The body of the function of `smolIndsText`. -/
def smolIndsBody : Block :=
  .ifte (.call (.name "isinstance") (.cons (.name "mu") (.cons (.name "int") .nil))) (
    .simple (.assign (.name "max_mu") (.name "mu")) <|
    .nil) (
    .ifte (.chain (.attr (.name "mu") "size") (.link .ne (.name "d") .nil)) (
      .simple (.raise (.call (.name "ValueError") (.cons (.bin .percent (.str "mu must have d elements. It has %i") (.attr (.name "mu") "size")) .nil))) <|
      .nil) (
      .nil) <|
    .simple (.assign (.name "max_mu") (.call (.name "int") (.cons (.call (.attr (.name "np") "max") (.cons (.name "mu") .nil)) .nil))) <|
    .nil) <|
  .simple (.assign (.name "possible_values") (.call (.name "range") (.cons (.int 1) (.cons (.bin .plus (.name "max_mu") (.int 2)) .nil)))) <|
  .simple (.assign (.name "poss_inds") (.comp (.name "el") "el" (.call (.name "combinations_with_replacement") (.cons (.name "possible_values") (.cons (.name "d") .nil))) (.chain (.name "d") (.link .lt (.call (.name "sum") (.cons (.name "el") .nil)) (.link .le (.bin .plus (.name "d") (.name "max_mu")) .nil))))) <|
  .ifte (.call (.name "isinstance") (.cons (.name "mu") (.cons (.name "int") .nil))) (
    .simple (.assign (.name "true_inds") (.comp (.comp (.name "el") "el" (.call (.name "permute") (.cons (.call (.name "list") (.cons (.name "val") .nil)) .nil)) .nil) "val" (.name "poss_inds") .nil)) <|
    .nil) (
    .simple (.assign (.name "true_inds") (.comp (.comp (.name "el") "el" (.call (.name "permute") (.cons (.call (.name "list") (.cons (.name "val") .nil)) .nil)) (.call (.name "all") (.cons (.chain (.name "el") (.link .le (.bin .plus (.name "mu") (.int 1)) .nil)) .nil))) "val" (.name "poss_inds") .nil)) <|
    .nil) <|
  .simple (.mutate "true_inds" "extend" (.cons (.list (.cons (.list (.cons (.bin .star (.list (.cons (.int 1) .nil)) (.name "d")) .nil)) .nil)) .nil)) <|
  .simple (.assign (.name "tinds") (.call (.name "list") (.cons (.call (.attr (.name "chain") "from_iterable") (.cons (.name "true_inds") .nil)) .nil))) <|
  .simple (.ret (some (.name "tinds"))) <|
  .nil

/-- The function of `smolIndsText`. -/
def smolIndsFun : FunDef :=
  ⟨"smol_inds", [("d", none), ("mu", none)], smolIndsBody⟩

theorem smolInds_parse : parseFun smolIndsText = some smolIndsFun := by kernel_rfl

/-- A loop body of `polyInds`. -/
def polyIndsLoop0 : Block :=
  .simple (.assign (.name "temp") (.comp (.index (.name "aphi") (.cons (.name "i") .nil)) "i" (.name "el") .nil)) <|
  .simple (.mutate "base_polys" "extend" (.cons (.call (.name "list") (.cons (.callX (.name "product") (.cons (.star (.name "temp")) .nil)) .nil)) .nil)) <|
  .nil

/-- The body of the function of `polyIndsText`. -/
def polyIndsBody : Block :=
  .ifte (.chain (.name "inds") (.link .kIs (.name "None") .nil)) (
    .simple (.assign (.name "inds") (.call (.name "smol_inds") (.cons (.name "d") (.cons (.name "mu") .nil)))) <|
    .nil) (
    .nil) <|
  .ifte (.call (.name "isinstance") (.cons (.name "mu") (.cons (.name "int") .nil))) (
    .simple (.assign (.name "max_mu") (.name "mu")) <|
    .nil) (
    .simple (.assign (.name "max_mu") (.call (.name "max") (.cons (.name "mu") .nil))) <|
    .nil) <|
  .simple (.assign (.name "aphi") (.call (.name "phi_chain") (.cons (.bin .plus (.name "max_mu") (.int 1)) .nil))) <|
  .simple (.assign (.name "base_polys") (.list .nil)) <|
  .for (.name "el") (.name "inds") polyIndsLoop0 <|
  .simple (.ret (some (.name "base_polys"))) <|
  .nil

/-- The function of `polyIndsText`. -/
def polyIndsFun : FunDef :=
  ⟨"poly_inds", [("d", none), ("mu", none), ("inds", some (.name "None"))], polyIndsBody⟩

theorem polyInds_parse : parseFun polyIndsText = some polyIndsFun := by kernel_rfl

/-- A loop body of `buildGrid`. -/
def buildGridLoop0 : Block :=
  .simple (.assign (.name "temp") (.comp (.index (.name "An") (.cons (.name "i") .nil)) "i" (.name "el") .nil)) <|
  .simple (.mutate "points" "extend" (.cons (.call (.name "list") (.cons (.callX (.name "product") (.cons (.star (.name "temp")) .nil)) .nil)) .nil)) <|
  .nil

/-- The body of the function of `buildGridText`. -/
def buildGridBody : Block :=
  .ifte (.chain (.name "inds") (.link .kIs (.name "None") .nil)) (
    .simple (.assign (.name "inds") (.call (.name "smol_inds") (.cons (.name "d") (.cons (.name "mu") .nil)))) <|
    .nil) (
    .nil) <|
  .ifte (.call (.name "isinstance") (.cons (.name "mu") (.cons (.name "int") .nil))) (
    .simple (.assign (.name "An") (.call (.name "a_chain") (.cons (.bin .plus (.name "mu") (.int 1)) .nil))) <|
    .nil) (
    .simple (.assign (.name "An") (.call (.name "a_chain") (.cons (.bin .plus (.call (.name "max") (.cons (.name "mu") .nil)) (.int 1)) .nil))) <|
    .nil) <|
  .simple (.assign (.name "points") (.list .nil)) <|
  .for (.name "el") (.name "inds") buildGridLoop0 <|
  .simple (.assign (.name "grid") (.call (.attr (.name "np") "array") (.cons (.name "points") .nil))) <|
  .simple (.ret (some (.name "grid"))) <|
  .nil

/-- The function of `buildGridText`. -/
def buildGridFun : FunDef :=
  ⟨"build_grid", [("d", none), ("mu", none), ("inds", some (.name "None"))], buildGridBody⟩

theorem buildGrid_parse : parseFun buildGridText = some buildGridFun := by kernel_rfl

/-- A loop body of `buildB`. -/
def buildBLoop0 : Block :=
  .simple (.assign (.index (.name "B") (.cons .full (.cons (.name "ind") .nil))) (.call (.name "reduce") (.cons (.name "mul") (.cons (.comp (.index (.name "Ts") (.cons (.bin .minus (.index (.name "comb") (.cons (.name "i") .nil)) (.int 1)) (.cons (.name "i") (.cons .full .nil)))) "i" (.call (.name "range") (.cons (.name "d") .nil)) .nil) .nil)))) <|
  .nil

/-- A loop body of `buildB`. -/
def buildBLoop1 : Block :=
  .simple (.assign (.index (.name "Us") (.cons (.name "i") (.cons .full (.cons .full .nil)))) (.bin .star (.index (.name "Us") (.cons (.name "i") (.cons .full (.cons .full .nil)))) (.name "i"))) <|
  .nil

/-- A loop body of `buildB`. -/
def buildBLoop2 : Block :=
  .simple (.assign (.index (.name "der_B") (.cons (.name "ind") (.cons (.name "i") (.cons .full .nil)))) (.call (.name "reduce") (.cons (.name "mul") (.cons (.comp (.ite (.index (.name "Ts") (.cons (.bin .minus (.index (.name "comb") (.cons (.name "k") .nil)) (.int 1)) (.cons (.name "k") (.cons .full .nil)))) (.chain (.name "i") (.link .ne (.name "k") .nil)) (.index (.name "Us") (.cons (.bin .minus (.index (.name "comb") (.cons (.name "k") .nil)) (.int 1)) (.cons (.name "k") (.cons .full .nil))))) "k" (.call (.name "range") (.cons (.name "d") .nil)) .nil) .nil)))) <|
  .nil

/-- A loop body of `buildB`. -/
def buildBLoop3 : Block :=
  .for (.tuple (.cons (.name "ind") (.cons (.name "comb") .nil))) (.call (.name "enumerate") (.cons (.name "b_inds") .nil)) buildBLoop2 <|
  .nil

/-- The body of the function of `buildBText`. -/
def buildBBody : Block :=
  .ifte (.chain (.name "b_inds") (.link .kIs (.name "None") .nil)) (
    .simple (.assign (.name "inds") (.call (.name "smol_inds") (.cons (.name "d") (.cons (.name "mu") .nil)))) <|
    .simple (.assign (.name "b_inds") (.call (.name "poly_inds") (.cons (.name "d") (.cons (.name "mu") (.cons (.name "inds") .nil))))) <|
    .nil) (
    .nil) <|
  .ifte (.call (.name "isinstance") (.cons (.name "mu") (.cons (.name "int") .nil))) (
    .simple (.assign (.name "max_mu") (.name "mu")) <|
    .nil) (
    .simple (.assign (.name "max_mu") (.call (.name "max") (.cons (.name "mu") .nil))) <|
    .nil) <|
  .simple (.assign (.name "Ts") (.call (.name "cheby2n") (.cons (.attr (.name "pts") "T") (.cons (.call (.name "m_i") (.cons (.bin .plus (.name "max_mu") (.int 1)) .nil)) .nil)))) <|
  .simple (.assign (.name "npolys") (.call (.name "len") (.cons (.name "b_inds") .nil))) <|
  .simple (.assign (.name "npts") (.index (.attr (.name "pts") "shape") (.cons (.int 0) .nil))) <|
  .simple (.assign (.name "B") (.callX (.attr (.name "np") "empty") (.cons (.tuple (.cons (.name "npts") (.cons (.name "npolys") .nil))) (.cons (.kw "order" (.str "F")) .nil)))) <|
  .for (.tuple (.cons (.name "ind") (.cons (.name "comb") .nil))) (.call (.name "enumerate") (.cons (.name "b_inds") .nil)) buildBLoop0 <|
  .ifte (.name "deriv") (
    .simple (.assign (.name "Us") (.callX (.name "cheby2n") (.cons (.attr (.name "pts") "T") (.cons (.call (.name "m_i") (.cons (.bin .plus (.name "max_mu") (.int 1)) .nil)) (.cons (.kw "kind" (.float 2 0)) .nil))))) <|
    .simple (.assign (.name "Us") (.callX (.attr (.name "np") "concatenate") (.cons (.list (.cons (.call (.attr (.name "np") "zeros") (.cons (.tuple (.cons (.int 1) (.cons (.name "d") (.cons (.name "npts") .nil)))) .nil)) (.cons (.name "Us") .nil))) (.cons (.kw "axis" (.int 0)) .nil)))) <|
    .for (.name "i") (.call (.name "range") (.cons (.index (.attr (.name "Us") "shape") (.cons (.int 0) .nil)) .nil)) buildBLoop1 <|
    .simple (.assign (.name "der_B") (.call (.attr (.name "np") "zeros") (.cons (.tuple (.cons (.name "npolys") (.cons (.name "d") (.cons (.name "npts") .nil)))) .nil))) <|
    .for (.name "i") (.call (.name "range") (.cons (.name "d") .nil)) buildBLoop3 <|
    .simple (.ret (some (.tuple (.cons (.name "B") (.cons (.name "der_B") .nil))))) <|
    .nil) (
    .nil) <|
  .simple (.ret (some (.name "B"))) <|
  .nil

/-- The function of `buildBText`. -/
def buildBFun : FunDef :=
  ⟨"build_B", [("d", none), ("mu", none), ("pts", none), ("b_inds", some (.name "None")), ("deriv", some (.name "False"))], buildBBody⟩

theorem buildB_parse : parseFun buildBText = some buildBFun := by kernel_rfl

end Interp.Spec.PySrc
