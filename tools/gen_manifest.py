"""Write MANIFEST.json from the table below."""
import json, os
CLAIMS = [
    ("C01", "proved", ["Interp.Props.C01_linear_interpolates"], "Exact arithmetic, every call form and mode (single-point calls of nonuniform grids only in linear mode, see C17)."),
    ("C02", "proved", ["Interp.Props.C02_linear_reproduces_multiaffine"], "Exact arithmetic, every call form."),
    ("C03", "proved", ["Interp.Props.C03_linear_range", "Interp.Props.C03_linear_range_global"], "Exact arithmetic, every call form."),
    ("C04", "proved", ["Interp.Props.C04_nearest"], "Exact arithmetic, every call form (single-point calls on nonuniform grids: see C17)."),
    ("C05", "partial", ["Interp.Props.C05_constant_partial", "Interp.Props.C05_constant_inplace_point", "Interp.Props.C05_constant_tuple", "Interp.Props.C05_constant_fails"], "Any arithmetic. False for the in-place single-point call of vector-valued splines (zeros overwritten) and for derivatives of scalar splines at one point (typing error): proved as such; everything else proved."),
    ("C06", "proved", ["Interp.Props.C06_no_out_of_bounds"], "Any arithmetic: a call of well-sized arguments ends normally or with a zero division, whatever the coordinates."),
    ("C07", "proved", ["Interp.Props.C07_rows_are_points", "Interp.Props.C07_rows_rearranged"], "Any arithmetic; derivative orders below 10."),
    ("C08", "partial", ["Interp.Props.C08_inplace_rows", "Interp.Props.C08_inplace_point_partial", "Interp.Props.C08_inplace_fails"], "Any arithmetic. False for single points in constant mode, proved as such; everything else proved."),
    ("C09", "proved", ["Interp.Props.C09_components"], "Any arithmetic."),
    ("C10", "proved", ["Interp.Props.C10_linear_in_coefficients"], "Exact arithmetic."),
    ("C17", "partial", ["Interp.Props.C17_single_point_fails", "Interp.Props.C17_single_point_partial"], "False for every grid with a nonuniform axis (proved in general); proved for uniform grids."),
    ("C11", "proved", ["Interp.Props.C11_linear_monotone"], "Exact arithmetic, every call form."),
    ("C14", "proved", ["Interp.Props.C14_linear_higher_zero", "Interp.Props.C14_cubic_higher_rejected"], ""),
    ("C16", "proved", ["Interp.Props.C16_rejects_degree", "Interp.Props.C16_rejects_nonuniform_cubic", "Interp.Props.C16_rejects_orders"], ""),
    ("C12", "proved", ["Interp.Props.C12_linear_continuous"], "Over the reals, any dimension; also in mode nearest."),
    ("C13", "partial", ["Interp.Props.C13_linear_derivative_partial", "Interp.Props.C13_uniform_scaled", "Interp.Props.C13_linear_derivative_fails"], "Over the reals. True on nonuniform axes and uniform axes of spacing 1; false on every other uniform axis (the code returns the derivative times the squared spacing), proved as such."),
    ("C21", "proved", ["Interp.Props.C21_cubic_smooth"], "Over the reals, any dimension."),
    ("C22", "proved", ["Interp.Props.C22_cubic_tangent", "Interp.Props.C22_cubic_tangent_1d"], "Along every axis in any dimension."),
    ("C24", "proved", ["Interp.Props.C24_cubic_convex", "Interp.Props.C24_cubic_range"], ""),
    ("C25", "proved", ["Interp.Props.C25_cubic_derivative"], "Over the reals, any dimension, every point."),
    ("C15", "proved", ["Interp.Props.C15_uniform_eq_nonuniform"], "Exact arithmetic, every call form."),
    ("C18", "proved", ["Interp.Props.C18_cubic_interpolates"], "Exact arithmetic, every way of filtering and evaluating, scalar and vector-valued, every mode."),
    ("C19", "proved", ["Interp.Props.C19_filter_total", "Interp.Props.C27_old_filter_agrees", "Interp.Props.C27_old_mfilter_agrees"], "Exact arithmetic. The last two cover filter_coeffs / filter_mcoeffs, which CubicSpline and CubicSplines call."),
    ("C20", "proved", ["Interp.Props.C20_natural_ends"], "Over the reals."),
    ("C23", "proved", ["Interp.Props.C23_cubic_reproduces_multiaffine"], "Exact arithmetic."),
    ("C27", "proved", ["Interp.Props.C27_old_filter_agrees", "Interp.Props.C27_old_filter_agrees_array", "Interp.Props.C27_old_mfilter_agrees"], "Exact arithmetic."),
    ("C28", "proved", ["Interp.Props.C28_bounds_irrelevant"], "Exact arithmetic."),
    ("C29", "proved", ["Interp.Props.C29_filter_linear"], "Exact arithmetic."),
    ("C30", "proved", ["Interp.Props.C30_inplace_eq_alloc"], "Exact arithmetic."),
    ("C31", "proved", ["Interp.Props.C31_filter_unique"], "Exact arithmetic, d=1..4."),
    ("C32", "partial", ["Interp.Props.C32_prefilter_k1_partial", "Interp.Props.C32_prefilter_k1_fails"], "False with an out argument, which is left untouched: proved as such."),
    ("C33", "proved", ["Interp.Props.C33_filter_components"], "Exact arithmetic."),
    ("C40", "proved", ["Interp.Props.C40_hermite_nodes", "Interp.Props.C40_hermite_outside"], "Exact arithmetic."),
    ("C41", "proved", ["Interp.Props.C41_hermite_slopes"], "Over the reals."),
    ("C42", "proved", ["Interp.Props.C42_hermite_cubic"], "Exact arithmetic."),
    ("C43", "proved", ["Interp.Props.C43_hermite_vector", "Interp.Props.C43_hermite_matrix"], "Any arithmetic."),
    ("C44", "proved", ["Interp.Props.C44_bspline_nonneg_support"], "Exact arithmetic."),
    ("C45", "proved", ["Interp.Props.C45_bspline_partition"], "Exact arithmetic."),
    ("C46", "proved", ["Interp.Props.C46_cubic_weights_bsplines"], "Exact arithmetic, any dimension."),
    ("C53", "partial", ["Interp.Props.C53_cartesian_partial", "Interp.Props.C53_cartesian_once_partial", "Interp.Props.C53_cartesian_fails", "Interp.Props.C53_cartesian_empty_fails"], "Any arithmetic. Proved for at least one axis and nonempty axes; the degenerate calls raise TypeError / ZeroDivisionError, proved as such."),
    ("C54", "proved", ["Interp.Props.C54_nodes_linear", "Interp.Props.C54_nodes_cubic"], "Exact arithmetic, scalar and vector-valued samples, every call form."),
    ("C55", "partial", ["Interp.Props.C55_nodes_partial", "Interp.Props.C55_nodes_fails"], "False for every grid with a nonuniform axis, proved in general; proved for uniform grids."),
    ("C56", "proved", ["Interp.Props.C56_ucgrid", "Interp.Props.C56_cgrid"], "Any arithmetic."),
    ("C57", "proved", ["Interp.Props.C57_mlinspace", "Interp.Props.C57_mlinspace_corners"], "Exact arithmetic."),
    ("C47","proved",["Interp.Props.C47_n_complete"],"All n and d, with unbounded integers (the compiled function uses 64-bit integers)."),
    ("C48","proved",["Interp.Props.C48_monomials"],"All numbers of variables, d = 0..5, vectors and matrices, any commutative semiring."),
    ("C49","proved",["Interp.Props.C49_derivative_vec","Interp.Props.C49_derivative_mat"],"Over the reals, vectors and matrices."),
    ("C50","proved",["Interp.Props.C50_vector_matrix","Interp.Props.C50_vector_matrix_der"],"Any arithmetic; also the same error when one raises."),
    ("C51","proved",["Interp.Props.C51_degrees","Interp.Props.C51_degrees_der"],"All integers, vectors and matrices."),
    ("C52","proved",["Interp.Props.C52_fits_exactly","Interp.Props.C52_damped_history","Interp.Props.C52_der_of_call","Interp.Props.C52_damped_first_fit_raises"],"scipy's lstsq is a parameter assumed to return a minimiser of the sum of squares (LeastSquares); leastSquares_exists shows that the assumption can be met. A damped fit of an object that was never fitted raises AttributeError (also proved). Refits are with values of the same trailing shape."),
    ("C34", 'proved', ['Interp.Props.C34_interp_nodes', 'Interp.Props.C34_mlinterp_nodes'], 'Exact arithmetic, every dimension and way of passing the points.'),
    ("C35", 'proved', ['Interp.Props.C35_interp_clamps'], 'Exact arithmetic.'),
    ("C36", 'proved', ['Interp.Props.C36_mlinterp_eq_eval_linear', 'Interp.Props.C36_interp_eq_eval_nearest'], 'Exact arithmetic. The second theorem: interp equals eval_linear in mode nearest.'),
    ("C37", 'proved', ['Interp.Props.C37_styles_agree'], 'Any arithmetic.'),
    ("C38", 'proved', ['Interp.Props.C38_detection', 'Interp.Props.C38_vector_rejected', 'Interp.Props.C38_product_rejected'], 'Any arithmetic.'),
    ("C39", 'partial', ['Interp.Props.C39_extra_scalars_fails', 'Interp.Props.C39_extra_arrays_fails', 'Interp.Props.C39_too_few_partial', 'Interp.Props.C39_tuples_partial'], 'Superfluous scalars or vectors are silently ignored: proved in general. Too few scalars, short tuples: proved rejected.'),
    ("C58", 'proved', ['Interp.Props.C58_permute', 'Interp.Props.C58_short'], 'Lists with at least two elements; for shorter lists the code raises IndexError (C58_short). The comparison is any linear order.'),
    ("C59", 'proved', ['Interp.Props.C59_smol_inds'], 'All d >= 2 and all valid scalar or vector mu.'),
    ("C60", 'proved', ['Interp.Props.C60_num_grid_points', 'Interp.Props.C60_rows'], 'num_grid_points for mu = 1, 2, 3 is the number of rows of the grid; rows = columns of B.'),
    ("C61", 'partial', ['Interp.Props.C61_levels_partial', 'Interp.Props.C61_levels_fails'], 'Exact real arithmetic for cos; levels up to 49. From level 50 on the threshold 1e-14 of s_n replaces non-zero nodes by zero and the claim is false (C61_levels_fails).'),
    ("C62", 'partial', ['Interp.Props.C62_inside', 'Interp.Props.C62_distinct_partial', 'Interp.Props.C62_distinct_fails', 'Interp.Props.C62_nested'], 'Inside the domain and nested for every mu; distinct for mu <= 48; false for isotropic mu >= 49 (C62_distinct_fails).'),
    ("C63", 'partial', ['Interp.Props.C63_nonsingular_partial', 'Interp.Props.C63_entries', 'Interp.Props.C63_nonsingular_fails'], 'Nonsingular for mu <= 48; singular for isotropic mu >= 49 (C63_nonsingular_fails); scipy.linalg.lu and numpy.linalg.solve are assumed exact (LinAlgOK).'),
    ("C64", 'partial', ['Interp.Props.C64_reproduces_partial', 'Interp.Props.C64_reproduces_fails'], 'mu <= 48; exact linear algebra (LinAlgOK); false for isotropic mu >= 49 (C64_reproduces_fails).'),
    ("C65", 'partial', ['Interp.Props.C65_polynomials_partial', 'Interp.Props.C65_quadratics_partial'], 'mu <= 48; exact linear algebra. All polynomials with monomials of admissible degrees in the original coordinates, at all points.'),
    ("C66", 'partial', ['Interp.Props.C66_gradient_partial', 'Interp.Props.C66_gradient_any', 'Interp.Props.C66_multi_fails', 'Interp.Props.C66_columns_fails'], 'One output: for the coefficients that find_theta computes with mu <= 48 and exact linear algebra (C66_gradient_partial), and for all coefficients, every mu and every linear algebra (C66_gradient_any). With data of shape (N, k) the gradient is false: ValueError unless k is 1 or d, and wrongly scaled in these cases.'),
    ("C67", 'partial', ['Interp.Props.C67_theta_partial', 'Interp.Props.C67_theta_any', 'Interp.Props.C67_data_partial'], 'deriv_th: every mu, every linear algebra, any number of outputs (C67_theta_any). deriv_X: mu <= 48, exact linear algebra; beyond that the matrix is singular (C63).'),
    ("C69", 'proved', ['Interp.Props.C69_update', 'Interp.Props.C69_failed_update'], 'Any arithmetic and any linear algebra; an update that raises leaves the old coefficients (C69_failed_update).'),
    ("C70", 'partial', ['Interp.Props.C70_flags_partial', 'Interp.Props.C70_flags_any', 'Interp.Props.C66_multi_fails'], 'mu <= 48, exact linear algebra; without deriv_X every mu and every linear algebra (C70_flags_any). One output: all 16 combinations. Several outputs: the 8 combinations without deriv; with deriv the call fails (C66_multi_fails).'),
    ("C71", 'proved', ['Interp.Props.C71_smol_inds', 'Interp.Props.C71_grid'], 'Any arithmetic and any linear algebra.'),
    ("C72", 'proved', ['Interp.Props.C72_rejects', 'Interp.Props.C72_accepts', 'Interp.Props.C72_other_bound'], 'Rejection in any arithmetic; acceptance with exact linear algebra. A bound that is neither a number nor an array gives AttributeError (C72_other_bound).'),
    ("C73", 'proved', ['Interp.Props.C73_first_kind', 'Interp.Props.C73_second_kind', 'Interp.Props.C73_degree_zero'], 'Exact real arithmetic; n >= 1 (n = 0 raises IndexError, C73_degree_zero).'),
    ("C77", 'proved', ['Interp.Props.C77_specialised_scalar', 'Interp.Props.C77_specialised_vector'], 'Any arithmetic with x*1 = x. The model is generic in d; C112 proves that the 20 texts compute what it says.'),
    ("C74", 'proved', ['Interp.Props.C74_cubic_spline', 'Interp.Props.C74_cubic_splines', 'Interp.Props.C74_linear_spline', 'Interp.Props.C74_linear_splines'], 'Any arithmetic, any history of accepted and rejected updates, for each of the four classes. HistoryLaw: the object behaves (interpolate, call, derivatives, grid) as one freshly built from the last accepted values, updates are rejected exactly when the constructor rejects the values, and a rejected update changes nothing the methods return. The attribute __values__ of CubicSpline, which no method reads, may change when the filter raises.'),
    ("C76", 'partial', ['Interp.Props.C76_cubic_scalar', 'Interp.Props.C76_cubic_vector_partial', 'Interp.Props.C76_linear_partial', 'Interp.Props.C76_linear_out_fails', 'Interp.Props.C76_no_component_fails'], 'Any arithmetic, any grid, any points: same result and same errors as eval_cubic / eval_linear. Two exceptions, each proved to fail: vec_multilinear_interpolation with an output array raises NameError (`values` is undefined); the multi-spline calls need at least one component.'),
    ("C26", 'partial', ['Interp.Props.C26_gradient_partial', 'Interp.Props.C26_cubic_splines_diff_partial', 'Interp.Props.C26_gradient_fails', 'Interp.Props.C26_five_fails'], 'Function and CubicSplines.interpolate(diff=True). Holds for coordinates within the grid; outside the gradient is that of the cubic polynomial while the values extrapolate linearly (witness). In more than four dimensions nothing is computed.'),
    ("C75", 'partial', ['Interp.Props.C75_cubic_spline', 'Interp.Props.C75_cubic_splines', 'Interp.Props.C75_linear_spline_partial', 'Interp.Props.C75_linear_splines_partial', 'Interp.Props.C75_linear_grid_fails'], 'Cubic classes (up to four axes): proved for all bounds, orders and values, matrix and single-point calls. Linear classes: the points are the columns of grid instead of the rows, and with one axis grid raises TypeError; both proved in general. With columns read as points, the property holds from two axes on.'),
    ("C78", 'proved', ['Interp.Props.C78_linear_rounding'], 'Every operation rounded with relative error at most u (no overflow or underflow); comparison, floor and integer conversion exact. Concrete instance: round-to-nearest binary numbers with 53 digits.'),
    ("C79", 'proved', ['Interp.Props.C79_nodes_exact'], 'Needs 1 and the stored value to be representable; holds in every mode.'),
    ("C68", 'proved', ['Interp.Props.C68_inverse', 'Interp.Props.C68_onto', 'Interp.Props.C68_shape_error'], 'Over any ordered field, arrays of points of any shape; points of a wrong dimension raise ValueError.'),
    ("C80", 'proved', ['Interp.Props.C80_error_lipschitz', 'Interp.Props.C80_error_smooth'], 'Lipschitz form over any ordered field, smooth form over the reals; every call form without derivative orders, uniform and array axes.'),
    ("C81", 'proved', ['Interp.Props.C81_error_modulus', 'Interp.Props.C81_uniform_convergence'], 'Local modulus of continuity over any ordered field; uniform convergence over the reals.'),
    ("C82", 'partial', ['Interp.Props.C82_chebyvalto_partial', 'Interp.Props.C82_last_missing_fails'], 'The code never computes T_n: the result holds T_1..T_{n-1} (proved for n >= 3), and the call raises ValueError for n = 2 with two columns or more (proved).'),
    ("C83", 'proved', ['Interp.Props.C83_affine_invariance'], 'Exact arithmetic, linear and cubic, every mode and call form without derivative orders.'),
    ("C84", 'proved', ['Interp.Props.C84_reflection'], 'Exact arithmetic, linear.'),
    ("C85", 'proved', ['Interp.Props.C85_axis_permutation'], 'Exact arithmetic, linear and cubic, every mode, with derivative orders.'),
    ("C86", 'proved', ['Interp.Props.C86_mlinspace_short', 'Interp.Props.C86_mlinspace_negative', 'Interp.Props.C86_linear_grid_short', 'Interp.Props.C86_cubic_grid_short'], 'Any arithmetic.'),
    ("C87", 'proved', ['Interp.Props.C87_cubic_stability', 'Interp.Props.C87_cubic_bound'], 'Any ordered field; every way of filtering and every call form without derivative orders, in every mode, in the box.'),
    ("C88", 'proved', ['Interp.Props.C88_cubic_error_smooth', 'Interp.Props.C88_cubic_error_lipschitz'], 'Smooth form over the reals, Lipschitz form over any ordered field.'),
    ("C89", 'proved', ['Interp.Props.C89_cubic_convergence'], 'Over the reals, every dimension for which filtering exists.'),
    ("C90", 'proved', ['Interp.Props.C90_cubic_fourth_order'], 'Over the reals.'),
    ("C91", 'proved', ['Interp.Props.C91_generated_text', 'Interp.Props.C91_called_text'], 'The templates are literal copies of the source text. Lines are compared exactly, indentation included. Python expressions inside the templates are parsed and evaluated by a model of the subset they use. An exception raised by such an expression keeps its kind in the model; the engine re-raises it as a plain `Exception` that carries the original one (`tempita/__init__.py` L338-345).'),
    ("C92", 'proved', ['Interp.Props.C92_lexer', 'Interp.Props.C92_lexer_error', 'Interp.Props.C92_trim', 'Interp.Props.C92_trim_line', 'Interp.Props.C92_parser', 'Interp.Props.C92_meaning', 'Interp.Props.C92_text'], 'Default delimiters, text (not HTML) templates, no inheritance. The theorems hold for every evaluation of the Python expressions inside a template.'),
    ("C93", 'proved', ['Interp.Props.C93_looper', 'Interp.Props.C93_position', 'Interp.Props.C93_groups'], 'A group getter of any kind (attribute, key, function) is a function in the model.'),
    ("C94", 'proved', ['Interp.Props.C94_options', 'Interp.Props.C94_refused'], 'Single points: scalar data on uniform axes (nearest and constant mode on nonuniform axes do not compile, C05).'),
    ("C95", 'proved', ['Interp.Props.C95_object', 'Interp.Props.C95_every_polynomial', 'Interp.Props.C95_unusable'], "CompletePolynomial objects as families of multivariate polynomials (Mathlib's MvPolynomial) with formal derivatives; exact arithmetic over an ordered field, degree at most 5 as in the code."),
    ("C96", 'proved', ['Interp.Props.C96_ucgrid', 'Interp.Props.C96_cgrid', 'Interp.Props.C96_interp', 'Interp.Props.C96_mlinterp', 'Interp.Props.C96_linear_without_values', 'Interp.Props.C96_cubic_without_values', 'Interp.Props.C96_complete', 'Interp.Props.C96_filter', 'Interp.Props.C96_bspline'], 'Kinds of exceptions: those raised by the code itself, and `typing` for calls numba refuses to compile.'),
    ("C97", 'proved', ['Interp.Props.C97_generated_code', 'Interp.Props.C97_text_scalar', 'Interp.Props.C97_text_rows', 'Interp.Props.C97_text_interpolates'], 'Language: `Spec/PyLang` (tokens, expressions, statements, indentation) and `Spec/PyEval` (meaning); names taken from the context are values (`Spec/PyCall`). `floor` gives an integer there. Exceptions at compile time (names, types) are decided by the static checks of the model and are not part of this statement. At least one axis; points have at least as many coordinates as there are axes; a supplied output has the number of axes of the result.'),
    ("C98", 'proved', ['Interp.Props.C98_fmap1', 'Interp.Props.C98_fmap2', 'Interp.Props.C98_fmapX', 'Interp.Props.C98_funzip', 'Interp.Props.C98_extract_row', 'Interp.Props.C98_get_coeffs', 'Interp.Props.C98_tensor_reduction', 'Interp.Props.C98_project', 'Interp.Props.C98_mlinterp_point', 'Interp.Props.C98_make_mlinterp', 'Interp.Props.C98_interp', 'Interp.Props.C98_interp_nodes'], 'Language: `Spec/PyLang`, `Spec/PyEval`, `Spec/PyFun`. In the text of `make_mlinterp` the names `project` and `mlinterp` stand for the model functions; `C98_project` and `C98_mlinterp_point` show that the texts for these compute the same. `C98_make_mlinterp` is for arguments that fit the description (`MlCall`); `C98_interp` shows that this includes every call of `interp` that returns. The results for several points are arrays, compared entry by entry.'),
    ("C99", 'proved', ['Interp.Props.C99_minimum_curvature', 'Interp.Props.C99_linear_least_slope'], 'One variable. Integrals are the interval integrals of Mathlib; the competing functions have continuous second (first) derivatives on the closed interval, one-sided at its ends.'),
    ("C100", 'proved', ['Interp.Props.C100_hermite_smooth', 'Interp.Props.C100_hermite_error'], 'Exact arithmetic over the real numbers.'),
    ("C101", 'proved', ['Interp.Props.C101_hermite_monotone'], 'The condition of Fritsch and Carlson, on a square.'),
    ("C102", 'proved', ['Interp.Props.C102_filter_rounding'], 'any rounding function with relative error u <= 1/1000 (no overflow or underflow, comparisons exact); example in double precision on a 100 x 50 grid'),
    ("C103", 'proved', ['Interp.Props.C103_cubic_rounding', 'Interp.Props.C103_interpolation_rounding'], 'any rounding function with relative error u such that 90 n u <= 1/2 along every axis (no overflow or underflow); points inside the grid or modes nearest and constant; example in double precision'),
    ("C104", 'proved', ['Interp.Props.C104_cubic_locality', 'Interp.Props.C104_single_node'], 'any ordered field; examples in one and two dimensions'),
    ("C105", 'proved', ['Interp.Props.C105_interior_accuracy'], 'over the reals; example with a function to which C90 does not apply'),
    ("C106", 'proved', ['Interp.Props.C106_mlinterp_rounding', 'Interp.Props.C106_interp_rounding'], 'For every rounding function with relative error u with 13 n u <= 1/4.'),
    ("C107", 'proved', ['Interp.Props.C107_mlinterp_nodes_exact', 'Interp.Props.C107_interp_nodes_exact', 'Interp.Props.C107_mlinterp_eq_linear', 'Interp.Props.C107_interp_eq_nearest'], ''),
    ("C108", 'proved', ['Interp.Props.C108_hermite_splines', 'Interp.Props.C108_hermite_interp', 'Interp.Props.C108_hermite_interpolation', 'Interp.Props.C108_hermite_interpolation_vect', 'Interp.Props.C108_hermite_scalar', 'Interp.Props.C108_hermite_vector', 'Interp.Props.C108_hermite_matrix'], 'Any arithmetic whose literals satisfy LitLaws; the text of the functions is a string of SourceTexts.lean (compared with the source by tools/gen_sources.py --check); parser and execution are defined in Spec/PySrc.lean and Spec/PyRun.lean.'),
    ("C109", 'proved', ['Interp.Props.C109_solve', 'Interp.Props.C109_find_coefs', 'Interp.Props.C109_filter_into', 'Interp.Props.C109_filter', 'Interp.Props.C109_filter_interpolates'], 'The texts of Spec/SourceTexts are compared with /repo by tools/gen_sources.py --check. In place, the lengths of the extra dimensions of C are at most those of D.'),
    ("C110", 'proved', ['Interp.Props.C110_B0', 'Interp.Props.C110_B', 'Interp.Props.C110_B_negative_degree', 'Interp.Props.C110_B_basis'], 'The knots are a list of floats (a list is a value of the language, Spec/PyRun).'),
    ("C111", 'proved', ['Interp.Props.C111_n_complete', 'Interp.Props.C111_complete_polynomial', 'Interp.Props.C111_complete_polynomial_der', 'Interp.Props.C111_monomials', 'Interp.Props.C111_derivative_vec', 'Interp.Props.C111_derivative_mat'], 'numba compiles x ** n with an integer n to a product; the executed language says so (Spec/PyRun, fpow).'),
    ("C112", 'proved', ['Interp.Props.C112_eval_cubic_spline', 'Interp.Props.C112_vec_eval_cubic_spline', 'Interp.Props.C112_eval_cubic_splines', 'Interp.Props.C112_vec_eval_cubic_splines', 'Interp.Props.C112_vec_eval_cubic_splines_G', 'Interp.Props.C112_gradient'], 'The texts of Spec/NumbaTexts are compared with /repo by tools/gen_sources.py --check. orders is an integer array with at least d elements; output arrays are different from the arrays that are read. Arrays outside functions are constants for the compiled code.'),
    ("C113", 'proved', ['Interp.Props.C113_find_coefs', 'Interp.Props.C113_filter_data', 'Interp.Props.C113_filter_coeffs', 'Interp.Props.C113_filter_mcoeffs', 'Interp.Props.C113_modules_agree'], 'The texts of Spec/MoreTexts are compared with /repo by tools/gen_sources.py --check. orders is an integer array; the number of bounds is the number of orders; filter_mcoeffs for data of at least two dimensions.'),
    ("C114", 'proved', ['Interp.Props.C114_repeat_1d', 'Interp.Props.C114_cartesian', 'Interp.Props.C114_mlinspace', 'Interp.Props.C114_cartesian_rows', 'Interp.Props.C114_mlinspace_rows'], 'The texts of Spec/MoreTexts are compared with /repo by tools/gen_sources.py --check. mlinspace with at least as many bounds as numbers of nodes; _repeat_1d on a column of a matrix, which is the only call in the code.'),
    ("C115", 'proved', ['Interp.Props.C115_permute', 'Interp.Props.C115_permute_all', 'Interp.Props.C115_permute_numbers', 'Interp.Props.C115_m_i', 'Interp.Props.C115_num_grid_points', 'Interp.Props.C115_num_grid_points_rows', 'Interp.Props.C115_phi_chain', 'Interp.Props.C115_cheby2n', 'Interp.Props.C115_cheby2n_rows'], 'The texts of Spec/MoreTexts are compared with /repo by tools/gen_sources.py --check. Each while loop may make as many passes as the bound on nested calls says; a factorial bound suffices. cheby2n: degree at least 1, array argument of at least one dimension. The change that permute makes to the list of the caller is not stated.'),
    ("C116", 'proved', ['Interp.Props.C116_total', 'Interp.Props.C116_unique', 'Interp.Props.C116_interpolates', 'Interp.Props.C116_multiaffine', 'Interp.Props.C116_second_order', 'Interp.Props.C116_fourth_order', 'Interp.Props.C116_converges', 'Interp.Props.C116_smooth', 'Interp.Props.C116_gradient'], 'Exact arithmetic. The statements mention the texts, the grid and the data; the model occurs in the proofs only. The gradient is that of the text at points within the grid (C26: beyond it the text of the derivative is not the derivative of the values).'),
    ("C117", 'partial', ['Interp.Props.C117_smol_inds', 'Interp.Props.C117_poly_inds', 'Interp.Props.C117_s_n', 'Interp.Props.C117_a_chain', 'Interp.Props.C117_build_grid', 'Interp.Props.C117_smol_inds_admissible', 'Interp.Props.C117_s_n_extrema_partial', 'Interp.Props.C117_build_grid_cube', 'Interp.Props.C117_build_grid_distinct_partial', 'Interp.Props.C117_num_rows'], 'The texts equal the model for all dimensions and levels, with enough passes for the while loops of permute. build_grid is for a greatest level that is not negative, index vectors of d entries and at least one point. Partial: the nodes of s_n are the extrema up to level 49 and the rows of the grid are distinct up to mu 48; beyond that both are false (C61, C62).'),
    ("C118", 'partial', ['Interp.Props.C118_build_B', 'Interp.Props.C118_build_B_values', 'Interp.Props.C118_collocation_partial', 'Interp.Props.C118_interpolates_partial'], 'deriv=False, at least one dimension, calls for which the model returns. Partial: the determinant for mu up to 48; beyond that two grid points coincide (C62). The derivatives: C119.'),
    ("C119", 'proved', ['Interp.Props.C119_build_B_deriv', 'Interp.Props.C119_derivatives'], 'Calls for which the model returns; at least one dimension; np.concatenate requires that the points have d columns.'),
    ("C120", 'proved', ['Interp.Props.C120_total', 'Interp.Props.C120_unique', 'Interp.Props.C120_same_function', 'Interp.Props.C120_interpolates', 'Interp.Props.C120_multiaffine', 'Interp.Props.C120_nearest', 'Interp.Props.C120_constant', 'Interp.Props.C120_second_order', 'Interp.Props.C120_fourth_order', 'Interp.Props.C120_converges', 'Interp.Props.C120_smooth', 'Interp.Props.C120_gradient'], 'Exact arithmetic. Scalar data on uniform grids, one to four axes. Built on C109 and C97.'),
    ("C121", 'proved', ['Interp.Props.C121_total', 'Interp.Props.C121_unique', 'Interp.Props.C121_values', 'Interp.Props.C121_cubic', 'Interp.Props.C121_slopes', 'Interp.Props.C121_smooth', 'Interp.Props.C121_error', 'Interp.Props.C121_monotone'], 'Exact arithmetic. C108 together with C40-C43, C100 and C101.'),
    ("C122", 'proved', ['Interp.Props.C122_complete_polynomial', 'Interp.Props.C122_doubles', 'Interp.Props.C122_derivative'], 'Rounded arithmetic (standard model: no overflow, no underflow). In the derivative the power is any function making at most one rounding error per factor.'),
    ("C123", 'proved', ['Interp.Props.C123_hermite', 'Interp.Props.C123_hermite_vector', 'Interp.Props.C123_outside'], 'Rounded arithmetic (standard model: no overflow, no underflow); comparisons are exact.'),
    ("C124", 'proved', ['Interp.Props.C124_bspline', 'Interp.Props.C124_support', 'Interp.Props.C124_partition'], 'Rounded arithmetic (standard model: no overflow, no underflow); comparisons are exact.'),
    ("C125", 'proved', ['Interp.Props.C125_first_kind', 'Interp.Props.C125_second_kind', 'Interp.Props.C125_build_B'], 'Rounded arithmetic (standard model: no overflow, no underflow). The bounds hold for degrees with 40 k (k+1) u <= 1, as the statement says.'),
    ("C126", 'proved', ['Interp.Props.C126_nodes', 'Interp.Props.C126_increasing', 'Interp.Props.C126_grid', 'Interp.Props.C126_distinct', 'Interp.Props.C126_trigErr'], 'Rounded arithmetic (standard model: no overflow, no underflow); errors of cos, pi and 1e-14 as in TrigErr, which C126_trigErr shows for correctly rounded functions.'),
    ("C127", 'proved', ['Interp.Props.C127_interpolate'], 'Rounded arithmetic (standard model: no overflow, no underflow); numpy.dot adds from left to right. Nothing is assumed about lu, solve and cos.'),
    ("C128", 'proved', ['Interp.Props.C128_call', 'Interp.Props.C128_derivative'], 'Rounded arithmetic (standard model: no overflow, no underflow); numpy.dot adds from left to right; the power makes at most one error for each factor (as repeated multiplication does). Nothing is assumed about lstsq.'),
    ("C129", 'proved', ['Interp.Props.C129_gradient'], 'Rounded arithmetic (standard model: no overflow, no underflow); sums run from left to right. One output (with several the gradient is wrongly scaled or fails, C66). Nothing is assumed about lu, solve and cos.'),
    ("C130", 'proved', ['Interp.Props.C130_reproduces'], 'Rounded arithmetic (standard model: no overflow, no underflow); sums run from left to right. The linear solver enters through the residual it leaves; how small that residual is depends on LAPACK and is not modelled.'),
    ("C131", 'proved', ['Interp.Props.C131_grid', 'Interp.Props.C131_distinct'], 'Rounded arithmetic (standard model: no overflow, no underflow), with the assumptions on cos, pi and 1e-14 of C126. Levels of at most 46, as in C126: with higher levels nodes are flushed to zero (C62).'),
    ("C132", 'proved', ['Interp.Props.C132_derivative_rounding', 'Interp.Props.C132_interpolation_rounding'], 'any rounding function with relative error u such that 90 n u <= 1/2 along every axis (no overflow or underflow); points inside the grid or modes nearest and constant; values, first partial derivatives and mixed first derivatives; example in double precision'),
    ("C133", 'proved', ['Interp.Props.C133_linear', 'Interp.Props.C133_cubic', 'Interp.Props.C133_cubic_fourth', 'Interp.Props.C133_cubic_interior', 'Interp.Props.C133_mlinterp'], 'any rounding function with relative error u, u small against 1 / number of nodes (no overflow or underflow); points inside the grid; example: the sine in double precision'),
]
out = {"claims": [dict(property=p, status=s, theorems=t, note=n) for p, s, t, n in CLAIMS]}
path = os.path.join(os.path.dirname(__file__), "..", "MANIFEST.json")
with open(path, "w") as f:
    json.dump(out, f, indent=1)
    f.write("\n")
