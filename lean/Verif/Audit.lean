import Verif.Props.BSplineRounding
import Verif.Props.BSplines
import Verif.Props.ChebRounding
import Verif.Props.Chebyvalto
import Verif.Props.CompleteCallRounding
import Verif.Props.CompleteFit
import Verif.Props.CompleteObject
import Verif.Props.CompletePoly
import Verif.Props.CompleteRounding
import Verif.Props.CubicError
import Verif.Props.CubicFilter
import Verif.Props.CubicGradient
import Verif.Props.CubicLocal
import Verif.Props.CubicRounding
import Verif.Props.CubicShape
import Verif.Props.CubicSlopeRounding
import Verif.Props.Curvature
import Verif.Props.Errors
import Verif.Props.FungenCode
import Verif.Props.GeneratedCode
import Verif.Props.GeneratedText
import Verif.Props.Grids
import Verif.Props.Hermite
import Verif.Props.HermiteError
import Verif.Props.HermiteRounding
import Verif.Props.Legacy
import Verif.Props.LinearError
import Verif.Props.LinearValues
import Verif.Props.Looper
import Verif.Props.Misuse
import Verif.Props.Mlinterp
import Verif.Props.MlinterpRounding
import Verif.Props.NodesRounding
import Verif.Props.ObjectHistory
import Verif.Props.Objects
import Verif.Props.Options
import Verif.Props.RoundedError
import Verif.Props.Rounding
import Verif.Props.SmolDomRounding
import Verif.Props.SmolGradRounding
import Verif.Props.SmolReproRounding
import Verif.Props.SmolRounding
import Verif.Props.SmolyakAny
import Verif.Props.SmolyakClass
import Verif.Props.SmolyakGrid
import Verif.Props.SmolyakInterp
import Verif.Props.SourceBSplines
import Verif.Props.SourceCartesian
import Verif.Props.SourceComplete
import Verif.Props.SourceCurrent
import Verif.Props.SourceEndToEnd
import Verif.Props.SourceFilter
import Verif.Props.SourceHermite
import Verif.Props.SourceHermiteEnd
import Verif.Props.SourceNumba
import Verif.Props.SourceOldFilter
import Verif.Props.SourceSmolyak
import Verif.Props.SourceSmolyakB
import Verif.Props.SourceSmolyakD
import Verif.Props.SourceSmolyakGrid
import Verif.Props.SplineCalculus
import Verif.Props.SplineCalls
import Verif.Props.SplineSafety
import Verif.Props.Symmetry
import Verif.Props.Templates

/-! Axioms of every theorem named in `MANIFEST.json` (generated by `tools/gen_audit.py`).
Each line should report at most `propext`, `Classical.choice`, `Quot.sound`. -/

#print axioms Interp.Props.C01_linear_interpolates
#print axioms Interp.Props.C02_linear_reproduces_multiaffine
#print axioms Interp.Props.C03_linear_range
#print axioms Interp.Props.C03_linear_range_global
#print axioms Interp.Props.C04_nearest
#print axioms Interp.Props.C05_constant_partial
#print axioms Interp.Props.C05_constant_inplace_point
#print axioms Interp.Props.C05_constant_tuple
#print axioms Interp.Props.C05_constant_fails
#print axioms Interp.Props.C06_no_out_of_bounds
#print axioms Interp.Props.C07_rows_are_points
#print axioms Interp.Props.C07_rows_rearranged
#print axioms Interp.Props.C08_inplace_rows
#print axioms Interp.Props.C08_inplace_point_partial
#print axioms Interp.Props.C08_inplace_fails
#print axioms Interp.Props.C09_components
#print axioms Interp.Props.C10_linear_in_coefficients
#print axioms Interp.Props.C17_single_point_fails
#print axioms Interp.Props.C17_single_point_partial
#print axioms Interp.Props.C11_linear_monotone
#print axioms Interp.Props.C14_linear_higher_zero
#print axioms Interp.Props.C14_cubic_higher_rejected
#print axioms Interp.Props.C16_rejects_degree
#print axioms Interp.Props.C16_rejects_nonuniform_cubic
#print axioms Interp.Props.C16_rejects_orders
#print axioms Interp.Props.C12_linear_continuous
#print axioms Interp.Props.C13_linear_derivative_partial
#print axioms Interp.Props.C13_uniform_scaled
#print axioms Interp.Props.C13_linear_derivative_fails
#print axioms Interp.Props.C21_cubic_smooth
#print axioms Interp.Props.C22_cubic_tangent
#print axioms Interp.Props.C22_cubic_tangent_1d
#print axioms Interp.Props.C24_cubic_convex
#print axioms Interp.Props.C24_cubic_range
#print axioms Interp.Props.C25_cubic_derivative
#print axioms Interp.Props.C15_uniform_eq_nonuniform
#print axioms Interp.Props.C18_cubic_interpolates
#print axioms Interp.Props.C19_filter_total
#print axioms Interp.Props.C27_old_filter_agrees
#print axioms Interp.Props.C27_old_mfilter_agrees
#print axioms Interp.Props.C20_natural_ends
#print axioms Interp.Props.C23_cubic_reproduces_multiaffine
#print axioms Interp.Props.C27_old_filter_agrees_array
#print axioms Interp.Props.C28_bounds_irrelevant
#print axioms Interp.Props.C29_filter_linear
#print axioms Interp.Props.C30_inplace_eq_alloc
#print axioms Interp.Props.C31_filter_unique
#print axioms Interp.Props.C32_prefilter_k1_partial
#print axioms Interp.Props.C32_prefilter_k1_fails
#print axioms Interp.Props.C33_filter_components
#print axioms Interp.Props.C40_hermite_nodes
#print axioms Interp.Props.C40_hermite_outside
#print axioms Interp.Props.C41_hermite_slopes
#print axioms Interp.Props.C42_hermite_cubic
#print axioms Interp.Props.C43_hermite_vector
#print axioms Interp.Props.C43_hermite_matrix
#print axioms Interp.Props.C44_bspline_nonneg_support
#print axioms Interp.Props.C45_bspline_partition
#print axioms Interp.Props.C46_cubic_weights_bsplines
#print axioms Interp.Props.C53_cartesian_partial
#print axioms Interp.Props.C53_cartesian_once_partial
#print axioms Interp.Props.C53_cartesian_fails
#print axioms Interp.Props.C53_cartesian_empty_fails
#print axioms Interp.Props.C54_nodes_linear
#print axioms Interp.Props.C54_nodes_cubic
#print axioms Interp.Props.C55_nodes_partial
#print axioms Interp.Props.C55_nodes_fails
#print axioms Interp.Props.C56_ucgrid
#print axioms Interp.Props.C56_cgrid
#print axioms Interp.Props.C57_mlinspace
#print axioms Interp.Props.C57_mlinspace_corners
#print axioms Interp.Props.C47_n_complete
#print axioms Interp.Props.C48_monomials
#print axioms Interp.Props.C49_derivative_vec
#print axioms Interp.Props.C49_derivative_mat
#print axioms Interp.Props.C50_vector_matrix
#print axioms Interp.Props.C50_vector_matrix_der
#print axioms Interp.Props.C51_degrees
#print axioms Interp.Props.C51_degrees_der
#print axioms Interp.Props.C52_fits_exactly
#print axioms Interp.Props.C52_damped_history
#print axioms Interp.Props.C52_der_of_call
#print axioms Interp.Props.C52_damped_first_fit_raises
#print axioms Interp.Props.C34_interp_nodes
#print axioms Interp.Props.C34_mlinterp_nodes
#print axioms Interp.Props.C35_interp_clamps
#print axioms Interp.Props.C36_mlinterp_eq_eval_linear
#print axioms Interp.Props.C36_interp_eq_eval_nearest
#print axioms Interp.Props.C37_styles_agree
#print axioms Interp.Props.C38_detection
#print axioms Interp.Props.C38_vector_rejected
#print axioms Interp.Props.C38_product_rejected
#print axioms Interp.Props.C39_extra_scalars_fails
#print axioms Interp.Props.C39_extra_arrays_fails
#print axioms Interp.Props.C39_too_few_partial
#print axioms Interp.Props.C39_tuples_partial
#print axioms Interp.Props.C58_permute
#print axioms Interp.Props.C58_short
#print axioms Interp.Props.C59_smol_inds
#print axioms Interp.Props.C60_num_grid_points
#print axioms Interp.Props.C60_rows
#print axioms Interp.Props.C61_levels_partial
#print axioms Interp.Props.C61_levels_fails
#print axioms Interp.Props.C62_inside
#print axioms Interp.Props.C62_distinct_partial
#print axioms Interp.Props.C62_distinct_fails
#print axioms Interp.Props.C62_nested
#print axioms Interp.Props.C63_nonsingular_partial
#print axioms Interp.Props.C63_entries
#print axioms Interp.Props.C63_nonsingular_fails
#print axioms Interp.Props.C64_reproduces_partial
#print axioms Interp.Props.C64_reproduces_fails
#print axioms Interp.Props.C65_polynomials_partial
#print axioms Interp.Props.C65_quadratics_partial
#print axioms Interp.Props.C66_gradient_partial
#print axioms Interp.Props.C66_gradient_any
#print axioms Interp.Props.C66_multi_fails
#print axioms Interp.Props.C66_columns_fails
#print axioms Interp.Props.C67_theta_partial
#print axioms Interp.Props.C67_theta_any
#print axioms Interp.Props.C67_data_partial
#print axioms Interp.Props.C69_update
#print axioms Interp.Props.C69_failed_update
#print axioms Interp.Props.C70_flags_partial
#print axioms Interp.Props.C70_flags_any
#print axioms Interp.Props.C71_smol_inds
#print axioms Interp.Props.C71_grid
#print axioms Interp.Props.C72_rejects
#print axioms Interp.Props.C72_accepts
#print axioms Interp.Props.C72_other_bound
#print axioms Interp.Props.C73_first_kind
#print axioms Interp.Props.C73_second_kind
#print axioms Interp.Props.C73_degree_zero
#print axioms Interp.Props.C77_specialised_scalar
#print axioms Interp.Props.C77_specialised_vector
#print axioms Interp.Props.C74_cubic_spline
#print axioms Interp.Props.C74_cubic_splines
#print axioms Interp.Props.C74_linear_spline
#print axioms Interp.Props.C74_linear_splines
#print axioms Interp.Props.C76_cubic_scalar
#print axioms Interp.Props.C76_cubic_vector_partial
#print axioms Interp.Props.C76_linear_partial
#print axioms Interp.Props.C76_linear_out_fails
#print axioms Interp.Props.C76_no_component_fails
#print axioms Interp.Props.C26_gradient_partial
#print axioms Interp.Props.C26_cubic_splines_diff_partial
#print axioms Interp.Props.C26_gradient_fails
#print axioms Interp.Props.C26_five_fails
#print axioms Interp.Props.C75_cubic_spline
#print axioms Interp.Props.C75_cubic_splines
#print axioms Interp.Props.C75_linear_spline_partial
#print axioms Interp.Props.C75_linear_splines_partial
#print axioms Interp.Props.C75_linear_grid_fails
#print axioms Interp.Props.C78_linear_rounding
#print axioms Interp.Props.C79_nodes_exact
#print axioms Interp.Props.C68_inverse
#print axioms Interp.Props.C68_onto
#print axioms Interp.Props.C68_shape_error
#print axioms Interp.Props.C80_error_lipschitz
#print axioms Interp.Props.C80_error_smooth
#print axioms Interp.Props.C81_error_modulus
#print axioms Interp.Props.C81_uniform_convergence
#print axioms Interp.Props.C82_chebyvalto_partial
#print axioms Interp.Props.C82_last_missing_fails
#print axioms Interp.Props.C83_affine_invariance
#print axioms Interp.Props.C84_reflection
#print axioms Interp.Props.C85_axis_permutation
#print axioms Interp.Props.C86_mlinspace_short
#print axioms Interp.Props.C86_mlinspace_negative
#print axioms Interp.Props.C86_linear_grid_short
#print axioms Interp.Props.C86_cubic_grid_short
#print axioms Interp.Props.C87_cubic_stability
#print axioms Interp.Props.C87_cubic_bound
#print axioms Interp.Props.C88_cubic_error_smooth
#print axioms Interp.Props.C88_cubic_error_lipschitz
#print axioms Interp.Props.C89_cubic_convergence
#print axioms Interp.Props.C90_cubic_fourth_order
#print axioms Interp.Props.C91_generated_text
#print axioms Interp.Props.C91_called_text
#print axioms Interp.Props.C92_lexer
#print axioms Interp.Props.C92_lexer_error
#print axioms Interp.Props.C92_trim
#print axioms Interp.Props.C92_trim_line
#print axioms Interp.Props.C92_parser
#print axioms Interp.Props.C92_meaning
#print axioms Interp.Props.C92_text
#print axioms Interp.Props.C93_looper
#print axioms Interp.Props.C93_position
#print axioms Interp.Props.C93_groups
#print axioms Interp.Props.C94_options
#print axioms Interp.Props.C94_refused
#print axioms Interp.Props.C95_object
#print axioms Interp.Props.C95_every_polynomial
#print axioms Interp.Props.C95_unusable
#print axioms Interp.Props.C96_ucgrid
#print axioms Interp.Props.C96_cgrid
#print axioms Interp.Props.C96_interp
#print axioms Interp.Props.C96_mlinterp
#print axioms Interp.Props.C96_linear_without_values
#print axioms Interp.Props.C96_cubic_without_values
#print axioms Interp.Props.C96_complete
#print axioms Interp.Props.C96_filter
#print axioms Interp.Props.C96_bspline
#print axioms Interp.Props.C97_generated_code
#print axioms Interp.Props.C97_text_scalar
#print axioms Interp.Props.C97_text_rows
#print axioms Interp.Props.C97_text_interpolates
#print axioms Interp.Props.C98_fmap1
#print axioms Interp.Props.C98_fmap2
#print axioms Interp.Props.C98_fmapX
#print axioms Interp.Props.C98_funzip
#print axioms Interp.Props.C98_extract_row
#print axioms Interp.Props.C98_get_coeffs
#print axioms Interp.Props.C98_tensor_reduction
#print axioms Interp.Props.C98_project
#print axioms Interp.Props.C98_mlinterp_point
#print axioms Interp.Props.C98_make_mlinterp
#print axioms Interp.Props.C98_interp
#print axioms Interp.Props.C98_interp_nodes
#print axioms Interp.Props.C99_minimum_curvature
#print axioms Interp.Props.C99_linear_least_slope
#print axioms Interp.Props.C100_hermite_smooth
#print axioms Interp.Props.C100_hermite_error
#print axioms Interp.Props.C101_hermite_monotone
#print axioms Interp.Props.C102_filter_rounding
#print axioms Interp.Props.C103_cubic_rounding
#print axioms Interp.Props.C103_interpolation_rounding
#print axioms Interp.Props.C104_cubic_locality
#print axioms Interp.Props.C104_single_node
#print axioms Interp.Props.C105_interior_accuracy
#print axioms Interp.Props.C106_mlinterp_rounding
#print axioms Interp.Props.C106_interp_rounding
#print axioms Interp.Props.C107_mlinterp_nodes_exact
#print axioms Interp.Props.C107_interp_nodes_exact
#print axioms Interp.Props.C107_mlinterp_eq_linear
#print axioms Interp.Props.C107_interp_eq_nearest
#print axioms Interp.Props.C108_hermite_splines
#print axioms Interp.Props.C108_hermite_interp
#print axioms Interp.Props.C108_hermite_interpolation
#print axioms Interp.Props.C108_hermite_interpolation_vect
#print axioms Interp.Props.C108_hermite_scalar
#print axioms Interp.Props.C108_hermite_vector
#print axioms Interp.Props.C108_hermite_matrix
#print axioms Interp.Props.C109_solve
#print axioms Interp.Props.C109_find_coefs
#print axioms Interp.Props.C109_filter_into
#print axioms Interp.Props.C109_filter
#print axioms Interp.Props.C109_filter_interpolates
#print axioms Interp.Props.C110_B0
#print axioms Interp.Props.C110_B
#print axioms Interp.Props.C110_B_negative_degree
#print axioms Interp.Props.C110_B_basis
#print axioms Interp.Props.C111_n_complete
#print axioms Interp.Props.C111_complete_polynomial
#print axioms Interp.Props.C111_complete_polynomial_der
#print axioms Interp.Props.C111_monomials
#print axioms Interp.Props.C111_derivative_vec
#print axioms Interp.Props.C111_derivative_mat
#print axioms Interp.Props.C112_eval_cubic_spline
#print axioms Interp.Props.C112_vec_eval_cubic_spline
#print axioms Interp.Props.C112_eval_cubic_splines
#print axioms Interp.Props.C112_vec_eval_cubic_splines
#print axioms Interp.Props.C112_vec_eval_cubic_splines_G
#print axioms Interp.Props.C112_gradient
#print axioms Interp.Props.C113_find_coefs
#print axioms Interp.Props.C113_filter_data
#print axioms Interp.Props.C113_filter_coeffs
#print axioms Interp.Props.C113_filter_mcoeffs
#print axioms Interp.Props.C113_modules_agree
#print axioms Interp.Props.C114_repeat_1d
#print axioms Interp.Props.C114_cartesian
#print axioms Interp.Props.C114_mlinspace
#print axioms Interp.Props.C114_cartesian_rows
#print axioms Interp.Props.C114_mlinspace_rows
#print axioms Interp.Props.C115_permute
#print axioms Interp.Props.C115_permute_all
#print axioms Interp.Props.C115_permute_numbers
#print axioms Interp.Props.C115_m_i
#print axioms Interp.Props.C115_num_grid_points
#print axioms Interp.Props.C115_num_grid_points_rows
#print axioms Interp.Props.C115_phi_chain
#print axioms Interp.Props.C115_cheby2n
#print axioms Interp.Props.C115_cheby2n_rows
#print axioms Interp.Props.C116_total
#print axioms Interp.Props.C116_unique
#print axioms Interp.Props.C116_interpolates
#print axioms Interp.Props.C116_multiaffine
#print axioms Interp.Props.C116_second_order
#print axioms Interp.Props.C116_fourth_order
#print axioms Interp.Props.C116_converges
#print axioms Interp.Props.C116_smooth
#print axioms Interp.Props.C116_gradient
#print axioms Interp.Props.C117_smol_inds
#print axioms Interp.Props.C117_poly_inds
#print axioms Interp.Props.C117_s_n
#print axioms Interp.Props.C117_a_chain
#print axioms Interp.Props.C117_build_grid
#print axioms Interp.Props.C117_smol_inds_admissible
#print axioms Interp.Props.C117_s_n_extrema_partial
#print axioms Interp.Props.C117_build_grid_cube
#print axioms Interp.Props.C117_build_grid_distinct_partial
#print axioms Interp.Props.C117_num_rows
#print axioms Interp.Props.C118_build_B
#print axioms Interp.Props.C118_build_B_values
#print axioms Interp.Props.C118_collocation_partial
#print axioms Interp.Props.C118_interpolates_partial
#print axioms Interp.Props.C119_build_B_deriv
#print axioms Interp.Props.C119_derivatives
#print axioms Interp.Props.C120_total
#print axioms Interp.Props.C120_unique
#print axioms Interp.Props.C120_same_function
#print axioms Interp.Props.C120_interpolates
#print axioms Interp.Props.C120_multiaffine
#print axioms Interp.Props.C120_nearest
#print axioms Interp.Props.C120_constant
#print axioms Interp.Props.C120_second_order
#print axioms Interp.Props.C120_fourth_order
#print axioms Interp.Props.C120_converges
#print axioms Interp.Props.C120_smooth
#print axioms Interp.Props.C120_gradient
#print axioms Interp.Props.C121_total
#print axioms Interp.Props.C121_unique
#print axioms Interp.Props.C121_values
#print axioms Interp.Props.C121_cubic
#print axioms Interp.Props.C121_slopes
#print axioms Interp.Props.C121_smooth
#print axioms Interp.Props.C121_error
#print axioms Interp.Props.C121_monotone
#print axioms Interp.Props.C122_complete_polynomial
#print axioms Interp.Props.C122_doubles
#print axioms Interp.Props.C122_derivative
#print axioms Interp.Props.C123_hermite
#print axioms Interp.Props.C123_hermite_vector
#print axioms Interp.Props.C123_outside
#print axioms Interp.Props.C124_bspline
#print axioms Interp.Props.C124_support
#print axioms Interp.Props.C124_partition
#print axioms Interp.Props.C125_first_kind
#print axioms Interp.Props.C125_second_kind
#print axioms Interp.Props.C125_build_B
#print axioms Interp.Props.C126_nodes
#print axioms Interp.Props.C126_increasing
#print axioms Interp.Props.C126_grid
#print axioms Interp.Props.C126_distinct
#print axioms Interp.Props.C126_trigErr
#print axioms Interp.Props.C127_interpolate
#print axioms Interp.Props.C128_call
#print axioms Interp.Props.C128_derivative
#print axioms Interp.Props.C129_gradient
#print axioms Interp.Props.C130_reproduces
#print axioms Interp.Props.C131_grid
#print axioms Interp.Props.C131_distinct
#print axioms Interp.Props.C132_derivative_rounding
#print axioms Interp.Props.C132_interpolation_rounding
#print axioms Interp.Props.C133_linear
#print axioms Interp.Props.C133_cubic
#print axioms Interp.Props.C133_cubic_fourth
#print axioms Interp.Props.C133_cubic_interior
#print axioms Interp.Props.C133_mlinterp
