{"id": "C01", "title": "Linear splines interpolate the data", "statement": "Evaluating a linear spline (eval_linear / eval_spline with k=1) at a node of its cartesian grid returns exactly the value stored for that node, whichever extrapolation mode is used.", "quantifier": "every dimension d>=1, every mix of uniform and strictly increasing nonuniform axes of every size >=2, every value array, every node multi-index", "why_tests_cant": "Grids, dimensions, node indices and data are unbounded; tests only try a 10-point or 100-point grid and never compare with the stored values.", "anchors": ["interpolation/splines/codegen.py: eval_template, eval_template_vectorized, get_code_spline, blending_formula, get_values, gen_trex", "interpolation/splines/eval_splines.py: eval_spline, eval_linear, eval_cubic, allocate_output"]}
{"id": "C02", "title": "Linear splines reproduce multi-affine functions everywhere", "statement": "If the stored values sample a function that is affine in each coordinate separately, eval_linear in the default (linear) extrapolation mode returns that function at every point, inside and outside the grid.", "quantifier": "every dimension, every valid grid, every multi-affine function, every evaluation point of R^d", "why_tests_cant": "Exactness for a whole function space at all points of R^d cannot be sampled.", "anchors": ["interpolation/splines/codegen.py: eval_template, eval_template_vectorized, get_code_spline, blending_formula, get_values, gen_trex", "interpolation/splines/eval_splines.py: eval_spline, eval_linear, eval_cubic, allocate_output"]}
{"id": "C03", "title": "Linear interpolation never leaves the range of the data", "statement": "At a point inside the grid, or anywhere with extrap_mode nearest, the result of eval_linear lies between any lower and upper bound of the stored values.", "quantifier": "every dimension, every valid grid, every data array, every point in the grid box", "why_tests_cant": "A maximum principle quantifies over all data and all points.", "anchors": ["interpolation/splines/codegen.py: eval_template, eval_template_vectorized, get_code_spline, blending_formula, get_values, gen_trex", "interpolation/splines/eval_splines.py: eval_spline, eval_linear, eval_cubic, allocate_output"]}
{"id": "C04", "title": "Mode nearest evaluates at the closest point of the grid box", "statement": "With extrap_mode nearest the result at x equals the result at the coordinatewise projection of x on the grid box, and equals the default result when x is already inside.", "quantifier": "every dimension, grid, coefficient array, k in {1,3}, every point", "why_tests_cant": "All points outside the box in all orthants and all dimensions.", "anchors": ["interpolation/splines/codegen.py: eval_template, eval_template_vectorized, get_code_spline, blending_formula, get_values, gen_trex", "interpolation/splines/eval_splines.py: eval_spline, eval_linear, eval_cubic, allocate_output"]}
{"id": "C05", "title": "Mode constant is zero outside and unchanged inside", "statement": "With extrap_mode constant the result is exactly 0 as soon as one coordinate is outside its axis range, and equals the default result otherwise; this holds for single points, lists of points, scalar or vector values, allocated or in-place output.", "quantifier": "every call shape, dimension, grid, coefficient array and point", "why_tests_cant": "The generated code differs for each call shape; tests only try one dimension with scalar values.", "anchors": ["interpolation/splines/codegen.py: eval_template, eval_template_vectorized, get_code_spline, blending_formula, get_values, gen_trex", "interpolation/splines/eval_splines.py: eval_spline, eval_linear, eval_cubic, allocate_output"]}
{"id": "C06", "title": "No out-of-bounds access in spline evaluation", "statement": "Spline evaluation reads only coefficients inside the coefficient array and axis arrays, and writes only inside the output array, even if floating point rounding, overflow or NaN make the computed cell number arbitrary.", "quantifier": "every dimension, grid with at least 2 nodes per axis, k in {1,3}, every point, every behaviour of the arithmetic operations and of the float-to-int conversion", "why_tests_cant": "Compiled code has no bounds checks, so a violation is silent memory corruption, and the bad inputs are rare floats.", "anchors": ["interpolation/splines/codegen.py: eval_template, eval_template_vectorized, get_code_spline, blending_formula, get_values, gen_trex", "interpolation/splines/eval_splines.py: eval_spline, eval_linear, eval_cubic, allocate_output"]}
{"id": "C07", "title": "Evaluating a list of points is evaluating each point", "statement": "The row for point number n of a vectorised eval_spline call equals the result of the single-point call at that point; it depends on no other row, so permuting, splitting or repeating the points permutes, splits or repeats the results.", "quantifier": "every number and order of points, every dimension, grid, k, diff, mode, scalar and vector values, and every arithmetic (including IEEE rounding)", "why_tests_cant": "The two cases come from two different templates; equality must hold for every list.", "anchors": ["interpolation/splines/codegen.py: eval_template, eval_template_vectorized, get_code_spline, blending_formula, get_values, gen_trex", "interpolation/splines/eval_splines.py: eval_spline, eval_linear, eval_cubic, allocate_output"]}
{"id": "C08", "title": "In-place output equals allocated output", "statement": "Passing a preallocated output array of the documented shape leaves in it exactly the array that the allocating call returns, whatever the array contained before.", "quantifier": "every call shape for which in-place output is documented, every initial content of the output array, every arithmetic", "why_tests_cant": "Old contents of the buffer are arbitrary; tests use zero-initialised buffers and never look at the mode/shape combinations.", "anchors": ["interpolation/splines/codegen.py: eval_template, eval_template_vectorized, get_code_spline, blending_formula, get_values, gen_trex", "interpolation/splines/eval_splines.py: eval_spline, eval_linear, eval_cubic, allocate_output"]}
{"id": "C09", "title": "Vector-valued splines are independent scalar splines", "statement": "Component j of the vector-valued evaluation equals the scalar evaluation on component j of the coefficients.", "quantifier": "every number of components, dimension, grid, k, point, mode and arithmetic", "why_tests_cant": "Number of components and coefficient arrays are unbounded.", "anchors": ["interpolation/splines/codegen.py: eval_template, eval_template_vectorized, get_code_spline, blending_formula, get_values, gen_trex", "interpolation/splines/eval_splines.py: eval_spline, eval_linear, eval_cubic, allocate_output"]}
{"id": "C10", "title": "Evaluation is linear in the coefficients", "statement": "Evaluating a linear combination of two coefficient arrays gives the same combination of the two evaluations, also for derivatives and in every extrapolation mode.", "quantifier": "all coefficient arrays, all scalars, every point, grid, k, diff and mode", "why_tests_cant": "A linear-functional identity over all arrays.", "anchors": ["interpolation/splines/codegen.py: eval_template, eval_template_vectorized, get_code_spline, blending_formula, get_values, gen_trex", "interpolation/splines/eval_splines.py: eval_spline, eval_linear, eval_cubic, allocate_output"]}
{"id": "C11", "title": "Linear interpolation is monotone in the data", "statement": "If one data array dominates another at every node then its interpolant dominates at every point of the grid box (and everywhere in mode nearest).", "quantifier": "all pairs of ordered data arrays, all points in the box, every dimension", "why_tests_cant": "Order preservation must hold for all data pairs.", "anchors": ["interpolation/splines/codegen.py: eval_template, eval_template_vectorized, get_code_spline, blending_formula, get_values, gen_trex", "interpolation/splines/eval_splines.py: eval_spline, eval_linear, eval_cubic, allocate_output"]}
{"id": "C12", "title": "The linear interpolant is continuous", "statement": "In the default mode the map x -> eval_linear(grid, values, x) is continuous on R^d: no jump at cell boundaries or at the edge of the grid.", "quantifier": "every dimension, grid and data array, all points of R^d", "why_tests_cant": "Continuity is a limit statement; a jump at one knot is invisible to sampling.", "anchors": ["interpolation/splines/codegen.py: eval_template, eval_template_vectorized, get_code_spline, blending_formula, get_values, gen_trex", "interpolation/splines/eval_splines.py: eval_spline, eval_linear, eval_cubic, allocate_output"]}
{"id": "C13", "title": "Derivatives of linear splines are the slopes of the interpolant", "statement": "eval_spline with k=1 and diff returns, at a point strictly inside a cell, the partial derivative of the function computed by eval_spline itself, for the requested combination of orders.", "quantifier": "every dimension, uniform and nonuniform axes, all data, all points not on a knot, every tuple of orders", "why_tests_cant": "Tests only check nonuniform axes; a wrong scale factor on uniform axes is invisible whenever the spacing is 1.", "anchors": ["interpolation/splines/codegen.py: eval_template, eval_template_vectorized, get_code_spline, blending_formula, get_values, gen_trex", "interpolation/splines/eval_splines.py: eval_spline, eval_linear, eval_cubic, allocate_output"]}
{"id": "C14", "title": "Second and higher derivatives", "statement": "With k=1 every requested partial derivative having an order >=2 in some coordinate is exactly 0; with k=3 any such request is rejected with an error instead of returning a number.", "quantifier": "all orders, dimensions, grids, data, points", "why_tests_cant": "Unbounded set of order tuples.", "anchors": ["interpolation/splines/codegen.py: eval_template, eval_template_vectorized, get_code_spline, blending_formula, get_values, gen_trex", "interpolation/splines/eval_splines.py: eval_spline, eval_linear, eval_cubic, allocate_output"]}
{"id": "C15", "title": "Uniform and nonuniform descriptions of the same grid agree", "statement": "Replacing any uniform axis (a,b,n) by the array of its n nodes changes no value of eval_linear.", "quantifier": "all subsets of axes, all data, all points inside and outside, every dimension", "why_tests_cant": "The two axis kinds run different cell searches (floor versus binary search); equality at every point including knots is needed.", "anchors": ["interpolation/splines/codegen.py: eval_template, eval_template_vectorized, get_code_spline, blending_formula, get_values, gen_trex", "interpolation/splines/eval_splines.py: eval_spline, eval_linear, eval_cubic, allocate_output"]}
{"id": "C16", "title": "Unsupported requests are rejected", "statement": "eval_spline refuses (raises, never returns a number for) a spline order other than 1 and 3, a nonuniform axis with order 3, and diff tuples that are shorter or longer than the number of dimensions.", "quantifier": "all orders k, all grids, all diff tuples", "why_tests_cant": "All invalid configurations, of unbounded number.", "anchors": ["interpolation/splines/codegen.py: eval_template, eval_template_vectorized, get_code_spline, blending_formula, get_values, gen_trex", "interpolation/splines/eval_splines.py: eval_spline, eval_linear, eval_cubic, allocate_output"]}
{"id": "C17", "title": "Every extrapolation mode is available for a single point on every grid", "statement": "A single-point evaluation with mode nearest or constant succeeds on every valid grid and agrees with the list-of-points evaluation.", "quantifier": "all grids including nonuniform axes, all points", "why_tests_cant": "A combination of call shape, mode and axis kind that no test exercises.", "anchors": ["interpolation/splines/codegen.py: eval_template, eval_template_vectorized, get_code_spline, blending_formula, get_values, gen_trex", "interpolation/splines/eval_splines.py: eval_spline, eval_linear, eval_cubic, allocate_output"]}
{"id": "C18", "title": "Filtered cubic splines interpolate the data", "statement": "eval_cubic applied to the coefficients produced by filter_cubic / prefilter returns exactly the original value at every node of the grid.", "quantifier": "d=1..4, every number of nodes >=2 along each axis, every data array, every node", "why_tests_cant": "Requires the banded elimination to be right for every size; tests never compare filtered evaluation with the data.", "anchors": ["interpolation/splines/prefilter_cubic.py: solve_deriv_interp_1d, find_coefs_1d, filter_cubic, prefilter", "interpolation/splines/codegen.py: eval_template, eval_template_vectorized, get_code_spline, blending_formula, get_values, gen_trex", "interpolation/splines/eval_splines.py: eval_spline, eval_linear, eval_cubic, allocate_output"]}
{"id": "C19", "title": "Filtering never divides by zero", "statement": "filter_cubic / prefilter(k=3) / CubicSpline construction complete without a division by zero for every valid grid, whatever the data.", "quantifier": "d=1..4, every number of nodes >=2, every data array, every axis with a<b", "why_tests_cant": "Pivots of the elimination depend on the size; need an invariant over all steps.", "anchors": ["interpolation/splines/prefilter_cubic.py: solve_deriv_interp_1d, find_coefs_1d, filter_cubic, prefilter", "interpolation/splines/filter_cubic.py: filter_coeffs, filter_mcoeffs, filter_data, filter_coeffs_1d..4d"]}
{"id": "C20", "title": "Natural boundary conditions", "statement": "The cubic spline built by filter_cubic has zero second derivative at both ends of the axis.", "quantifier": "every number of nodes, all data, d=1", "why_tests_cant": "Second derivatives at the ends for all data and sizes.", "anchors": ["interpolation/splines/prefilter_cubic.py: solve_deriv_interp_1d, find_coefs_1d, filter_cubic, prefilter", "interpolation/splines/codegen.py: eval_template, eval_template_vectorized, get_code_spline, blending_formula, get_values, gen_trex"]}
{"id": "C21", "title": "Cubic splines are twice continuously differentiable", "statement": "On the grid interval, x -> eval_cubic(grid, C, x) is C2: values, first and second derivatives match at every interior knot; on the whole line it is C1.", "quantifier": "all coefficient arrays, all knots, all sizes", "why_tests_cant": "Smoothness at knots is a limit statement over all coefficients.", "anchors": ["interpolation/splines/codegen.py: eval_template, eval_template_vectorized, get_code_spline, blending_formula, get_values, gen_trex", "interpolation/splines/eval_splines.py: eval_spline, eval_linear, eval_cubic, allocate_output"]}
{"id": "C22", "title": "Cubic extrapolation is the tangent line", "statement": "In the default mode, outside the grid a 1d cubic spline equals the straight line through its end value with its end slope.", "quantifier": "all coefficient arrays, sizes, all points left and right of the grid", "why_tests_cant": "Unbounded region of points.", "anchors": ["interpolation/splines/codegen.py: eval_template, eval_template_vectorized, get_code_spline, blending_formula, get_values, gen_trex", "interpolation/splines/eval_splines.py: eval_spline, eval_linear, eval_cubic, allocate_output"]}
{"id": "C23", "title": "Cubic splines reproduce multi-affine functions everywhere", "statement": "If the data sample a function affine in each coordinate, filter_cubic followed by eval_cubic in the default mode returns that function at every point, inside and outside the grid.", "quantifier": "d=1..4, all sizes >=2, all multi-affine functions, all points", "why_tests_cant": "A function space times all points of R^d.", "anchors": ["interpolation/splines/prefilter_cubic.py: solve_deriv_interp_1d, find_coefs_1d, filter_cubic, prefilter", "interpolation/splines/codegen.py: eval_template, eval_template_vectorized, get_code_spline, blending_formula, get_values, gen_trex", "interpolation/splines/eval_splines.py: eval_spline, eval_linear, eval_cubic, allocate_output"]}
{"id": "C24", "title": "Cubic weights are a convex partition of unity", "statement": "Inside the grid an evaluation of a cubic spline is a convex combination of coefficients (nonnegative weights summing to one), so it stays between the smallest and largest coefficient; the weights sum to one everywhere in the default mode.", "quantifier": "all dimensions, grids, coefficient arrays, points", "why_tests_cant": "All points, all coefficients.", "anchors": ["interpolation/splines/codegen.py: eval_template, eval_template_vectorized, get_code_spline, blending_formula, get_values, gen_trex", "interpolation/splines/eval_splines.py: eval_spline, eval_linear, eval_cubic, allocate_output"]}
{"id": "C25", "title": "Derivatives of cubic splines are true derivatives", "statement": "eval_spline with k=3 and diff orders 0/1 returns the partial derivative of the function it computes with diff None, inside cells, at knots and in the extrapolation region.", "quantifier": "all dimensions, coefficient arrays, points, all 0/1 order tuples", "why_tests_cant": "A derivative is a limit; agreement is needed at every point.", "anchors": ["interpolation/splines/codegen.py: eval_template, eval_template_vectorized, get_code_spline, blending_formula, get_values, gen_trex", "interpolation/splines/eval_splines.py: eval_spline, eval_linear, eval_cubic, allocate_output"]}
{"id": "C26", "title": "CubicSplines gradient is the gradient of the values", "statement": "CubicSplines.interpolate(points, diff=True) returns values and the exact gradient of the returned values at every point.", "quantifier": "d=1..4, all data, all points inside and outside the grid", "why_tests_cant": "Tests only look at shapes; the extrapolation region uses another formula.", "anchors": ["interpolation/splines/eval_cubic_numba.py: vec_eval_cubic_splines_G_1..4, Ad, dAd", "interpolation/splines/eval_cubic.py: vec_eval_cubic_splines_G", "interpolation/splines/splines.py: CubicSpline, CubicSplines"]}
{"id": "C27", "title": "The two filtering implementations agree", "statement": "filter_cubic(grid, values) and filter_coeffs / CubicSpline built from the same bounds and orders produce the same coefficients.", "quantifier": "d=1..4, all sizes >=2, all data, all bounds", "why_tests_cant": "Two hand-duplicated implementations with different boundary scalings; equality for all inputs.", "anchors": ["interpolation/splines/prefilter_cubic.py: solve_deriv_interp_1d, find_coefs_1d, filter_cubic, prefilter", "interpolation/splines/filter_cubic.py: filter_coeffs, filter_mcoeffs, filter_data, filter_coeffs_1d..4d"]}
{"id": "C28", "title": "Filtered coefficients do not depend on the bounds of the axis", "statement": "Changing the lower and upper bound of an axis (keeping a<b) does not change the filtered coefficients.", "quantifier": "all bounds, sizes, data, d=1..4", "why_tests_cant": "The code uses an axis spacing that is not the grid spacing; harmless only if the result is provably independent of it.", "anchors": ["interpolation/splines/prefilter_cubic.py: solve_deriv_interp_1d, find_coefs_1d, filter_cubic, prefilter", "interpolation/splines/filter_cubic.py: filter_coeffs, filter_mcoeffs, filter_data, filter_coeffs_1d..4d"]}
{"id": "C29", "title": "Filtering is linear in the data", "statement": "Filtering a linear combination of two data arrays gives the same combination of the filtered arrays.", "quantifier": "all data pairs, scalars, sizes, d=1..4", "why_tests_cant": "Linear identity over all arrays.", "anchors": ["interpolation/splines/prefilter_cubic.py: solve_deriv_interp_1d, find_coefs_1d, filter_cubic, prefilter"]}
{"id": "C30", "title": "In-place filtering overwrites everything", "statement": "filter_cubic(grid, V, C) leaves in C exactly the array filter_cubic(grid, V) returns, whatever C contained, for scalar and vector-valued data.", "quantifier": "all initial contents of C, all data, d=1..4, any number of components", "why_tests_cant": "Stale buffer contents are arbitrary; in dimension >=2 the array is also read while being written.", "anchors": ["interpolation/splines/prefilter_cubic.py: solve_deriv_interp_1d, find_coefs_1d, filter_cubic, prefilter"]}
{"id": "C31", "title": "Filtered coefficients are uniquely determined", "statement": "The coefficients returned by filter_cubic are the only array satisfying the interpolation conditions at all nodes and the natural boundary conditions.", "quantifier": "all sizes, all data", "why_tests_cant": "Uniqueness quantifies over all candidate arrays.", "anchors": ["interpolation/splines/prefilter_cubic.py: solve_deriv_interp_1d, find_coefs_1d, filter_cubic, prefilter"]}
{"id": "C32", "title": "prefilter with k=1", "statement": "prefilter(grid, V, k=1) returns the values unchanged, so that eval_spline(k=1) on its result interpolates V; with an out argument, out receives the coefficients as for k=3.", "quantifier": "all grids, values and buffers", "why_tests_cant": "Branch on (k, out) that no test exercises.", "anchors": ["interpolation/splines/prefilter_cubic.py: solve_deriv_interp_1d, find_coefs_1d, filter_cubic, prefilter"]}
{"id": "C33", "title": "Vector-valued filtering filters each component", "statement": "Component j of the filtered vector-valued array is the filtered component j.", "quantifier": "any number of components, d=1..4, all data", "why_tests_cant": "All component counts and data.", "anchors": ["interpolation/splines/prefilter_cubic.py: solve_deriv_interp_1d, find_coefs_1d, filter_cubic, prefilter", "interpolation/splines/filter_cubic.py: filter_coeffs, filter_mcoeffs, filter_data, filter_coeffs_1d..4d"]}
{"id": "C34", "title": "interp and mlinterp interpolate the data", "statement": "interp(x1,..,xd,V,...) and mlinterp(grid,V,u) return the stored value at every grid node.", "quantifier": "every dimension, uniform and increasing nonuniform axes, all data, all nodes", "why_tests_cant": "Unbounded grids; tests only check that the result is not None.", "anchors": ["interpolation/multilinear/mlinterp.py: interp, mlinterp, detect_types, make_mlinterp", "interpolation/multilinear/fungen.py: get_index, project, get_coeffs, tensor_reduction, clamp"]}
{"id": "C35", "title": "interp clamps to the grid", "statement": "interp at any point equals interp at the closest point of the grid box, so results always lie within the range of the data.", "quantifier": "every dimension, grid, data, point and evaluation style", "why_tests_cant": "All points outside in all directions.", "anchors": ["interpolation/multilinear/mlinterp.py: interp, mlinterp, detect_types, make_mlinterp", "interpolation/multilinear/fungen.py: get_index, project, get_coeffs, tensor_reduction, clamp"]}
{"id": "C36", "title": "mlinterp equals eval_linear", "statement": "mlinterp(grid, V, u) and eval_linear(grid, V, u) (default extrapolation) return the same value.", "quantifier": "every dimension, axis mix, data and point including knots and outside points", "why_tests_cant": "Two independent implementations of the cell search and of the tensor reduction.", "anchors": ["interpolation/multilinear/mlinterp.py: interp, mlinterp, detect_types, make_mlinterp", "interpolation/multilinear/fungen.py: get_index, project, get_coeffs, tensor_reduction, clamp", "interpolation/splines/codegen.py: eval_template, eval_template_vectorized, get_code_spline, blending_formula, get_values, gen_trex", "interpolation/splines/eval_splines.py: eval_spline, eval_linear, eval_cubic, allocate_output"]}
{"id": "C37", "title": "interp evaluation styles agree", "statement": "Passing the point as separate scalars, as a tuple, as a 1d array, as a row of a 2d array, or as a node of a 2d cartesian product of arrays gives the same number.", "quantifier": "every dimension (cartesian: 1 and 2), all grids, data, points", "why_tests_cant": "Each style generates different code.", "anchors": ["interpolation/multilinear/mlinterp.py: interp, mlinterp, detect_types, make_mlinterp", "interpolation/multilinear/fungen.py: get_index, project, get_coeffs, tensor_reduction, clamp"]}
{"id": "C38", "title": "interp call-shape detection", "statement": "The call shape is decided only by types and the number of arguments: for d 1d axis arguments followed by a d-dimensional value array and a supported evaluation argument the detected dimension is d; vector-valued data and cartesian evaluation in dimension >=3 are rejected.", "quantifier": "every dimension d, every argument list of the documented forms", "why_tests_cant": "Unbounded number of dimensions and argument kinds.", "anchors": ["interpolation/multilinear/mlinterp.py: interp, mlinterp, detect_types, make_mlinterp"]}
{"id": "C39", "title": "Trailing evaluation coordinates are not silently dropped", "statement": "Calling interp with a number of scalar (or 1d array) coordinates different from the dimension of the grid is rejected.", "quantifier": "all dimensions and all argument counts", "why_tests_cant": "Argument counts are unbounded.", "anchors": ["interpolation/multilinear/mlinterp.py: interp, mlinterp, detect_types, make_mlinterp"]}
{"id": "C40", "title": "Hermite splines interpolate values", "statement": "HermiteInterpolation returns y[j] at x[j] for every node, and the first/last value to the left/right of the grid.", "quantifier": "all strictly increasing grids of size >=2, all values and tangents, all nodes and outside points", "why_tests_cant": "Unbounded grids and data; the test does not look at results.", "anchors": ["interpolation/splines/hermite.py: HermiteInterpolation, HermiteInterpolationVect, hermite_interp, hermite_splines, hermite"]}
{"id": "C41", "title": "Hermite splines have the prescribed slopes", "statement": "The derivative of the Hermite interpolant at every interior node exists and equals the prescribed tangent; at the end nodes the one-sided derivative from inside does.", "quantifier": "all grids, values, tangents, nodes", "why_tests_cant": "Derivatives are limits from both sides of each node.", "anchors": ["interpolation/splines/hermite.py: HermiteInterpolation, HermiteInterpolationVect, hermite_interp, hermite_splines, hermite"]}
{"id": "C42", "title": "Hermite splines reproduce cubic polynomials", "statement": "If values and tangents sample a cubic polynomial and its derivative, the interpolant equals the polynomial on the whole grid interval.", "quantifier": "all cubic polynomials, all grids, all points in the interval", "why_tests_cant": "Function space times interval.", "anchors": ["interpolation/splines/hermite.py: HermiteInterpolation, HermiteInterpolationVect, hermite_interp, hermite_splines, hermite"]}
{"id": "C43", "title": "Hermite vector calls evaluate each point", "statement": "The vector entry point returns, for each abscissa, the scalar result; the matrix entry point uses the first column; order and multiplicity of abscissae do not matter.", "quantifier": "all lists of abscissae, every arithmetic", "why_tests_cant": "All lists.", "anchors": ["interpolation/splines/hermite.py: HermiteInterpolation, HermiteInterpolationVect, hermite_interp, hermite_splines, hermite"]}
{"id": "C44", "title": "B-spline basis functions are nonnegative with local support", "statement": "B(p,u,i,x) is >=0 for every x, and 0 outside [u_i, u_{i+p+1}).", "quantifier": "all degrees p, strictly increasing knot sequences, indices, points", "why_tests_cant": "Recursion over all degrees.", "anchors": ["interpolation/splines/basis_splines.py: B, B0"]}
{"id": "C45", "title": "B-spline basis functions sum to one", "statement": "For x in [u_p, u_{m}) (m = number of basis functions) the degree-p basis functions sum to 1.", "quantifier": "all degrees, strictly increasing knots, points", "why_tests_cant": "Recursion over all degrees and knots.", "anchors": ["interpolation/splines/basis_splines.py: B, B0"]}
{"id": "C46", "title": "Cubic spline weights are uniform cubic B-splines", "statement": "The four weights used by eval_cubic inside a cell are the degree-3 B-spline basis functions on the uniform knots around the cell.", "quantifier": "all points in all cells", "why_tests_cant": "Identity of two independently written formulas at all points.", "anchors": ["interpolation/splines/basis_splines.py: B, B0", "interpolation/splines/codegen.py: eval_template, eval_template_vectorized, get_code_spline, blending_formula, get_values, gen_trex"]}
{"id": "C47", "title": "n_complete counts the monomials", "statement": "n_complete(n, d) = C(n+d, d), the number of monomials of total degree <=d in n variables.", "quantifier": "all n>=0, d>=0", "why_tests_cant": "Both arguments unbounded (integer division inside the loop).", "anchors": ["interpolation/complete_poly.py: n_complete, complete_polynomial, complete_polynomial_der, CompletePolynomial"]}
{"id": "C48", "title": "complete_polynomial lists each monomial exactly once", "statement": "For d<=5 the rows of complete_polynomial(z, d) are the values of all monomials of total degree <=d, each exactly once, filling the allocated output exactly.", "quantifier": "all numbers of variables, all data, d=0..5", "why_tests_cant": "Number of variables is unbounded; index arithmetic must fill the array exactly.", "anchors": ["interpolation/complete_poly.py: n_complete, complete_polynomial, complete_polynomial_der, CompletePolynomial"]}
{"id": "C49", "title": "complete_polynomial_der is the derivative", "statement": "Row r of complete_polynomial_der(z, d, i) is the partial derivative of row r of complete_polynomial(z, d) with respect to variable i.", "quantifier": "all numbers of variables, data, d=0..5, i", "why_tests_cant": "Derivative identity over all variables and data; test checks one number.", "anchors": ["interpolation/complete_poly.py: n_complete, complete_polynomial, complete_polynomial_der, CompletePolynomial"]}
{"id": "C50", "title": "complete_polynomial vector and matrix calls agree", "statement": "Column k of the matrix call equals the vector call on column k, for basis and derivative.", "quantifier": "all shapes, data, degrees and every arithmetic", "why_tests_cant": "Two hand-unrolled copies of the loops.", "anchors": ["interpolation/complete_poly.py: n_complete, complete_polynomial, complete_polynomial_der, CompletePolynomial"]}
{"id": "C51", "title": "complete_polynomial rejects unsupported degrees", "statement": "Degrees <0 or >5, and derivative indices outside the number of variables, raise an error; all others succeed.", "quantifier": "all integers", "why_tests_cant": "Unbounded integers.", "anchors": ["interpolation/complete_poly.py: n_complete, complete_polynomial, complete_polynomial_der, CompletePolynomial"]}
{"id": "C52", "title": "CompletePolynomial fits and evaluates exactly", "statement": "If the sampled values come from a polynomial of degree <=d, calling the fitted object at the sample points returns the sampled values; der returns the derivative of what __call__ returns; damped refits interpolate linearly between old and new predictions.", "quantifier": "all sample sets, polynomials, damping factors, sequences of fits", "why_tests_cant": "All data sets and histories of fits.", "anchors": ["interpolation/complete_poly.py: n_complete, complete_polynomial, complete_polynomial_der, CompletePolynomial"]}
{"id": "C53", "title": "cartesian enumerates the product once in the documented order", "statement": "cartesian(nodes, order) lists every combination of nodes exactly once; with order C the last coordinate varies fastest (row-major), with order F the first.", "quantifier": "any number of axes, any sizes, any node values", "why_tests_cant": "Sizes and dimensions unbounded.", "anchors": ["interpolation/cartesian.py: cartesian, mlinspace, _repeat_1d"]}
{"id": "C54", "title": "nodes, reshape and evaluation are consistent", "statement": "Sampling a function on nodes(grid), reshaping row-major to the grid shape and evaluating eval_linear (or filter_cubic + eval_cubic) at row r of nodes(grid) returns the sampled value number r.", "quantifier": "all uniform grids, all functions, all rows", "why_tests_cant": "End-to-end consistency for all shapes.", "anchors": ["interpolation/cartesian.py: cartesian, mlinspace, _repeat_1d", "interpolation/splines/__init__.py: UCGrid, CGrid, nodes", "interpolation/splines/codegen.py: eval_template, eval_template_vectorized, get_code_spline, blending_formula, get_values, gen_trex", "interpolation/splines/prefilter_cubic.py: solve_deriv_interp_1d, find_coefs_1d, filter_cubic, prefilter"]}
{"id": "C55", "title": "nodes lists the nodes of nonuniform grids", "statement": "nodes(grid) lists the nodes of the grid for every grid accepted by CGrid.", "quantifier": "all grids with nonuniform axes", "why_tests_cant": "Branch never exercised by tests.", "anchors": ["interpolation/splines/__init__.py: UCGrid, CGrid, nodes"]}
{"id": "C56", "title": "Grid constructors validate their arguments", "statement": "UCGrid and CGrid accept exactly lists of axes with lower<upper bound and at least 2 nodes (CGrid also 1d arrays with at least 2 entries) and return them unchanged.", "quantifier": "all argument lists", "why_tests_cant": "Unbounded argument lists.", "anchors": ["interpolation/splines/__init__.py: UCGrid, CGrid, nodes"]}
{"id": "C57", "title": "mlinspace contains the corner points and equally spaced nodes", "statement": "mlinspace(a,b,n) first and last rows are a and b, consecutive nodes along an axis differ by (b-a)/(n-1).", "quantifier": "all bounds and sizes >=2, any dimension", "why_tests_cant": "All sizes and bounds.", "anchors": ["interpolation/cartesian.py: cartesian, mlinspace, _repeat_1d"]}
{"id": "C58", "title": "permute yields each distinct rearrangement once", "statement": "permute(a) yields, in increasing lexicographic order, every distinct rearrangement of the list exactly once (lists of at least 2 elements).", "quantifier": "all lists of length >=2, with repetitions", "why_tests_cant": "In-place next-permutation loop over all multisets.", "anchors": ["interpolation/smolyak/util.py: permute"]}
{"id": "C59", "title": "smol_inds lists the Smolyak indices once", "statement": "smol_inds(d, mu) contains exactly the index vectors with entries >=1 and sum <= d+mu (anisotropic: also entry j <= mu_j+1), each exactly once.", "quantifier": "all d>=2, mu>=1, scalar and vector mu", "why_tests_cant": "d and mu unbounded.", "anchors": ["interpolation/smolyak/grid.py: smol_inds, poly_inds, build_grid, build_B, a_chain, phi_chain, s_n, m_i, cheby2n, SmolyakGrid", "interpolation/smolyak/util.py: permute"]}
{"id": "C60", "title": "Number of Smolyak grid points", "statement": "num_grid_points(d, mu) equals the number of rows of the grid built for (d, mu), for mu=1,2,3.", "quantifier": "all d>=2", "why_tests_cant": "d unbounded.", "anchors": ["interpolation/smolyak/grid.py: smol_inds, poly_inds, build_grid, build_B, a_chain, phi_chain, s_n, m_i, cheby2n, SmolyakGrid"]}
{"id": "C61", "title": "One dimensional Smolyak sets are disjoint and nested", "statement": "The sets of one dimensional nodes used at different levels are disjoint, and their union up to level n is the set of Chebyshev extrema of that level.", "quantifier": "all levels", "why_tests_cant": "All levels; floating point thresholds aside.", "anchors": ["interpolation/smolyak/grid.py: smol_inds, poly_inds, build_grid, build_B, a_chain, phi_chain, s_n, m_i, cheby2n, SmolyakGrid"]}
{"id": "C62", "title": "Smolyak grid points are distinct and inside the domain", "statement": "The rows of the grid are pairwise distinct and lie in [lb, ub]; increasing mu only adds points.", "quantifier": "all d, mu, bounds", "why_tests_cant": "Unbounded d and mu.", "anchors": ["interpolation/smolyak/grid.py: smol_inds, poly_inds, build_grid, build_B, a_chain, phi_chain, s_n, m_i, cheby2n, SmolyakGrid"]}
{"id": "C63", "title": "Smolyak basis matrix is square and invertible", "statement": "For every d>=2 and mu>=1 (scalar or vector) the basis matrix at the grid points is square and nonsingular, so fitting never fails.", "quantifier": "all d, mu", "why_tests_cant": "Unisolvence for all dimensions and levels.", "anchors": ["interpolation/smolyak/grid.py: smol_inds, poly_inds, build_grid, build_B, a_chain, phi_chain, s_n, m_i, cheby2n, SmolyakGrid"]}
{"id": "C64", "title": "Smolyak interpolation reproduces the data", "statement": "SmolyakInterp(sg, f).interpolate(sg.grid) returns f.", "quantifier": "all grids, all data", "why_tests_cant": "All data; tests only print errors.", "anchors": ["interpolation/smolyak/grid.py: smol_inds, poly_inds, build_grid, build_B, a_chain, phi_chain, s_n, m_i, cheby2n, SmolyakGrid", "interpolation/smolyak/interp.py: find_theta, SmolyakInterp"]}
{"id": "C65", "title": "Smolyak interpolation reproduces its polynomial space", "statement": "If f samples a linear combination of the basis polynomials (e.g. any affine function, any x_i^2) the interpolant equals it at every point, inside or outside the domain.", "quantifier": "all d, mu, bounds, polynomials in the span, all points", "why_tests_cant": "Function space times all points.", "anchors": ["interpolation/smolyak/grid.py: smol_inds, poly_inds, build_grid, build_B, a_chain, phi_chain, s_n, m_i, cheby2n, SmolyakGrid", "interpolation/smolyak/interp.py: find_theta, SmolyakInterp"]}
{"id": "C66", "title": "Smolyak gradients are exact", "statement": "interpolate(deriv=True) returns the gradient of the interpolant with respect to the original coordinates.", "quantifier": "all d, mu, bounds, coefficients, points", "why_tests_cant": "Derivative identity at all points.", "anchors": ["interpolation/smolyak/grid.py: smol_inds, poly_inds, build_grid, build_B, a_chain, phi_chain, s_n, m_i, cheby2n, SmolyakGrid", "interpolation/smolyak/interp.py: find_theta, SmolyakInterp"]}
{"id": "C67", "title": "Smolyak derivative with respect to data and coefficients", "statement": "deriv_th returns the derivative of the interpolated values with respect to the coefficients and deriv_X with respect to the data values on the grid.", "quantifier": "all grids, data, points", "why_tests_cant": "Linear identities over all data.", "anchors": ["interpolation/smolyak/interp.py: find_theta, SmolyakInterp"]}
{"id": "C68", "title": "Domain maps are inverse to each other", "statement": "cube2dom and dom2cube are mutually inverse and map [-1,1]^d onto [lb,ub].", "quantifier": "all bounds lb<ub, all points", "why_tests_cant": "All bounds and points.", "anchors": ["interpolation/smolyak/grid.py: smol_inds, poly_inds, build_grid, build_B, a_chain, phi_chain, s_n, m_i, cheby2n, SmolyakGrid"]}
{"id": "C69", "title": "update_theta keeps no history", "statement": "After any sequence of update_theta calls the interpolant is the one freshly built from the last data.", "quantifier": "all sequences of updates", "why_tests_cant": "All histories.", "anchors": ["interpolation/smolyak/interp.py: find_theta, SmolyakInterp"]}
{"id": "C70", "title": "interpolate returns the requested objects in order for every flag combination", "statement": "For every combination of interp, deriv, deriv_th, deriv_X the call succeeds and returns exactly the requested arrays in the documented order, unwrapped when there is exactly one.", "quantifier": "all 16 flag combinations, all inputs", "why_tests_cant": "Combination of flags with data-dependent arrays; finite flags but all inputs.", "anchors": ["interpolation/smolyak/interp.py: find_theta, SmolyakInterp"]}
{"id": "C71", "title": "Anisotropic grids generalise isotropic ones", "statement": "A vector mu with all entries equal to m gives the same indices and grid as the scalar m.", "quantifier": "all d, m", "why_tests_cant": "d and m unbounded.", "anchors": ["interpolation/smolyak/grid.py: smol_inds, poly_inds, build_grid, build_B, a_chain, phi_chain, s_n, m_i, cheby2n, SmolyakGrid"]}
{"id": "C72", "title": "SmolyakGrid rejects invalid parameters", "statement": "d<=1, mu<1 (or any entry), bounds or mu of the wrong length raise ValueError; valid ones are accepted.", "quantifier": "all parameters", "why_tests_cant": "Unbounded integers and arrays.", "anchors": ["interpolation/smolyak/grid.py: smol_inds, poly_inds, build_grid, build_B, a_chain, phi_chain, s_n, m_i, cheby2n, SmolyakGrid"]}
{"id": "C73", "title": "Chebyshev recursion", "statement": "cheby2n returns the Chebyshev polynomials: row n at cos(t) is cos(n t) (first kind), and sin((n+1)t)/sin t for kind=2.", "quantifier": "all n and t", "why_tests_cant": "All degrees and angles.", "anchors": ["interpolation/smolyak/grid.py: smol_inds, poly_inds, build_grid, build_B, a_chain, phi_chain, s_n, m_i, cheby2n, SmolyakGrid"]}
{"id": "C74", "title": "Spline objects depend only on the last values", "statement": "After any sequence of set_values calls (including rejected ones) a CubicSpline / LinearSpline evaluates like one freshly built from the last accepted values; a rejected call changes nothing.", "quantifier": "all histories", "why_tests_cant": "All sequences of successful and failing updates.", "anchors": ["interpolation/splines/splines.py: CubicSpline, CubicSplines", "interpolation/splines/multilinear.py: LinearSpline, LinearSplines"]}
{"id": "C75", "title": "Spline objects interpolate on their grid", "statement": "CubicSpline, CubicSplines, LinearSpline and LinearSplines called at row r of their grid attribute return value number r (row-major).", "quantifier": "all bounds, orders, values", "why_tests_cant": "All shapes and data.", "anchors": ["interpolation/splines/splines.py: CubicSpline, CubicSplines", "interpolation/splines/multilinear.py: LinearSpline, LinearSplines", "interpolation/cartesian.py: cartesian, mlinspace, _repeat_1d"]}
{"id": "C76", "title": "Legacy entry points agree with eval_cubic / eval_linear", "statement": "eval_cubic_spline, vec_eval_cubic_spline(s), multilinear_interpolation and vec_multilinear_interpolation return the same numbers as eval_cubic / eval_linear on the corresponding grid, with and without an output buffer.", "quantifier": "all inputs", "why_tests_cant": "Wrapper branches (out given or not) are not all exercised.", "anchors": ["interpolation/splines/eval_cubic.py", "interpolation/splines/multilinear_numba.py"]}
{"id": "C77", "title": "Specialised cubic evaluators agree with eval_cubic", "statement": "eval_cubic_spline_d, vec_eval_cubic_spline_d, eval_cubic_splines_d, vec_eval_cubic_splines_d and the values of vec_eval_cubic_splines_G_d (d = 1..4) are bit for bit the numbers eval_cubic returns.", "quantifier": "all grids, coefficients, points, any arithmetic in which x*1 = x", "why_tests_cant": "Two independent implementations (generated and hand-unrolled code) compared on all inputs and roundings.", "anchors": ["interpolation/splines/eval_cubic_numba.py: vec_eval_cubic_splines_G_1..4, Ad, dAd", "interpolation/splines/eval_splines.py: eval_spline, eval_linear, eval_cubic, allocate_output", "interpolation/splines/codegen.py: eval_template, eval_template_vectorized, get_code_spline, blending_formula, get_values, gen_trex"]}
{"id": "C78", "title": "Linear interpolation is accurate under rounding", "statement": "With rounded arithmetic (each operation has relative error at most u) eval_linear on the grid, and anywhere in modes nearest and constant, differs from its exact-arithmetic value by at most (prod(1+e_i)-1)*max|C| with e_i = 13*n_i*u (uniform axis, n_i nodes) or 13*u (array axis), provided e_i <= 1/4.", "quantifier": "all dimensions, grids, data, points, rounding functions with relative error u", "why_tests_cant": "Floating-point error is usually only checked with tolerances on a few examples.", "anchors": ["interpolation/splines/codegen.py: eval_template, eval_template_vectorized, get_code_spline, blending_formula, get_values, gen_trex", "interpolation/splines/eval_splines.py: eval_spline, eval_linear, eval_cubic, allocate_output"]}
{"id": "C79", "title": "Linear interpolation reproduces array-grid nodes exactly under rounding", "statement": "With rounded arithmetic, on grids whose axes are all given as arrays, eval_linear at a node returns exactly the stored number, in every mode.", "quantifier": "all dimensions, grids, data, nodes, roundings fixing 1", "why_tests_cant": "Bit-exactness at every node and rounding cannot be sampled.", "anchors": ["interpolation/splines/codegen.py: eval_template, eval_template_vectorized, get_code_spline, blending_formula, get_values, gen_trex", "interpolation/splines/eval_splines.py: eval_spline, eval_linear, eval_cubic, allocate_output"]}
{"id": "C80", "title": "Error bound of linear interpolation", "statement": "If the data sample a function f at the nodes, then in the box of the grid eval_linear differs from f by at most sum_i L_i H_i / 2 (f Lipschitz with constant L_i along axis i, H_i the largest spacing of axis i), and by at most sum_i M_i H_i^2 / 8 if the second derivative along axis i is bounded by M_i.", "quantifier": "all dimensions, grids, functions, points, call forms", "why_tests_cant": "A bound over all functions and grids cannot be sampled.", "anchors": ["interpolation/splines/codegen.py: eval_template, eval_template_vectorized, get_code_spline, blending_formula, get_values, gen_trex", "interpolation/splines/eval_splines.py: eval_spline, eval_linear, eval_cubic, allocate_output"]}
{"id": "C81", "title": "Linear interpolation converges uniformly", "statement": "For a continuous function on a box and every eps there is delta such that on every grid with spacings at most delta the interpolant is within eps of the function everywhere in the box.", "quantifier": "all continuous functions, grids, points", "why_tests_cant": "A limit statement.", "anchors": ["interpolation/splines/codegen.py: eval_template, eval_template_vectorized, get_code_spline, blending_formula, get_values, gen_trex", "interpolation/splines/eval_splines.py: eval_spline, eval_linear, eval_cubic, allocate_output"]}
{"id": "C82", "title": "chebyvalto evaluates Chebyshev polynomials", "statement": "chebyvalto(x, n, kind) returns T_1(x), ..., T_n(x) (U_1, ..., U_n for kind 2) side by side.", "quantifier": "all matrices x, all n", "why_tests_cant": "No test calls chebyvalto.", "anchors": ["interpolation/smolyak/grid.py: smol_inds, poly_inds, build_grid, build_B, a_chain, phi_chain, s_n, m_i, cheby2n, SmolyakGrid"]}
{"id": "C83", "title": "Units of the axes are irrelevant", "statement": "Replacing the nodes of axis i by s_i t + r_i with s_i > 0 and the points likewise leaves the values of eval_linear and eval_cubic unchanged, in every mode.", "quantifier": "all grids, coefficients, points, scalings", "why_tests_cant": "A relation between runs on different grids.", "anchors": ["interpolation/splines/codegen.py: eval_template, eval_template_vectorized, get_code_spline, blending_formula, get_values, gen_trex", "interpolation/splines/eval_splines.py: eval_spline, eval_linear, eval_cubic, allocate_output"]}
{"id": "C84", "title": "Linear interpolation commutes with reversing axes", "statement": "Replacing the nodes of some axes by their opposites in increasing order, reversing the data along these axes and negating these coordinates leaves the values of eval_linear unchanged, in every mode.", "quantifier": "all grids, data, points, sets of axes", "why_tests_cant": "A relation between runs on different grids.", "anchors": ["interpolation/splines/codegen.py: eval_template, eval_template_vectorized, get_code_spline, blending_formula, get_values, gen_trex", "interpolation/splines/eval_splines.py: eval_spline, eval_linear, eval_cubic, allocate_output"]}
{"id": "C85", "title": "Numbering of the axes is irrelevant", "statement": "Renumbering axes, axes of the coefficients, coordinates and derivative orders by the same permutation leaves the results of eval_linear and eval_cubic unchanged.", "quantifier": "all permutations, dimensions, grids, coefficients, points, derivative orders", "why_tests_cant": "A relation between generated programs for different axis kinds.", "anchors": ["interpolation/splines/codegen.py: eval_template, eval_template_vectorized, get_code_spline, blending_formula, get_values, gen_trex", "interpolation/splines/eval_splines.py: eval_spline, eval_linear, eval_cubic, allocate_output"]}
{"id": "C86", "title": "Wrongly sized bounds raise IndexError", "statement": "mlinspace, the grid of the linear classes and the grid tuple of the cubic classes raise IndexError when there are too few bounds; mlinspace raises ValueError on a negative number of nodes.", "quantifier": "all sizes", "why_tests_cant": "Error paths are not tested.", "anchors": ["interpolation/cartesian.py: cartesian, mlinspace, _repeat_1d", "interpolation/splines/splines.py: CubicSpline, CubicSplines", "interpolation/splines/multilinear.py: LinearSpline, LinearSplines"]}
{"id": "C87", "title": "Cubic interpolation is stable", "statement": "Changing the data by at most eps changes the filtered cubic spline by at most (5/2)^d eps in the box of the grid, whatever the number of nodes and the spacing; in particular data bounded by B give values bounded by (5/2)^d B.", "quantifier": "all uniform grids in dimension 1 to 4, data, points, ways of filtering", "why_tests_cant": "A bound uniform in the number of nodes.", "anchors": ["interpolation/splines/codegen.py: eval_template, eval_template_vectorized, get_code_spline, blending_formula, get_values, gen_trex", "interpolation/splines/eval_splines.py: eval_spline, eval_linear, eval_cubic, allocate_output", "interpolation/cartesian.py: cartesian, mlinspace, _repeat_1d"]}
{"id": "C88", "title": "Error of cubic interpolation", "statement": "If the data sample f at the nodes, then in the box the filtered spline differs from f by at most sum_i (5/2)^i M_i H_i^2 / 2 when the second derivative along axis i is bounded by M_i (spacing H_i), and by at most sum_i (5/2)^i 5/4 L_i H_i when f is Lipschitz.", "quantifier": "all uniform grids, functions, points", "why_tests_cant": "A bound over all functions and grids cannot be sampled.", "anchors": ["interpolation/splines/codegen.py: eval_template, eval_template_vectorized, get_code_spline, blending_formula, get_values, gen_trex", "interpolation/splines/eval_splines.py: eval_spline, eval_linear, eval_cubic, allocate_output", "interpolation/cartesian.py: cartesian, mlinspace, _repeat_1d"]}
{"id": "C89", "title": "Cubic interpolation converges uniformly", "statement": "For a continuous function on a box and every eps there is delta such that on every uniform grid with spacings at most delta the filtered spline is within eps of the function everywhere in the box.", "quantifier": "all continuous functions, grids, points", "why_tests_cant": "A limit statement.", "anchors": ["interpolation/splines/codegen.py: eval_template, eval_template_vectorized, get_code_spline, blending_formula, get_values, gen_trex", "interpolation/splines/eval_splines.py: eval_spline, eval_linear, eval_cubic, allocate_output", "interpolation/cartesian.py: cartesian, mlinspace, _repeat_1d"]}
{"id": "C90", "title": "Cubic interpolation is of fourth order", "statement": "If the second derivative of f along every axis vanishes at both ends and the fourth derivative along axis i is bounded by M_i, the filtered spline differs from f by at most sum_i (5/2)^i 7/64 M_i H_i^4.", "quantifier": "all uniform grids, functions, points", "why_tests_cant": "The order of convergence is a statement about all grids.", "anchors": ["interpolation/splines/codegen.py: eval_template, eval_template_vectorized, get_code_spline, blending_formula, get_values, gen_trex", "interpolation/splines/eval_splines.py: eval_spline, eval_linear, eval_cubic, allocate_output", "interpolation/cartesian.py: cartesian, mlinspace, _repeat_1d"]}
{"id": "C91", "title": "The generated text spells the modelled program", "statement": "For every configuration the source text that get_code_spline makes from its templates has, up to blank lines and comments, exactly the lines of the statements of the modelled program; where one raises an exception the other raises the same exception.", "quantifier": "all dimensions, orders, axis kinds, modes, derivative lists", "why_tests_cant": "The number of generated programs is infinite.", "anchors": ["interpolation/splines/codegen.py: eval_template, eval_template_vectorized, get_code_spline, blending_formula, get_values, gen_trex", "interpolation/tempita/__init__.py: lex, trim_lex, parse, Template.substitute"]}
{"id": "C92", "title": "The template engine means what its text says", "statement": "For every text: tokenising cuts it exactly into text and directives with right positions, or reports the unclosed delimiter; trimming only removes white space of lines holding a lone statement; parsing ends, and reports errors just after a delimiter; and a text written like an abstract template tree produces what its texts, expressions, conditions and loops denote.", "quantifier": "all template texts, trees, namespaces", "why_tests_cant": "Template texts are unbounded; the generated code is only as good as the engine.", "anchors": ["interpolation/tempita/__init__.py: lex, trim_lex, parse, Template._interpret_codes"]}
{"id": "C93", "title": "The template loop helper counts positions", "statement": "Iterating a looper over a list yields each element with its index, number, parity, first, last, previous and next; first_group and last_group mark exactly the changes of the grouping key.", "quantifier": "all lists, keys", "why_tests_cant": "Positions in lists of any length.", "anchors": ["interpolation/tempita/_looper.py: looper, loop_pos"]}
{"id": "C94", "title": "Extrapolation option objects select the documented behaviour", "statement": "eval_linear and eval_cubic with no option or LINEAR give the same values E; with NEAREST E at the projection on the box; with CONSTANT E in the box and zero outside; allocated, with out=None or in place; any other trailing arguments are refused.", "quantifier": "all grids, data, points, ways of passing the option", "why_tests_cant": "Overload resolution times modes times points.", "anchors": ["interpolation/splines/eval_splines.py: eval_spline, eval_linear, eval_cubic, allocate_output", "interpolation/splines/codegen.py: eval_template, eval_template_vectorized, get_code_spline, blending_formula, get_values, gen_trex"]}
{"id": "C95", "title": "A CompletePolynomial object is a family of polynomials", "statement": "An object of degree d with coefficients of the right size stands for one polynomial of total degree at most d per column: called at one point or a list of points it gives their values, and der gives the values of their formal partial derivatives; every family of such polynomials is represented; without coefficients or with a wrong number of variables it raises AttributeError or ValueError.", "quantifier": "all numbers of variables, degrees up to 5, coefficients, points, polynomials", "why_tests_cant": "Polynomials over an infinite field.", "anchors": ["interpolation/complete_poly.py: CompletePolynomial"]}
{"id": "C96", "title": "Wrong calls raise the documented kind of exception", "statement": "UCGrid and CGrid stop at the first invalid axis; interp, mlinterp, the cubic filter, complete polynomials, B-splines and spline objects without values refuse meaningless arguments, each with one definite kind of exception.", "quantifier": "all argument lists", "why_tests_cant": "The wrong calls are infinitely many.", "anchors": ["interpolation/cartesian.py: cartesian, mlinspace, _repeat_1d", "interpolation/multilinear/mlinterp.py: interp, mlinterp, detect_types", "interpolation/splines/splines.py: CubicSpline, CubicSplines", "interpolation/splines/multilinear.py: LinearSpline, LinearSplines", "interpolation/splines/prefilter_cubic.py: filter_cubic, prefilter", "interpolation/splines/basis_splines.py: B"]}
{"id": "C97", "title": "Executing the generated text gives the results of eval_spline", "statement": "The source text that the templates give for a call is a program of a small part of Python, with a grammar and a meaning defined without reference to the code generator. Executed with the arguments of the call and the global names of the code, it gives what the model of eval_spline gives: the returned value, the contents of an output array, division by zero, indices out of bounds.", "quantifier": "all grids, coefficients, points, output arrays, orders of derivatives, modes, kinds of arithmetic", "why_tests_cant": "Infinitely many texts, each with infinitely many arguments.", "anchors": ["interpolation/splines/codegen.py: eval_template, eval_template_vectorized, get_code_spline, blending_formula, get_values, gen_trex", "interpolation/splines/eval_splines.py: eval_spline, eval_linear, eval_cubic, allocate_output", "interpolation/tempita/__init__.py: lex, trim_lex, parse, Template.substitute"]}
{"id": "C98", "title": "Executing the texts of fungen.py and make_mlinterp gives the results of interp and mlinterp", "statement": "The one-line functions written for fmap, funzip, get_coeffs, tensor_reduction, extract_row and project map, transpose, read the corners, combine them, read a row and clamp; composed as in mlinterp they give its value. The function written by make_mlinterp, executed with the arguments of interp, gives the result of interp for all ways of giving points, in particular the stored values at the nodes.", "quantifier": "all numbers of axes, kinds of axes, data, points, ways of giving points, kinds of arithmetic", "why_tests_cant": "One text per number of axes and per signature, each with infinitely many arguments.", "anchors": ["interpolation/multilinear/fungen.py: _map, ol_funzip, ol_get_coeffs, gen_tensor_reduction, ol_extract_row, ol_project", "interpolation/multilinear/mlinterp.py: make_mlinterp, interp, mlinterp"]}
{"id": "C99", "title": "Splines bend least", "statement": "Among all twice continuously differentiable functions with the given values at the nodes, the filtered cubic spline of one variable is the one with the least square integral of the second derivative, and the only one; among the continuously differentiable functions, the linear spline has the least square integral of the slope, and is the only one.", "quantifier": "all data, uniform grids (cubic), all grids (linear), all competing functions", "why_tests_cant": "Competing functions form an infinite-dimensional space.", "anchors": ["interpolation/splines/prefilter_cubic.py: filter_cubic, prefilter", "interpolation/splines/eval_splines.py: eval_spline, eval_linear, eval_cubic, allocate_output"]}
{"id": "C100", "title": "Hermite interpolation is continuously differentiable and of fourth order", "statement": "The interpolant is continuous everywhere and continuously differentiable between the first and the last abscissa; if the values and tangents are those of a function whose fourth derivative is bounded by M and the abscissae are at most h apart, the error is at most M h^4 / 384.", "quantifier": "all abscissae, values, tangents, functions, points", "why_tests_cant": "Functions and points are infinitely many.", "anchors": ["interpolation/splines/hermite.py: hermite, HermiteInterpolation, hermite_interp"]}
{"id": "C101", "title": "Hermite interpolation of monotone data is monotone", "statement": "If the tangents are nonnegative and at most three times the slopes of the neighbouring chords, the interpolant is nondecreasing on the whole line.", "quantifier": "all abscissae, values, tangents, pairs of points", "why_tests_cant": "Pairs of points are infinitely many.", "anchors": ["interpolation/splines/hermite.py: hermite, HermiteInterpolation, hermite_interp"]}
{"id": "C102", "title": "The cubic filter is accurate under rounding, whatever the number of nodes", "statement": "With every operation rounded with relative error u, filtering never fails on valid grids, and the computed coefficients differ from those of exact arithmetic by at most ((5 + 540 u)^d - 5^d) max|data| in dimension d; the bound does not grow with the number of nodes.", "quantifier": "all grids, data, dimensions, ways of filtering, rounding functions with relative error u <= 1/1000", "why_tests_cant": "The number of nodes, the data and the rounding function are unbounded.", "anchors": ["interpolation/splines/prefilter_cubic.py: filter_cubic, prefilter"]}
{"id": "C103", "title": "Cubic interpolation is accurate under rounding", "statement": "With every operation rounded, the values of a cubic spline with given coefficients, on the grid and in modes nearest and constant, differ from those of exact arithmetic by at most (prod(1 + 90 n_i u) - 1) max|coefficients|; filtering and evaluating together give the exact interpolant up to (prod((1 + 90 n_i u)(5 + 540 u)) - 5^d) max|data|.", "quantifier": "all uniform grids, coefficients or data, points, modes, rounding functions", "why_tests_cant": "Data, points and rounding functions are infinitely many.", "anchors": ["interpolation/splines/eval_splines.py: eval_spline, eval_linear, eval_cubic, allocate_output", "interpolation/splines/codegen.py: eval_template, eval_template_vectorized, get_code_spline, blending_formula, get_values, gen_trex", "interpolation/splines/prefilter_cubic.py: filter_cubic, prefilter"]}
{"id": "C104", "title": "Cubic splines are local up to an exponentially small remainder", "statement": "Two sets of data that agree at all nodes closer than R cells to a point, and differ by at most eps elsewhere, give filtered splines that differ there by at most d (5/2)^(d-1) 15/2 rho^R eps, for every rho with rho (4 - rho) >= 1 (rho = 2 - sqrt 3 is the smallest); changing one node, r_i cells away along axis i, changes the value by at most prod(15/2 rho^r_i) eps.", "quantifier": "all uniform grids, data, dimensions, points, distances", "why_tests_cant": "Data, points and numbers of nodes are unbounded.", "anchors": ["interpolation/splines/prefilter_cubic.py: filter_cubic, prefilter", "interpolation/splines/eval_splines.py: eval_spline, eval_linear, eval_cubic, allocate_output"]}
{"id": "C105", "title": "Cubic splines are of fourth order away from the boundary", "statement": "Whatever the second derivative of the interpolated function at the ends of the grid (bounded by B_i), at a point k_i cells away from both ends of axis i the error is at most sum (5/2)^i (7/64 M_i H_i^4 + B_i H_i^2 (2 - sqrt 3)^k_i), where M_i bounds the fourth derivative and H_i the spacing.", "quantifier": "all uniform grids, functions with a bounded fourth derivative, dimensions, points", "why_tests_cant": "Functions and points are infinitely many.", "anchors": ["interpolation/splines/prefilter_cubic.py: filter_cubic, prefilter", "interpolation/splines/eval_splines.py: eval_spline, eval_linear, eval_cubic, allocate_output"]}
{"id": "C106", "title": "interp and mlinterp are accurate under rounding", "statement": "With every operation rounded with relative error u, mlinterp at every point of the grid, and interp at every point, differ from exact arithmetic by at most (prod(1 + e_i) - 1) max|data|, with e_i = 13 n_i u for a uniform axis and 13 u for an axis given by an array, however they are called.", "quantifier": "all grids, data, points, rounding functions", "why_tests_cant": "Data, points and rounding functions are infinitely many.", "anchors": ["interpolation/multilinear/mlinterp.py: interp, mlinterp, detect_types, make_mlinterp", "interpolation/multilinear/fungen.py: get_index, project, get_coeffs, tensor_reduction, clamp"]}
{"id": "C107", "title": "interp and mlinterp are exact at the nodes of arrays under rounding, and agree with eval_linear", "statement": "With rounding, on axes given as arrays, interp and mlinterp return exactly the stored number at every node; at every point mlinterp returns exactly what eval_linear returns by default, and interp what it returns in mode nearest.", "quantifier": "all grids of arrays, data, nodes, points, rounding functions", "why_tests_cant": "Grids, data and rounding functions are infinitely many.", "anchors": ["interpolation/multilinear/mlinterp.py: interp, mlinterp, detect_types, make_mlinterp", "interpolation/multilinear/fungen.py: get_index, project, get_coeffs, tensor_reduction, clamp", "interpolation/splines/eval_splines.py: eval_spline, eval_linear, eval_cubic, allocate_output"]}
{"id": "C108", "title": "The text of hermite.py computes what the model says", "statement": "The source text of hermite.py, character for character, parsed and executed as Python: hermite_splines, hermite_interp, HermiteInterpolation, HermiteInterpolationVect and hermite (number, vector, matrix) return what the model returns, raise what it raises, and change no array.", "quantifier": "all arithmetics in which literals are what they should be, all arrays, points, heaps, numbers of permitted calls", "why_tests_cant": "Arrays and heaps are unbounded.", "anchors": ["interpolation/splines/hermite.py: hermite_splines, hermite_interp, HermiteInterpolation, HermiteInterpolationVect, ol_hermite"]}
{"id": "C109", "title": "The text of prefilter_cubic.py computes what the model says", "statement": "The source text of solve_deriv_interp_1d, find_coefs_1d and both implementations of _filter_cubic, character for character, parsed and executed as Python: in place, for grids of one to four axes (tuples or arrays) and data with any number of extra dimensions, C gets the values of the model; allocating, for any grid and data, the result is a new array with the values of the model. Otherwise the same exception is raised; no other array is changed. Hence the coefficients that the text computes interpolate the data.", "quantifier": "all arithmetics in which literals are what they should be and 3 and 6 are not zero, all grids, arrays, heaps, numbers of permitted calls", "why_tests_cant": "Arrays and heaps are unbounded.", "anchors": ["interpolation/splines/prefilter_cubic.py: solve_deriv_interp_1d, find_coefs_1d, __filter_cubic"]}
{"id": "C110", "title": "The text of basis_splines.py computes what the model says", "statement": "The source text of B0 and B, character for character, parsed and executed as Python: the results and exceptions are those of the model, with p + 2 nested calls; with a negative degree no number of nested calls gives a result. Hence in exact arithmetic and for increasing knots the numbers that the text computes are non-negative, zero outside of the knots of the function, and add up to one.", "quantifier": "all arithmetics in which literals are what they should be, all degrees, lists of knots, indices, points, numbers of permitted calls", "why_tests_cant": "Degrees and lists of knots are unbounded.", "anchors": ["interpolation/splines/basis_splines.py: B0, B"]}
{"id": "C111", "title": "The text of complete_poly.py computes what the model says", "statement": "The source text of n_complete, complete_polynomial, complete_polynomial_der and of their four inner functions, character for character, parsed and executed as Python: for arrays with any number of dimensions and any integers d and der the result is a new array with the entries of the model, or the same exception is raised; no other array is changed. Hence the rows that the text computes are the monomials of total degree at most d, each exactly once, and the rows of complete_polynomial_der are their derivatives.", "quantifier": "all arithmetics in which literals are what they should be and powers are products, all arrays, degrees, derivative indices, heaps, numbers of permitted calls", "why_tests_cant": "Arrays, numbers of variables and heaps are unbounded.", "anchors": ["interpolation/complete_poly.py: n_complete, complete_polynomial, _complete_poly_impl_vec, _complete_poly_impl, complete_polynomial_der, _complete_poly_der_impl_vec, _complete_poly_der_impl"]}
{"id": "C112", "title": "The text of eval_cubic_numba.py computes what the model says", "statement": "The source text of the twenty functions of eval_cubic_numba.py (one to four dimensions; one or several splines; one or several points; with gradients) and of the constants outside functions, character for character, parsed and executed as Python: the returned number, or the contents of out, vals and dvals, are those of the model, or the same exception is raised; no other array is changed. Hence on the reals the text of the gradient functions leaves in vals the values of the spline and in dvals, at points within the grid, its partial derivatives.", "quantifier": "all arithmetics in which literals are what they should be and 6 is not zero, all grids, coefficient arrays, points, output arrays, heaps, numbers of permitted calls", "why_tests_cant": "Arrays, points and heaps are unbounded; the functions are five thousand generated lines, so a wrong index or a wrong weight in one term can go unnoticed.", "anchors": ["interpolation/splines/eval_cubic_numba.py: Ad, dAd, eval_cubic_spline_1, vec_eval_cubic_spline_1, eval_cubic_splines_1, vec_eval_cubic_splines_1, vec_eval_cubic_splines_G_1, ..., vec_eval_cubic_splines_G_4"]}
{"id": "C113", "title": "The text of filter_cubic.py computes what the model says", "statement": "The source text of solve_deriv_interp_1d, find_coefs_1d, filter_coeffs_1d to filter_coeffs_4d, filter_data, filter_coeffs and filter_mcoeffs, character for character, parsed and executed as Python: the results are new arrays with the values of the model (None for other numbers of dimensions), or the same exception is raised; no other array is changed. Hence, for data on a uniform grid of one to four dimensions, the text of filter_coeffs and the text of _filter_cubic in prefilter_cubic.py return equal coefficients, and these interpolate the data.", "quantifier": "all arithmetics in which literals are what they should be and 3 and 6 are not zero, all bounds, orders, data, heaps, numbers of permitted calls", "why_tests_cant": "Arrays and heaps are unbounded; two modules are compared on all inputs.", "anchors": ["interpolation/splines/filter_cubic.py: solve_deriv_interp_1d, find_coefs_1d, filter_coeffs_1d, filter_coeffs_2d, filter_coeffs_3d, filter_coeffs_4d, filter_coeffs, filter_mcoeffs, filter_data"]}
{"id": "C114", "title": "The text of cartesian.py computes what the model says", "statement": "The source text of cartesian, mlinspace and _repeat_1d, character for character, parsed and executed as Python: the result is a new array with the values of the model, or the same exception is raised; no other array is changed. Hence the rows computed by the text of cartesian are all combinations of the nodes, each once when no axis has a node twice, and the rows computed by the text of mlinspace are the points of the regular grid in row-major order.", "quantifier": "all arithmetics, lists or tuples of lists, tuples or vectors, orders, bounds, numbers of nodes (also negative), heaps, numbers of permitted calls", "why_tests_cant": "The number of axes and of nodes is unbounded; the statement is about the text of the program.", "anchors": ["interpolation/cartesian.py: cartesian, mlinspace, _repeat_1d"]}
{"id": "C115", "title": "The text of five functions of the Smolyak package computes what the model says", "statement": "The source text of permute, num_grid_points, m_i, cheby2n and phi_chain, character for character, parsed and executed as Python: the result is that of the model, with the same exceptions. Hence the text of permute yields every rearrangement of a list of at least two elements exactly once and in lexicographic order, the text of num_grid_points returns the number of rows of the grid for levels 1, 2 and 3, and row k of the array that the text of cheby2n returns holds the values of the k-th Chebyshev polynomial.", "quantifier": "all lists of integers or numbers, levels, dimensions, arrays of at least one dimension, degrees from 1, heaps; enough permitted passes of a while loop", "why_tests_cant": "The number of rearrangements grows like a factorial, the shapes and degrees are unbounded; the statement is about the text of the program.", "anchors": ["interpolation/smolyak/util.py: permute", "interpolation/smolyak/grid.py: num_grid_points, m_i, cheby2n, phi_chain"]}
{"id": "C116", "title": "From the data to the values, text by text: the texts of the filter and of the evaluation together interpolate", "statement": "The source text of filter_coeffs is executed on data on a uniform grid of one to four dimensions, then the source text of eval_cubic_spline_d or vec_eval_cubic_spline_d on the coefficients that it returns, with any other arrays in memory. This never fails, changes nothing but the output array, and computes one function of the point: it takes the value of the datum at every node; for the values of a function that is affine in each variable it is that function everywhere; over the reals it is continuously differentiable, differs from a function with bounded second derivatives by at most a constant times the square of the distance of the nodes, from one with bounded fourth derivatives and natural end conditions by at most a constant times the fourth power, and converges to every continuous function. For vector-valued data, the texts of filter_mcoeffs and vec_eval_cubic_splines_G_d write these values for every component and, at points within the grid, their partial derivatives.", "quantifier": "all grids with at least two nodes per axis, data, points, heaps; exact arithmetic in an ordered field, the reals for the analytic parts", "why_tests_cant": "The grids, data and points are infinitely many and the statements about derivatives, orders of approximation and limits cannot be observed in finitely many runs.", "anchors": ["interpolation/splines/filter_cubic.py: filter_coeffs, filter_mcoeffs", "interpolation/splines/eval_cubic_numba.py: eval_cubic_spline_1, vec_eval_cubic_spline_1, vec_eval_cubic_splines_G_1, ..., vec_eval_cubic_splines_G_4"]}
{"id": "C117", "title": "The source texts of the Smolyak grid compute what the model says", "statement": "Executing the source texts of smol_inds, poly_inds, s_n, a_chain and build_grid of smolyak/grid.py, together with the texts that they call, gives the lists, dictionaries and arrays of the model, or the same exception. Hence, what these texts return: smol_inds lists every admissible index vector exactly once; s_n returns the Chebyshev extrema (up to level 49); the rows of the array of build_grid lie in the cube [-1, 1]^d, are pairwise distinct (for mu up to 48), and their number is the one that the text of num_grid_points returns, for mu 1, 2, 3. Arrays that existed before are not changed.", "quantifier": "all dimensions, levels of accuracy (one integer, or one per dimension), heaps; any arithmetic for the index sets, exact arithmetic for the nodes, the reals for what the nodes are", "why_tests_cant": "The model was written by hand; only a proof that quantifies over all arguments excludes a difference between the text and the model.", "anchors": ["interpolation/smolyak/grid.py: smol_inds, poly_inds, s_n, a_chain, build_grid", "interpolation/smolyak/util.py: permute"]}
{"id": "C118", "title": "The source text of build_B computes the matrix of basis functions, and the matrix at the grid of build_grid is invertible", "statement": "Executing the source text of build_B of smolyak/grid.py (without derivatives), together with the texts that it calls, returns a new array with the shape and the entries of the model, whenever the model returns; other arrays are not changed. Over the reals its entry for a point and a basis function is the product of the Chebyshev polynomials of the degrees of the basis function at the coordinates of the point, and no two basis functions have the same degrees. Run on the array that the text of build_grid returned, it gives a square matrix with nonzero determinant (mu up to 48), so that for any values at the grid points there is exactly one choice of coefficients that reproduces them.", "quantifier": "all dimensions, levels of accuracy (one integer, or one per dimension), points, lists of basis functions, heaps; exact arithmetic for the equality with the model, the reals for what the entries are", "why_tests_cant": "The model was written by hand; only a proof that quantifies over all arguments excludes a difference between the text and the model, and no finite number of grids shows that every one is unisolvent.", "anchors": ["interpolation/smolyak/grid.py: build_B, cheby2n, m_i, smol_inds, poly_inds, build_grid"]}
{"id": "C119", "title": "The source text of build_B with deriv=True computes the partial derivatives of the basis functions", "statement": "Executing the source text of build_B of smolyak/grid.py with deriv=True, together with the texts that it calls, returns two new arrays with the shapes and the entries of the model, whenever the model returns; other arrays are not changed. Over the reals, the first is the matrix of the products of Chebyshev polynomials at the points, and entry (j, m, i) of the second is the partial derivative of the basis function number j with respect to the variable number m at the point number i.", "quantifier": "all dimensions from 2 (from 1 for the equality with the model), levels of accuracy, points, lists of basis functions, heaps; exact arithmetic for the equality with the model, the reals for what the entries are", "why_tests_cant": "The tests compare derivatives with finite differences at a few points; the recurrence for the polynomials of the second kind, the shift by one and the factor i are right for all degrees only by proof.", "anchors": ["interpolation/smolyak/grid.py: build_B, cheby2n, m_i, smol_inds, poly_inds"]}
{"id": "C120", "title": "From the data to the values with the texts in current use: the text of the filter and the generated text of the evaluation together interpolate", "statement": "Executing the source text of _filter_cubic of prefilter_cubic.py on the data, then the text that codegen.py generates for eval_spline of order 3 on the coefficients that it returned, computes a function of the points, the same for one point given as a tuple or as an array and for a matrix of points. In every mode its value at a node is the datum. In mode linear it is the function that the texts of filter_cubic.py and eval_cubic_numba.py compute from the same data: multi-affine functions are reproduced everywhere, the error is of second order, or fourth order under natural conditions, it converges for continuous functions and is continuously differentiable; the text generated for the orders of a gradient returns its partial derivatives at every point. In mode nearest the value is the one at the closest point of the grid, in mode constant it is zero outside the grid.", "quantifier": "uniform grids of one to four dimensions with at least two nodes per axis, scalar data, all points; ordered fields with floor, the reals for errors and derivatives", "why_tests_cant": "The tests filter one function on one grid and compare a few values; that three separately written and generated programs compute the same function, with these properties, cannot be seen from samples.", "anchors": ["interpolation/splines/prefilter_cubic.py: _filter_cubic; interpolation/splines/codegen.py: get_code_spline; interpolation/splines/eval_splines.py: eval_spline; interpolation/splines/filter_cubic.py; interpolation/splines/eval_cubic_numba.py"]}
{"id": "C121", "title": "The text of hermite computes a continuously differentiable function with the given values and slopes", "statement": "Executing the source text of hermite of hermite.py, with the texts that it calls, computes a function of the point, the same for a number and for the entries of a vector. It has the given values and slopes at the nodes, is constant before the first node and after the last one, is continuous everywhere and continuously differentiable between the first node and the last one, reproduces cubic polynomials there, has an error of at most M h^4 / 384 for functions with fourth derivatives bounded by M, and is monotone if the slopes are nonnegative and at most three times the secant slopes.", "quantifier": "all increasing lists of at least two nodes, values, slopes, points, heaps; ordered fields with floor, the reals for derivatives and errors", "why_tests_cant": "Tests compare a few values with another implementation; these are properties of the text at all points.", "anchors": ["interpolation/splines/hermite.py: hermite, HermiteInterpolation, HermiteInterpolationVect, hermite_interp, hermite_splines"]}
{"id": "C122", "title": "complete_polynomial keeps a small relative error in rounded arithmetic", "statement": "If every product is rounded with relative error at most u, each entry of complete_polynomial(z, d) differs from its monomial by at most a relative error (1+u)^(k-1) - 1, where k is the degree of the monomial; the constant and the variables are exact and a monomial that is zero is computed as zero. With doubles the relative error of every entry is below 2^-50. Each entry of complete_polynomial_der(z, d, der) has a relative error of at most (1+u)^(2d) - 1.", "quantifier": "all rounding rules of the standard model, numbers of variables and of observations, degrees up to 5, arguments without overflow or underflow", "why_tests_cant": "Tests compare with tolerances at a few arguments; a bound for the relative error of all entries at all arguments, however large or small, cannot be sampled.", "anchors": ["interpolation/complete_poly.py: complete_polynomial, complete_polynomial_der, _complete_poly_impl_vec, _complete_poly_impl, _complete_poly_der_impl_vec, _complete_poly_der_impl"]}
{"id": "C123", "title": "hermite is accurate in rounded arithmetic", "statement": "For strictly increasing nodes, hermite computed with operations of relative error at most u <= 1/1000 always returns a number, and it differs from the number computed in exact arithmetic by at most u (120 P + 70 M), where P bounds the values and M the tangents times the widths of the neighbouring cells. The bound depends neither on the number of nodes nor on how close they are. The same holds for the entries of a vector of points. At and beyond the first and the last node no rounding is made.", "quantifier": "all rounding rules of the standard model with u <= 1/1000, lists of nodes, values, tangents, points", "why_tests_cant": "Tests use a few well-separated nodes and a tolerance; the bound holds also for nodes that are almost equal and far from the origin.", "anchors": ["interpolation/splines/hermite.py: hermite, HermiteInterpolation, HermiteInterpolationVect, hermite_interp, hermite_splines"]}
{"id": "C124", "title": "The B-splines keep a small relative error in rounded arithmetic", "statement": "For strictly increasing knots, B(p, u, i, x) computed with operations of relative error at most u <= 1/100 always returns a number, and its relative error is at most (1+6u)^p - 1 at every point: neither close knots nor points near the ends of the support spoil it. In particular it is exactly zero outside the support. Inside the range of the knots the computed B-splines of degree p add up to one up to (1+6u)^p - 1, and none is negative if this is at most one.", "quantifier": "all rounding rules of the standard model with u <= 1/100, degrees, strictly increasing lists of knots, indices in range, points", "why_tests_cant": "Tests use a few evenly spaced knots and an absolute tolerance; a relative bound for all knots and points, also where the value is tiny, cannot be sampled.", "anchors": ["interpolation/splines/basis_splines.py: B, B0"]}
{"id": "C125", "title": "cheby2n and build_B are accurate in rounded arithmetic", "statement": "At every point of [-1, 1], row k of cheby2n(x, n) computed with operations of relative error at most u differs from the Chebyshev polynomial T_k by at most 4 k (k+1) u, as long as 40 k (k+1) u <= 1: the recursion amplifies errors at most quadratically, not exponentially. For the second kind the bound is 4 k (k+1)^2 u. The entries of build_B(d, mu, pts) with all levels at most m, at points of the cube, differ from the entries in exact arithmetic by at most ((1 + 4 2^m (2^m+1) u)(1+u))^d - 1.", "quantifier": "all rounding rules of the standard model with u <= 1/100, arrays of points, degrees, dimensions, levels with 40 2^m (2^m+1) u <= 1", "why_tests_cant": "Tests compare a few low degrees at a few points; that the recursion stays accurate for high degrees at all points, also near the ends of the interval, cannot be sampled.", "anchors": ["interpolation/smolyak/grid.py: cheby2n, build_B"]}
{"id": "C126", "title": "The nodes of s_n and the Smolyak grid are accurate in rounded arithmetic", "statement": "With operations of relative error at most u <= 2^-52, a cosine of absolute error at most 2u and a relative error u of pi, every entry of s_n(n) for 2 <= n <= 47 is within 21u of the extremum of the Chebyshev polynomial; the middle entry is exactly zero (this is what the threshold 1e-14 is for) and no other entry is. The grid of build_grid(d, mu) with levels up to 46 has the shape of the exact grid and every coordinate is within 21u of the exact one. While 21 u 4^m < 1, m the greatest level, the computed nodes are strictly increasing and the computed grid points are distinct.", "quantifier": "all rounding rules of the standard model with u <= 2^-52, all functions cos within the error bound, dimensions from 2, isotropic and anisotropic levels", "why_tests_cant": "Tests compare a few grids with stored numbers; which levels are safe from the threshold and from rounding cannot be found by sampling small levels.", "anchors": ["interpolation/smolyak/grid.py: s_n, a_chain, build_grid"]}
{"id": "C127", "title": "SmolyakInterp.interpolate is accurate in rounded arithmetic", "statement": "For a SmolyakGrid that was constructed, any coefficients theta and any point of the domain, the value computed by interpolate with operations of relative error at most u differs from the exact value with the same coefficients by at most (((1 + e)(1+u))^d (1+u)^(N+1) - 1) times the sum of the absolute values of theta, where e = (13 + 3k) u 2^m (2^m+1), m bounds the levels, k bounds the midpoints of the domain relative to its half-widths and N is the number of coefficients. This includes the errors of the map of the domain to the cube, which may put points slightly outside of it, of the Chebyshev recursion, of the products and of the sum.", "quantifier": "all rounding rules of the standard model, dimensions, isotropic and anisotropic levels, domains, coefficients, points of the domain, with 12 (13 + 3k) u 2^m (2^m+1) <= 1", "why_tests_cant": "Tests check a few smooth functions with a tolerance; how the error depends on the level, on the position of the domain and on the coefficients cannot be sampled.", "anchors": ["interpolation/smolyak/interp.py: SmolyakInterp.interpolate; interpolation/smolyak/grid.py: SmolyakGrid, dom2cube, build_B, cheby2n"]}
{"id": "C128", "title": "A CompletePolynomial is evaluated accurately in rounded arithmetic", "statement": "The value computed by CompletePolynomial.__call__ with operations of relative error at most u differs from the exact value of the polynomial with the same coefficients by at most (1+u)^(N + max(d,1)) - 1 times the sum of the absolute values of its terms; the partial derivative computed by der by at most (1+u)^(N + 2d + 1) - 1 times the sum of the absolute values of the terms of the exact partial derivative. N is the number of coefficients. This holds for matrices of points, for single points and for any number of outputs.", "quantifier": "all rounding rules of the standard model, numbers of variables, degrees d <= 5, coefficients, points, variables of differentiation", "why_tests_cant": "Tests compare with a tolerance on a few polynomials; how the error depends on the degree and on cancellation between the terms cannot be sampled.", "anchors": ["interpolation/complete_poly.py: CompletePolynomial, complete_polynomial, complete_polynomial_der"]}
{"id": "C129", "title": "The gradient of a Smolyak interpolant is accurate in rounded arithmetic", "statement": "For a SmolyakGrid that was constructed, any coefficients theta of one output and any point of the domain, the gradient computed by interpolate(deriv=True) with operations of relative error at most u differs from the exact gradient with the same coefficients by at most (((1 + e)(1+u)^2)^d (1+u)^(N+5) - 1) times 4^m 2/(ub - lb) times the sum of the absolute values of theta, where e = (13 + 3k) u 2^m (2^m+1), m bounds the levels, k bounds the midpoints of the domain relative to its half-widths and N is the number of coefficients. The factor 4^m is the greatest slope of the polynomials.", "quantifier": "all rounding rules of the standard model, dimensions, isotropic and anisotropic levels, domains, coefficients, points of the domain, variables, with 12 (13 + 3k) u 2^m (2^m+1) <= 1", "why_tests_cant": "Tests compare with the known gradient of one function with a tolerance; how the error depends on the level, on the domain and on the coefficients cannot be sampled.", "anchors": ["interpolation/smolyak/interp.py: SmolyakInterp.interpolate; interpolation/smolyak/grid.py: dom2cube, build_B, cheby2n"]}
{"id": "C130", "title": "Smolyak interpolation reproduces the data in rounded arithmetic", "statement": "For a SmolyakGrid that was constructed and any coefficients theta, interpolate at the stored grid returns, with operations of relative error at most u and a cos with values in [-1, 1]. At every grid point and for every output, the value differs from the data f by at most rho + 2 (((1 + e)(1+u))^d (1+u)^(N+1) - 1) times the sum of the absolute values of theta, where rho bounds the residual of B theta = f at that point for the stored matrix B, e = (13 + 3k) u 2^m (2^m+1), m bounds the levels, k bounds the midpoints of the domain relative to its half-widths and N is the number of coefficients. Mapping the grid to the domain and back costs no more than that.", "quantifier": "all rounding rules of the standard model, cosines with values in [-1, 1], linear solvers with any residual, dimensions, isotropic and anisotropic levels, domains, data and coefficients with any number of outputs, grid points, with 12 (13 + 3k) u 2^m (2^m+1) <= 1", "why_tests_cant": "Tests compare with the data of one function with a tolerance; how the error depends on the level, on the domain, on the residual and on the coefficients cannot be sampled.", "anchors": ["interpolation/smolyak/interp.py: SmolyakInterp.interpolate, find_theta; interpolation/smolyak/grid.py: SmolyakGrid, cube2dom, dom2cube, build_B, s_n"]}
{"id": "C131", "title": "The Smolyak grid in the domain is accurate in rounded arithmetic", "statement": "For a SmolyakGrid that was constructed with levels of at most 46, with operations of relative error at most u <= 2^-52, a cos with an absolute error of at most 2u and pi rounded, every coordinate of the stored grid differs from that of the exact grid in the domain by at most u (14 (ub - lb) + 2 |lb + ub|), and lies in [lb, ub] up to that error. The shapes agree. The points are distinct if (28 + 4k) u 4^m < 1, where m bounds the levels and k the ratio of |lb + ub| to ub - lb.", "quantifier": "all rounding rules of the standard model, cosines with that error, dimensions, isotropic and anisotropic levels up to 46, domains with lb < ub, grid points, variables", "why_tests_cant": "Tests construct grids for a few levels and domains; the error for every level and domain, and that no two points coincide after rounding, cannot be sampled.", "anchors": ["interpolation/smolyak/grid.py: SmolyakGrid, cube2dom, build_grid, s_n, a_chain"]}
{"id": "C132", "title": "Derivatives of cubic splines are accurate in rounded arithmetic", "statement": "eval_spline with derivative orders 0 and 1 along each axis, run with operations of relative error at most u, returns numbers that differ from those of exact arithmetic by at most (prod (1 + e_i) - 1) S M, where M bounds the coefficients, e_i = 90 n_i u for an axis with n_i nodes (at most 1/2), and S is the product of 2 (n_i - 1) / (b_i - a_i) over the axes along which the derivative is taken. If the coefficients were filtered with rounding from data bounded by M, the computed derivatives differ from those of the exact interpolating spline by at most (prod (1 + e_i)(5 + 540 u) - 5^d) S M. This holds for points in the grid in every mode, and for all points in modes nearest and constant.", "quantifier": "all rounding rules of the standard model, dimensions, uniform grids, scalar and vector-valued data, lists of derivative orders, points, extrapolation modes, ways of calling", "why_tests_cant": "Tests compare derivatives with finite differences at a few points to a few digits; the amplification of rounding errors by fine grids and the points whose cell changes by rounding cannot be sampled.", "anchors": ["interpolation/splines/eval_splines.py: eval_spline", "interpolation/splines/codegen.py: blending_formula, get_code_spline", "interpolation/splines/prefilter_cubic.py: filter_cubic, prefilter"]}
{"id": "C133", "title": "Interpolants computed with rounding approximate the function that was sampled", "statement": "If the data are floating-point numbers within eta of the values of a function at the nodes, and operations have relative error at most u, the number eval_linear returns at a point of the grid differs from the value of the function by at most sum M_i H_i^2 / 8 + eta + (prod (1 + e_i) - 1) B, where M_i bounds the second derivative along axis i, H_i the distance of neighbouring nodes, B the data, and e_i is the rounding error of axis i. filter_cubic followed by eval_cubic, both computed with rounding, give at most sum (5/2)^i M_i H_i^2 / 2 + (5/2)^d eta + (prod (1 + e_i)(5 + 540 u) - 5^d) B; if the second derivatives vanish at the ends and M_i bounds the fourth, the first sum is sum (5/2)^i 7/64 M_i H_i^4. In general, for a point at least k_i cells from both ends of axis i, and second derivatives bounded by B2_i at the ends, it is sum (5/2)^i (7/64 M_i H_i^4 + B2_i H_i^2 (2 - sqrt 3)^k_i). On nonuniform axes mlinterp satisfies the bound of eval_linear.", "quantifier": "all rounding rules of the standard model, dimensions (cubic: up to 4), grids (cubic: uniform), functions with bounded second or fourth derivatives along the axes, scalar and vector-valued data, data errors, points of the grid, ways of calling", "why_tests_cant": "A test sees one function on one grid in one precision; that discretisation, data and rounding errors never add up to more than the bound is a statement about all of them.", "anchors": ["interpolation/splines/eval_splines.py: eval_linear, eval_cubic, eval_spline", "interpolation/splines/codegen.py: blending_formula, get_code_spline", "interpolation/splines/prefilter_cubic.py: filter_cubic, prefilter", "interpolation/multilinear/mlinterp.py: mlinterp"]}
