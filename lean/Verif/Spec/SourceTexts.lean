import Verif.Model.Tempita

/-!
# Source texts

Written by `tools/gen_sources.py` from the files of `/repo`, character for character.
-/

namespace Interp.Spec.PySrc

open Interp.Tempita (Str)

set_option maxRecDepth 100000

/-- `hermite_splines`, `splines/hermite.py` L12-20. -/
def hermiteSplinesText : Str := c!"def hermite_splines(lambda0: float) -> Tuple[float, float, float, float]:
    \"\"\"Computes the cubic Hermite splines in lambda0
    Inputs: - float: lambda0
    Output: - tuple: cubic Hermite splines evaluated in lambda0\"\"\"
    h00 = 2 * (lambda0**3) - 3 * (lambda0**2) + 1
    h10 = (lambda0**3) - 2 * (lambda0**2) + lambda0
    h01 = -2 * (lambda0**3) + 3 * (lambda0**2)
    h11 = (lambda0**3) - (lambda0**2)
    return (h00, h10, h01, h11)"

/-- `hermite_interp`, `splines/hermite.py` L24-44. -/
def hermiteInterpText : Str := c!"def hermite_interp(
    x0: float, xk: float, xkn: float, pk: float, pkn: float, mk: float, mkn: float
) -> float:
    \"\"\"Returns the interpolated value for x0.
    Inputs: - float: x0, abscissa of the point to interpolate
            - float: xk, abscissa of the nearest lowest point to x0 on the grid
            - float: xkn, abscissa of the nearest largest point to x0 on the grid
            - float: pk, value associated to xk
            - float: pkn, value associated to xkn
            - float: mk, tangent in xk
            - float: mkn, tangent in xkn
    Output: - float: interpolated value for x0
    \"\"\"
    t = (x0 - xk) / (xkn - xk)
    hsplines = hermite_splines(t)
    return (
        pk * hsplines[0]
        + mk * (xkn - xk) * hsplines[1]
        + pkn * hsplines[2]
        + mkn * (xkn - xk) * hsplines[3]
    )"

/-- `HermiteInterpolation`, `splines/hermite.py` L48-66. -/
def hermiteInterpolationText : Str := c!"def HermiteInterpolation(x0: float, x, y, yp):
    \"\"\"Returns the interpolated value for x0
    Inputs: - float: x0, abscissa of the point to interpolate
            - np.ndarray: x, x-axis grid
            - np.ndarray: y, values of elements in x
            - np.ndarray: yp, tangents of the x elements
    Output: - float: interpolated value\"\"\"
    ###### Extrapolation case ######
    if x0 <= np.min(x):
        return y[0]
    elif x0 >= np.max(x):
        return y[-1]

    ###### Interpolation case ######
    indx = np.searchsorted(x, x0)
    xk, xkn = x[indx - 1], x[indx]
    pk, pkn = y[indx - 1], y[indx]
    mk, mkn = yp[indx - 1], yp[indx]
    return hermite_interp(x0, xk, xkn, pk, pkn, mk, mkn)"

/-- `HermiteInterpolationVect`, `splines/hermite.py` L70-82. -/
def hermiteInterpolationVectText : Str := c!"def HermiteInterpolationVect(xvect, x: Vector, y: Vector, yp: Vector):
    \"\"\"Returns the interpolated value for all elements in xvect
    Inputs: - np.ndarray: xvect, vector of abscissa of the point to interpolate
            - np.ndarray: x, x-axis grid
            - np.ndarray: y, values of elements in x
            - np.ndarray: tang, tangents of the x elements
    Output: - np.ndarray: interpolated values\"\"\"
    N = len(xvect)
    out = np.zeros(N)
    for i in range(N):
        x0 = xvect[i]
        out[i] = HermiteInterpolation(x0, x, y, yp)
    return out"

/-- `ol_hermite`, `splines/hermite.py` L109-137. -/
def olHermiteText : Str := c!"def ol_hermite(x0, x, y, yp, out=None):
    try:
        n = x0.ndim
        if n == 1:
            input_type = \"vector\"
        elif n == 2:
            input_type = \"matrix\"
        else:
            raise Exception(\"Invalid input type\")
    except:
        # n must be a scalar
        input_type = \"scalar\"

    if input_type == \"scalar\":

        def _hermite(x0, x, y, yp, out=None):
            return HermiteInterpolation(x0, x, y, yp)

    elif input_type == \"vector\":

        def _hermite(x0, x, y, yp, out=None):
            return HermiteInterpolationVect(x0, x, y, yp)

    elif input_type == \"matrix\":

        def _hermite(x0, x, y, yp, out=None):
            return HermiteInterpolationVect(x0[:, 0], x, y, yp)

    return _hermite"

/-- `solve_deriv_interp_1d`, `splines/prefilter_cubic.py` L20-61. -/
def solveText : Str := c!"def solve_deriv_interp_1d(bands, coefs):
    M = coefs.shape[0] - 2

    # Solve interpolating equations
    # First and last rows are different

    bands[0, 1] /= bands[0, 0]
    bands[0, 2] /= bands[0, 0]
    bands[0, 3] /= bands[0, 0]
    bands[0, 0] = 1.0
    bands[1, 1] -= bands[1, 0] * bands[0, 1]
    bands[1, 2] -= bands[1, 0] * bands[0, 2]
    bands[1, 3] -= bands[1, 0] * bands[0, 3]
    bands[0, 0] = 0.0
    bands[1, 2] /= bands[1, 1]
    bands[1, 3] /= bands[1, 1]
    bands[1, 1] = 1.0

    # Now do rows 2 through M+1
    for row in range(2, M + 1):
        bands[row, 1] -= bands[row, 0] * bands[row - 1, 2]
        bands[row, 3] -= bands[row, 0] * bands[row - 1, 3]
        bands[row, 2] /= bands[row, 1]
        bands[row, 3] /= bands[row, 1]
        bands[row, 0] = 0.0
        bands[row, 1] = 1.0

    # Do last row
    bands[M + 1, 1] -= bands[M + 1, 0] * bands[M - 1, 2]
    bands[M + 1, 3] -= bands[M + 1, 0] * bands[M - 1, 3]
    bands[M + 1, 2] -= bands[M + 1, 1] * bands[M, 2]
    bands[M + 1, 3] -= bands[M + 1, 1] * bands[M, 3]
    bands[M + 1, 3] /= bands[M + 1, 2]
    bands[M + 1, 2] = 1.0

    coefs[M + 1] = bands[(M + 1), 3]
    # Now back substitute up
    for row in range(M, 0, -1):
        coefs[row] = bands[row, 3] - bands[row, 2] * coefs[row + 1]

    # Finish with first row
    coefs[0] = bands[0, 3] - bands[0, 1] * coefs[1] - bands[0, 2] * coefs[2]"

/-- `find_coefs_1d`, `splines/prefilter_cubic.py` L65-85. -/
def findCoefsText : Str := c!"def find_coefs_1d(δ, data, coefs, bands):
    M = bands.shape[0] - 2

    # Setup boundary conditions

    # Left boundary
    abcd_left = (1.0 * δ * δ, -2.0 * δ * δ, 1.0 * δ * δ, 0.0)

    # Right boundary
    abcd_right = (1.0 * δ * δ, -2.0 * δ * δ, 1.0 * δ * δ, 0.0)

    for i in range(4):
        bands[0, i] = abcd_left[i]
        bands[M + 1, i] = abcd_right[i]

    for i in range(M):
        for j in range(3):
            bands[i + 1, j] = basis[j]
            bands[i + 1, 3] = data[i]

    solve_deriv_interp_1d(bands, coefs)"

/-- `__filter_cubic`, `splines/prefilter_cubic.py` L94-231. -/
def filterText : Str := c!"def __filter_cubic(grid, D, C):
    d = len(grid.types)

    if D.ndim > d:

        def ___filter_cubic(grid, D, C):
            n_x = C.shape[-1]
            for i_x in range(n_x):
                _filter_cubic(grid, D[..., i_x], C[..., i_x])

        return ___filter_cubic

    if d == 1:

        def ___filter_cubic(grid, D, C):
            dinv_0 = (grid[0][1] - grid[0][0]) / grid[0][2]

            Mx = D.shape[0]

            Nx = Mx + 2

            # First, solve in the X-direction
            bands = np.zeros((Mx + 2, 4))
            find_coefs_1d(dinv_0, D, C, bands)

        return ___filter_cubic

    if d == 2:

        def ___filter_cubic(grid, D, C):
            dinv_0 = (grid[0][1] - grid[0][0]) / grid[0][2]
            dinv_1 = (grid[1][1] - grid[1][0]) / grid[1][2]

            Mx = D.shape[0]
            My = D.shape[1]

            Nx = Mx + 2
            Ny = My + 2

            # First, solve in the X-direction
            bands = np.zeros((Mx + 2, 4))
            for iy in range(My):
                find_coefs_1d(dinv_0, D[:, iy], C[:, iy], bands)

            # Now, solve in the Y-direction
            bands = np.zeros((My + 2, 4))
            for ix in range(Nx):
                find_coefs_1d(dinv_0, C[ix, :], C[ix, :], bands)

        return ___filter_cubic

    if d == 3:

        def ___filter_cubic(grid, D, C):
            dinv_0 = (grid[0][1] - grid[0][0]) / grid[0][2]
            dinv_1 = (grid[1][1] - grid[1][0]) / grid[1][2]
            dinv_2 = (grid[2][1] - grid[2][0]) / grid[2][2]

            Mx = D.shape[0]
            My = D.shape[1]
            Mz = D.shape[2]

            Nx = Mx + 2
            Ny = My + 2
            Nz = Mz + 2

            bands = np.zeros((Mx + 2, 4))
            for iy in range(My):
                for iz in range(Mz):
                    find_coefs_1d(dinv_0, D[:, iy, iz], C[:, iy, iz], bands)

            # Now, solve in the Y-direction
            bands = np.zeros((My + 2, 4))
            for ix in range(Nx):
                for iz in range(Mz):
                    find_coefs_1d(dinv_1, C[ix, :, iz], C[ix, :, iz], bands)

            # Now, solve in the Z-direction
            bands = np.zeros((Mz + 2, 4))
            for ix in range(Nx):
                for iy in range(Ny):
                    find_coefs_1d(dinv_2, C[ix, iy, :], C[ix, iy, :], bands)

        return ___filter_cubic

    if d == 4:

        def ___filter_cubic(grid, D, C):
            dinv_0 = (grid[0][1] - grid[0][0]) / grid[0][2]
            dinv_1 = (grid[1][1] - grid[1][0]) / grid[1][2]
            dinv_2 = (grid[2][1] - grid[2][0]) / grid[2][2]
            dinv_3 = (grid[3][1] - grid[3][0]) / grid[3][2]

            Mx = D.shape[0]
            My = D.shape[1]
            Mz = D.shape[2]
            Mz4 = D.shape[3]

            Nx = Mx + 2
            Ny = My + 2
            Nz = Mz + 2
            Nz4 = Mz4 + 2

            # First, solve in the X-direction
            bands = np.zeros((Mx + 2, 4))
            for iy in range(My):
                for iz in range(Mz):
                    for iz4 in range(Mz4):
                        find_coefs_1d(
                            dinv_0, D[:, iy, iz, iz4], C[:, iy, iz, iz4], bands
                        )

            # Now, solve in the Y-direction
            bands = np.zeros((My + 2, 4))
            for ix in range(Nx):
                for iz in range(Mz):
                    for iz4 in range(Mz4):
                        find_coefs_1d(
                            dinv_1, C[ix, :, iz, iz4], C[ix, :, iz, iz4], bands
                        )

            # Now, solve in the Z-direction
            bands = np.zeros((Mz + 2, 4))
            for ix in range(Nx):
                for iy in range(Ny):
                    for iz4 in range(Mz4):
                        find_coefs_1d(
                            dinv_2, C[ix, iy, :, iz4], C[ix, iy, :, iz4], bands
                        )

            # Now, solve in the Z4-direction
            bands = np.zeros((Mz4 + 2, 4))
            for ix in range(Nx):
                for iy in range(Ny):
                    for iz in range(Nz):
                        find_coefs_1d(dinv_3, C[ix, iy, iz, :], C[ix, iy, iz, :], bands)

        return ___filter_cubic"

/-- `__filter_cubic`, `splines/prefilter_cubic.py` L236-309. -/
def filterAllocText : Str := c!"def __filter_cubic(grid, D):
    d = len(grid.types)
    if D.ndim == d:
        if D.ndim == 1:

            def ___filter_cubic(grid, D):
                C = np.zeros(D.shape[0] + 2)
                _filter_cubic(grid, D, C)
                return C

        if D.ndim == 2:

            def ___filter_cubic(grid, D):
                C = np.zeros((D.shape[0] + 2, D.shape[1] + 2))
                _filter_cubic(grid, D, C)
                return C

        if D.ndim == 3:

            def ___filter_cubic(grid, D):
                C = np.zeros((D.shape[0] + 2, D.shape[1] + 2, D.shape[2] + 2))
                _filter_cubic(grid, D, C)
                return C

        if D.ndim == 4:

            def ___filter_cubic(grid, D):
                C = np.zeros(
                    (D.shape[0] + 2, D.shape[1] + 2, D.shape[2] + 2, D.shape[3] + 2)
                )
                _filter_cubic(grid, D, C)
                return C

        return ___filter_cubic
    elif D.ndim == d + 1:
        if d == 1:

            def ___filter_cubic(grid, D):
                C = np.zeros((D.shape[0] + 2, D.shape[1]))
                _filter_cubic(grid, D, C)
                return C

        if d == 2:

            def ___filter_cubic(grid, D):
                C = np.zeros((D.shape[0] + 2, D.shape[1] + 2, D.shape[2]))
                _filter_cubic(grid, D, C)
                return C

        if d == 3:

            def ___filter_cubic(grid, D):
                C = np.zeros(
                    (D.shape[0] + 2, D.shape[1] + 2, D.shape[2] + 2, D.shape[3])
                )
                _filter_cubic(grid, D, C)
                return C

        if d == 4:

            def ___filter_cubic(grid, D):
                C = np.zeros(
                    (
                        D.shape[0] + 2,
                        D.shape[1] + 2,
                        D.shape[2] + 2,
                        D.shape[3] + 2,
                        D.shape[4],
                    )
                )
                _filter_cubic(grid, D, C)
                return C

        return ___filter_cubic"

/-- `B0`, `splines/basis_splines.py` L1-5. -/
def b0Text : Str := c!"def B0(u, i, x):
    if u[i] <= x < u[i + 1]:
        return 1.0
    else:
        return 0.0"

/-- `B`, `splines/basis_splines.py` L8-14. -/
def bText : Str := c!"def B(p, u, i, x):
    if p == 0:
        return B0(u, i, x)
    else:
        return ((x - u[i]) / (u[i + p] - u[i])) * B(p - 1, u, i, x) + (
            (u[i + p + 1] - x) / (u[i + p + 1] - u[i + 1])
        ) * B(p - 1, u, i + 1, x)"

/-- `n_complete`, `complete_poly.py` L40-73. -/
def nCompleteText : Str := c!"def n_complete(n, d):
    \"\"\"
    Return the number of terms in a complete polynomial of degree d in n
    variables

    Parameters
    ----------
    n : int
        The number of parameters in the polynomial

    d : int
        The degree of the complete polynomials

    Returns
    -------
    m : int
        The number of terms in the polynomial

    See Also
    --------
    See `complete_inds`

    \"\"\"
    out = 1
    denom = 1
    for i in range(d):
        tmp = 1
        denom *= i + 1
        for j in range(i + 1):
            tmp *= n + j

        # out += tmp // math.factorial(i + 1)
        out += tmp // denom
    return out"

/-- `_complete_poly_impl_vec`, `complete_poly.py` L127-197. -/
def implVecText : Str := c!"def _complete_poly_impl_vec(z, d, out):
    \"out and z should be vectors\"
    nvar = z.shape[0]

    out[0] = 1.0

    # fill first order stuff
    if d >= 1:
        for i in range(1, nvar + 1):
            out[i] = z[i - 1]

    if d == 1:
        return

    # now we need to fill in row nvar and beyond
    ix = nvar
    if d == 2:
        for i1 in range(nvar):
            for i2 in range(i1, nvar):
                ix += 1
                out[ix] = z[i1] * z[i2]

        return

    if d == 3:
        for i1 in range(nvar):
            for i2 in range(i1, nvar):
                ix += 1
                out[ix] = z[i1] * z[i2]

                for i3 in range(i2, nvar):
                    ix += 1
                    out[ix] = z[i1] * z[i2] * z[i3]

        return

    if d == 4:
        for i1 in range(nvar):
            for i2 in range(i1, nvar):
                ix += 1
                out[ix] = z[i1] * z[i2]

                for i3 in range(i2, nvar):
                    ix += 1
                    out[ix] = z[i1] * z[i2] * z[i3]

                    for i4 in range(i3, nvar):
                        ix += 1
                        out[ix] = z[i1] * z[i2] * z[i3] * z[i4]

        return

    if d == 5:
        for i1 in range(nvar):
            for i2 in range(i1, nvar):
                ix += 1
                out[ix] = z[i1] * z[i2]

                for i3 in range(i2, nvar):
                    ix += 1
                    out[ix] = z[i1] * z[i2] * z[i3]

                    for i4 in range(i3, nvar):
                        ix += 1
                        out[ix] = z[i1] * z[i2] * z[i3] * z[i4]

                        for i5 in range(i4, nvar):
                            ix += 1
                            out[ix] = z[i1] * z[i2] * z[i3] * z[i4] * z[i5]

        return"

/-- `_complete_poly_impl`, `complete_poly.py` L202-286. -/
def implMatText : Str := c!"def _complete_poly_impl(z, d, out):
    nvar = z.shape[0]
    nobs = z.shape[1]

    for k in range(nobs):
        out[0, k] = 1.0

    # fill first order stuff
    if d >= 1:
        for i in range(1, nvar + 1):
            for k in range(nobs):
                out[i, k] = z[i - 1, k]

    if d == 1:
        return

    # now we need to fill in row nvar and beyond
    ix = nvar
    if d == 2:
        for i1 in range(nvar):
            for i2 in range(i1, nvar):
                ix += 1
                for k in range(nobs):
                    out[ix, k] = z[i1, k] * z[i2, k]

        return

    if d == 3:
        for i1 in range(nvar):
            for i2 in range(i1, nvar):
                ix += 1
                for k in range(nobs):
                    out[ix, k] = z[i1, k] * z[i2, k]

                for i3 in range(i2, nvar):
                    ix += 1
                    for k in range(nobs):
                        out[ix, k] = z[i1, k] * z[i2, k] * z[i3, k]

        return

    if d == 4:
        for i1 in range(nvar):
            for i2 in range(i1, nvar):
                ix += 1
                for k in range(nobs):
                    out[ix, k] = z[i1, k] * z[i2, k]

                for i3 in range(i2, nvar):
                    ix += 1
                    for k in range(nobs):
                        out[ix, k] = z[i1, k] * z[i2, k] * z[i3, k]

                    for i4 in range(i3, nvar):
                        ix += 1
                        for k in range(nobs):
                            out[ix, k] = z[i1, k] * z[i2, k] * z[i3, k] * z[i4, k]

        return

    if d == 5:
        for i1 in range(nvar):
            for i2 in range(i1, nvar):
                ix += 1
                for k in range(nobs):
                    out[ix, k] = z[i1, k] * z[i2, k]

                for i3 in range(i2, nvar):
                    ix += 1
                    for k in range(nobs):
                        out[ix, k] = z[i1, k] * z[i2, k] * z[i3, k]

                    for i4 in range(i3, nvar):
                        ix += 1
                        for k in range(nobs):
                            out[ix, k] = z[i1, k] * z[i2, k] * z[i3, k] * z[i4, k]

                        for i5 in range(i4, nvar):
                            ix += 1
                            for k in range(nobs):
                                out[ix, k] = (
                                    z[i1, k] * z[i2, k] * z[i3, k] * z[i4, k] * z[i5, k]
                                )

        return"

/-- `_complete_poly_der_impl_vec`, `complete_poly.py` L346-450. -/
def derImplVecText : Str := c!"def _complete_poly_der_impl_vec(z, d, der, out):
    \"out and z should be vectors\"
    nvar = z.shape[0]

    out[0] = 0.0

    # fill first order stuff
    if d >= 1:
        # All linear terms except for one (the variable itself) are 0
        for i in range(nvar):
            out[i + 1] = 0.0
        out[der + 1] = 1.0

    if d == 1:
        return

    # now we need to fill in row nvar and beyond
    ix = nvar
    if d == 2:
        for i1 in range(nvar):
            # Get coefficients and values
            (c1, t1) = (1, 1.0) if i1 == der else (0, z[i1])
            for i2 in range(i1, nvar):
                (c2, t2) = (c1 + 1, 1.0) if i2 == der else (c1, z[i2])

                # Update index and out
                ix += 1
                out[ix] = c2 * t1 * t2 * z[der] ** (c2 - 1) if c2 > 0 else 0.0

        return

    if d == 3:
        for i1 in range(nvar):
            # Get coefficients and values
            (c1, t1) = (1, 1.0) if i1 == der else (0, z[i1])
            for i2 in range(i1, nvar):
                (c2, t2) = (c1 + 1, 1.0) if i2 == der else (c1, z[i2])
                ix += 1
                out[ix] = c2 * t1 * t2 * z[der] ** (c2 - 1) if c2 > 0 else 0.0

                for i3 in range(i2, nvar):
                    (c3, t3) = (c2 + 1, 1.0) if i3 == der else (c2, z[i3])
                    ix += 1
                    out[ix] = c3 * t1 * t2 * t3 * z[der] ** (c3 - 1) if c3 > 0 else 0.0

        return

    if d == 4:
        for i1 in range(nvar):
            # Get coefficients and values
            (c1, t1) = (1, 1.0) if i1 == der else (0, z[i1])
            for i2 in range(i1, nvar):
                (c2, t2) = (c1 + 1, 1.0) if i2 == der else (c1, z[i2])
                ix += 1
                out[ix] = c2 * t1 * t2 * z[der] ** (c2 - 1) if c2 > 0 else 0.0

                for i3 in range(i2, nvar):
                    (c3, t3) = (c2 + 1, 1.0) if i3 == der else (c2, z[i3])
                    ix += 1
                    out[ix] = c3 * t1 * t2 * t3 * z[der] ** (c3 - 1) if c3 > 0 else 0.0

                    for i4 in range(i3, nvar):
                        (c4, t4) = (c3 + 1, 1.0) if i4 == der else (c3, z[i4])
                        ix += 1
                        out[ix] = (
                            c4 * t1 * t2 * t3 * t4 * z[der] ** (c4 - 1)
                            if c4 > 0
                            else 0.0
                        )

        return

    if d == 5:
        for i1 in range(nvar):
            # Get coefficients and values
            (c1, t1) = (1, 1.0) if i1 == der else (0, z[i1])
            for i2 in range(i1, nvar):
                (c2, t2) = (c1 + 1, 1.0) if i2 == der else (c1, z[i2])
                ix += 1
                out[ix] = c2 * t1 * t2 * z[der] ** (c2 - 1) if c2 > 0 else 0.0

                for i3 in range(i2, nvar):
                    (c3, t3) = (c2 + 1, 1.0) if i3 == der else (c2, z[i3])
                    ix += 1
                    out[ix] = c3 * t1 * t2 * t3 * z[der] ** (c3 - 1) if c3 > 0 else 0.0

                    for i4 in range(i3, nvar):
                        (c4, t4) = (c3 + 1, 1.0) if i4 == der else (c3, z[i4])
                        ix += 1
                        out[ix] = (
                            c4 * t1 * t2 * t3 * t4 * z[der] ** (c4 - 1)
                            if c4 > 0
                            else 0.0
                        )

                        for i5 in range(i4, nvar):
                            (c5, t5) = (c4 + 1, 1.0) if i5 == der else (c4, z[i5])
                            ix += 1
                            out[ix] = (
                                c5 * t1 * t2 * t3 * t4 * t5 * z[der] ** (c5 - 1)
                                if c5 > 0
                                else 0.0
                            )

        return"

/-- `_complete_poly_der_impl`, `complete_poly.py` L455-590. -/
def derImplMatText : Str := c!"def _complete_poly_der_impl(z, d, der, out):
    nvar = z.shape[0]
    nobs = z.shape[1]

    for k in range(nobs):
        out[0, k] = 0.0

    # fill first order stuff
    if d >= 1:
        # Make sure everything has zeros in it
        for i in range(nvar):
            for k in range(nobs):
                out[i + 1, k] = 0.0

        # Then place ones where they belong in variable
        for k in range(nobs):
            out[der + 1, k] = 1.0

    if d == 1:
        return

    # now we need to fill in row nvar and beyond
    ix = nvar
    if d == 2:
        for i1 in range(nvar):
            for i2 in range(i1, nvar):
                ix += 1
                for k in range(nobs):
                    c1, t1 = (1, 1.0) if i1 == der else (0, z[i1, k])
                    c2, t2 = (c1 + 1, 1.0) if i2 == der else (c1, z[i2, k])
                    out[ix, k] = c2 * t1 * t2 * z[der, k] ** (c2 - 1) if c2 > 0 else 0.0

        return

    if d == 3:
        for i1 in range(nvar):
            for i2 in range(i1, nvar):
                ix += 1
                for k in range(nobs):
                    c1, t1 = (1, 1.0) if i1 == der else (0, z[i1, k])
                    c2, t2 = (c1 + 1, 1.0) if i2 == der else (c1, z[i2, k])
                    out[ix, k] = c2 * t1 * t2 * z[der, k] ** (c2 - 1) if c2 > 0 else 0.0

                for i3 in range(i2, nvar):
                    ix += 1
                    for k in range(nobs):
                        c1, t1 = (1, 1.0) if i1 == der else (0, z[i1, k])
                        c2, t2 = (c1 + 1, 1.0) if i2 == der else (c1, z[i2, k])
                        c3, t3 = (c2 + 1, 1.0) if i3 == der else (c2, z[i3, k])
                        out[ix, k] = (
                            c3 * t1 * t2 * t3 * z[der, k] ** (c3 - 1) if c3 > 0 else 0.0
                        )

        return

    if d == 4:
        for i1 in range(nvar):
            for i2 in range(i1, nvar):
                ix += 1
                for k in range(nobs):
                    c1, t1 = (1, 1.0) if i1 == der else (0, z[i1, k])
                    c2, t2 = (c1 + 1, 1.0) if i2 == der else (c1, z[i2, k])
                    out[ix, k] = c2 * t1 * t2 * z[der, k] ** (c2 - 1) if c2 > 0 else 0.0

                for i3 in range(i2, nvar):
                    ix += 1
                    for k in range(nobs):
                        c1, t1 = (1, 1.0) if i1 == der else (0, z[i1, k])
                        c2, t2 = (c1 + 1, 1.0) if i2 == der else (c1, z[i2, k])
                        c3, t3 = (c2 + 1, 1.0) if i3 == der else (c2, z[i3, k])
                        out[ix, k] = (
                            c3 * t1 * t2 * t3 * z[der, k] ** (c3 - 1) if c3 > 0 else 0.0
                        )

                    for i4 in range(i3, nvar):
                        ix += 1
                        for k in range(nobs):
                            c1, t1 = (1, 1.0) if i1 == der else (0, z[i1, k])
                            c2, t2 = (c1 + 1, 1.0) if i2 == der else (c1, z[i2, k])
                            c3, t3 = (c2 + 1, 1.0) if i3 == der else (c2, z[i3, k])
                            c4, t4 = (c3 + 1, 1.0) if i4 == der else (c3, z[i4, k])
                            out[ix, k] = (
                                c4 * t1 * t2 * t3 * t4 * z[der, k] ** (c4 - 1)
                                if c4 > 0
                                else 0.0
                            )

        return

    if d == 5:
        for i1 in range(nvar):
            for i2 in range(i1, nvar):
                ix += 1
                for k in range(nobs):
                    c1, t1 = (1, 1.0) if i1 == der else (0, z[i1, k])
                    c2, t2 = (c1 + 1, 1.0) if i2 == der else (c1, z[i2, k])
                    out[ix, k] = c2 * t1 * t2 * z[der, k] ** (c2 - 1) if c2 > 0 else 0.0

                for i3 in range(i2, nvar):
                    ix += 1
                    for k in range(nobs):
                        c1, t1 = (1, 1.0) if i1 == der else (0, z[i1, k])
                        c2, t2 = (c1 + 1, 1.0) if i2 == der else (c1, z[i2, k])
                        c3, t3 = (c2 + 1, 1.0) if i3 == der else (c2, z[i3, k])
                        out[ix, k] = (
                            c3 * t1 * t2 * t3 * z[der, k] ** (c3 - 1) if c3 > 0 else 0.0
                        )

                    for i4 in range(i3, nvar):
                        ix += 1
                        for k in range(nobs):
                            c1, t1 = (1, 1.0) if i1 == der else (0, z[i1, k])
                            c2, t2 = (c1 + 1, 1.0) if i2 == der else (c1, z[i2, k])
                            c3, t3 = (c2 + 1, 1.0) if i3 == der else (c2, z[i3, k])
                            c4, t4 = (c3 + 1, 1.0) if i4 == der else (c3, z[i4, k])
                            out[ix, k] = (
                                c4 * t1 * t2 * t3 * t4 * z[der, k] ** (c4 - 1)
                                if c4 > 0
                                else 0.0
                            )

                        for i5 in range(i4, nvar):
                            ix += 1
                            for k in range(nobs):
                                c1, t1 = (1, 1.0) if i1 == der else (0, z[i1, k])
                                c2, t2 = (c1 + 1, 1.0) if i2 == der else (c1, z[i2, k])
                                c3, t3 = (c2 + 1, 1.0) if i3 == der else (c2, z[i3, k])
                                c4, t4 = (c3 + 1, 1.0) if i4 == der else (c3, z[i4, k])
                                c5, t5 = (c4 + 1, 1.0) if i5 == der else (c4, z[i5, k])
                                out[ix, k] = (
                                    c5 * t1 * t2 * t3 * t4 * t5 * z[der, k] ** (c5 - 1)
                                    if c5 > 0
                                    else 0.0
                                )

        return"

/-- `complete_polynomial`, `complete_poly.py` L79-120. -/
def completePolynomialText : Str := c!"def complete_polynomial(z, d):
    \"\"\"
    Construct basis matrix for complete polynomial of degree `d`, given
    input data `z`.

    Parameters
    ----------
    z : np.ndarray(size=(nvariables, nobservations))
        The degree 1 realization of each variable. For example, if
        variables are `q`, `r`, and `s`, then `z` should be
        `z = np.row_stack([q, r, s])`

    d : int
        An integer specifying the degree of the complete polynomial

    Returns
    -------
    out : np.ndarray(size=(ncomplete(nvariables, d), nobservations))
        The basis matrix for a complete polynomial of degree d

    \"\"\"
    # check inputs
    assert d >= 0, \"d must be non-negative\"
    if d > 5:
        raise ValueError(\"Complete polynomial only implemeted up to degree 5\")

    # Assure z is array
    z = np.asarray(z)

    # compute inds allocate space for output
    if np.ndim(z) == 1:
        nvar = z.size
        out = np.zeros(n_complete(nvar, d))
        # populate out with jitted function
        _complete_poly_impl_vec(z, d, out)
    else:
        nvar, nobs = z.shape
        out = np.zeros((n_complete(nvar, d), nobs))
        # populate out with jitted function
        _complete_poly_impl(z, d, out)

    return out"

/-- `complete_polynomial_der`, `complete_poly.py` L292-341. -/
def completePolynomialDerText : Str := c!"def complete_polynomial_der(z, d, der):
    \"\"\"
    Construct basis matrix for complete polynomial of degree `d`, given
    input data `z`.

    Parameters
    ----------
    z : np.ndarray(size=(nvariables, nobservations))
        The degree 1 realization of each variable. For example, if
        variables are `q`, `r`, and `s`, then `z` should be
        `z = np.row_stack([q, r, s])`

    d : int
        An integer specifying the degree of the complete polynomial

    der : int
        An integer specifying which variable to take derivative wrt --
        a 0 means take derivative wrt first variable in z etc...

    Returns
    -------
    out : np.ndarray(size=(ncomplete(nvariables, d), nobservations))
        The basis matrix for the derivative of a complete polynomial
        of degree d with respect to variable der

    \"\"\"
    # check inputs
    assert d >= 0, \"d must be non-negative\"
    assert der >= 0, \"derivative must be non-negative\"
    if d > 5:
        raise ValueError(\"Complete polynomial only implemeted up to degree 5\")

    # Ensure z is a numpy array
    z = np.asarray(z)

    # compute inds allocate space for output
    if np.ndim(z) == 1:
        nvar = z.size
        assert der < nvar, \"derivative integer must be smaller than nobs in z\"
        out = np.zeros(n_complete(nvar, d))
        # populate with jitted function
        _complete_poly_der_impl_vec(z, d, der, out)
    else:
        nvar, nobs = z.shape
        assert der < nvar, \"derivative integer must be smaller than nobs in z\"
        out = np.zeros((n_complete(nvar, d), nobs))
        # populate out with jitted function
        _complete_poly_der_impl(z, d, der, out)

    return out"

/-- The value of `basis`, `splines/prefilter_cubic.py` L15. -/
def basisText : Str := c!"(1.0 / 6.0, 2.0 / 3.0, 1.0 / 6.0, 0.0)"

end Interp.Spec.PySrc
