import Verif.Model.Tempita

/-!
# More source texts

Written by `tools/gen_sources.py` from the files of `/repo`, character for character.
-/

namespace Interp.Spec.PySrc

open Interp.Tempita (Str)

set_option maxRecDepth 100000

/-- `solve_deriv_interp_1d`, `splines/filter_cubic.py` L12-53. -/
def oldSolveText : Str := c!"def solve_deriv_interp_1d(bands, coefs):
    M = coefs.shape[0] - 2

    # Solve interpolating equations
    # First and last rows are different

    bands[0, 1] /= bands[0, 0]
    bands[0, 2] /= bands[0, 0]
    bands[0, 3] /= bands[0, 0]
    bands[0, 0] = 1.0
    bands[1, 1] -= bands[1, 0] * bands[0, 1]
    bands[1, 2] -= bands[1, 0] * bands[0, 2]
    bands[1, 3] -= bands[1, 0] * bands[0, 3]
    bands[0, 0] = 0.0
    bands[1, 2] /= bands[1, 1]
    bands[1, 3] /= bands[1, 1]
    bands[1, 1] = 1.0

    # Now do rows 2 through M+1
    for row in range(2, M + 1):
        bands[row, 1] -= bands[row, 0] * bands[row - 1, 2]
        bands[row, 3] -= bands[row, 0] * bands[row - 1, 3]
        bands[row, 2] /= bands[row, 1]
        bands[row, 3] /= bands[row, 1]
        bands[row, 0] = 0.0
        bands[row, 1] = 1.0

    # Do last row
    bands[M + 1, 1] -= bands[M + 1, 0] * bands[M - 1, 2]
    bands[M + 1, 3] -= bands[M + 1, 0] * bands[M - 1, 3]
    bands[M + 1, 2] -= bands[M + 1, 1] * bands[M, 2]
    bands[M + 1, 3] -= bands[M + 1, 1] * bands[M, 3]
    bands[M + 1, 3] /= bands[M + 1, 2]
    bands[M + 1, 2] = 1.0

    coefs[M + 1] = bands[(M + 1), 3]
    # Now back substitute up
    for row in range(M, 0, -1):
        coefs[row] = bands[row, 3] - bands[row, 2] * coefs[row + 1]

    # Finish with first row
    coefs[0] = bands[0, 3] - bands[0, 1] * coefs[1] - bands[0, 2] * coefs[2]"

/-- `find_coefs_1d`, `splines/filter_cubic.py` L57-85. -/
def oldFindCoefsText : Str := c!"def find_coefs_1d(delta_inv, M, data, coefs):
    bands = np.zeros((M + 2, 4))

    # Setup boundary conditions
    abcd_left = np.zeros(4)
    abcd_right = np.zeros(4)

    # Left boundary
    abcd_left[0] = 1.0 * delta_inv * delta_inv
    abcd_left[1] = -2.0 * delta_inv * delta_inv
    abcd_left[2] = 1.0 * delta_inv * delta_inv
    abcd_left[3] = 0

    # Right boundary
    abcd_right[0] = 1.0 * delta_inv * delta_inv
    abcd_right[1] = -2.0 * delta_inv * delta_inv
    abcd_right[2] = 1.0 * delta_inv * delta_inv
    abcd_right[3] = 0

    for i in range(4):
        bands[0, i] = abcd_left[i]
        bands[M + 1, i] = abcd_right[i]

    for i in range(M):
        for j in range(3):
            bands[i + 1, j] = basis[j]
            bands[i + 1, 3] = data[i]

    solve_deriv_interp_1d(bands, coefs)"

/-- `filter_coeffs_1d`, `splines/filter_cubic.py` L89-96. -/
def filterCoeffs1dText : Str := c!"def filter_coeffs_1d(dinv, data):
    M = data.shape[0]
    N = M + 2

    coefs = np.zeros(N)
    find_coefs_1d(dinv[0], M, data, coefs)

    return coefs"

/-- `filter_coeffs_2d`, `splines/filter_cubic.py` L100-119. -/
def filterCoeffs2dText : Str := c!"def filter_coeffs_2d(dinv, data):
    Mx = data.shape[0]
    My = data.shape[1]

    Nx = Mx + 2
    Ny = My + 2

    coefs = np.zeros((Nx, Ny))

    # First, solve in the X-direction
    for iy in range(My):
        # print(data[:,iy].size)
        # print(spline.coefs[:,iy].size)
        find_coefs_1d(dinv[0], Mx, data[:, iy], coefs[:, iy])

    # Now, solve in the Y-direction
    for ix in range(Nx):
        find_coefs_1d(dinv[1], My, coefs[ix, :], coefs[ix, :])

    return coefs"

/-- `filter_coeffs_3d`, `splines/filter_cubic.py` L123-148. -/
def filterCoeffs3dText : Str := c!"def filter_coeffs_3d(dinv, data):
    Mx = data.shape[0]
    My = data.shape[1]
    Mz = data.shape[2]

    Nx = Mx + 2
    Ny = My + 2
    Nz = Mz + 2

    coefs = np.zeros((Nx, Ny, Nz))

    for iy in range(My):
        for iz in range(Mz):
            find_coefs_1d(dinv[0], Mx, data[:, iy, iz], coefs[:, iy, iz])

    # Now, solve in the Y-direction
    for ix in range(Nx):
        for iz in range(Mz):
            find_coefs_1d(dinv[1], My, coefs[ix, :, iz], coefs[ix, :, iz])

    # Now, solve in the Z-direction
    for ix in range(Nx):
        for iy in range(Ny):
            find_coefs_1d(dinv[2], Mz, coefs[ix, iy, :], coefs[ix, iy, :])

    return coefs"

/-- `filter_coeffs_4d`, `splines/filter_cubic.py` L152-189. -/
def filterCoeffs4dText : Str := c!"def filter_coeffs_4d(dinv, data):
    Mx = data.shape[0]
    My = data.shape[1]
    Mz = data.shape[2]
    Mz4 = data.shape[3]

    Nx = Mx + 2
    Ny = My + 2
    Nz = Mz + 2
    Nz4 = Mz4 + 2

    coefs = np.zeros((Nx, Ny, Nz, Nz4))

    # First, solve in the X-direction
    for iy in range(My):
        for iz in range(Mz):
            for iz4 in range(Mz4):
                find_coefs_1d(dinv[0], Mx, data[:, iy, iz, iz4], coefs[:, iy, iz, iz4])

    # Now, solve in the Y-direction
    for ix in range(Nx):
        for iz in range(Mz):
            for iz4 in range(Mz4):
                find_coefs_1d(dinv[1], My, coefs[ix, :, iz, iz4], coefs[ix, :, iz, iz4])

    # Now, solve in the Z-direction
    for ix in range(Nx):
        for iy in range(Ny):
            for iz4 in range(Mz4):
                find_coefs_1d(dinv[2], Mz, coefs[ix, iy, :, iz4], coefs[ix, iy, :, iz4])

    # Now, solve in the Z4-direction
    for ix in range(Nx):
        for iy in range(Ny):
            for iz in range(Nz):
                find_coefs_1d(dinv[3], Mz4, coefs[ix, iy, iz, :], coefs[ix, iy, iz, :])

    return coefs"

/-- `filter_coeffs`, `splines/filter_cubic.py` L192-197. -/
def filterCoeffsText : Str := c!"def filter_coeffs(smin, smax, orders, data):
    smin = np.array(smin, dtype=float)
    smax = np.array(smax, dtype=float)
    dinv = (smax - smin) / orders
    data = data.reshape(orders)
    return filter_data(dinv, data)"

/-- `filter_mcoeffs`, `splines/filter_cubic.py` L200-206. -/
def filterMcoeffsText : Str := c!"def filter_mcoeffs(smin, smax, orders, data):
    order = len(smin)
    n_splines = data.shape[-1]
    coefs = np.zeros(tuple([i + 2 for i in orders]) + (n_splines,))
    for i in range(n_splines):
        coefs[..., i] = filter_coeffs(smin, smax, orders, data[..., i])
    return coefs"

/-- `filter_data`, `splines/filter_cubic.py` L209-217. -/
def filterDataText : Str := c!"def filter_data(dinv, data):
    if len(dinv) == 1:
        return filter_coeffs_1d(dinv, data)
    elif len(dinv) == 2:
        return filter_coeffs_2d(dinv, data)
    elif len(dinv) == 3:
        return filter_coeffs_3d(dinv, data)
    elif len(dinv) == 4:
        return filter_coeffs_4d(dinv, data)"

/-- `cartesian`, `cartesian.py` L13-45. -/
def cartesianText : Str := c!"def cartesian(nodes, order=\"C\"):
    \"\"\"Cartesian product of a list of arrays

    Parameters:
    -----------
    nodes: (list of 1d-arrays)
    order: ('C' or 'F') order in which the product is enumerated

    Returns:
    --------
    out: (2d-array) each line corresponds to one point of the product space
    \"\"\"

    nodes = [numpy.array(e) for e in nodes]
    shapes = [e.shape[0] for e in nodes]

    n = len(nodes)
    l = numpy.prod(shapes)
    out = numpy.zeros((l, n))

    if order == \"C\":
        repetitions = numpy.cumprod([1] + shapes[:-1])
    else:
        shapes.reverse()
        sh = [1] + shapes[:-1]
        repetitions = numpy.cumprod(sh)
        repetitions = repetitions.tolist()
        repetitions.reverse()

    for i in range(n):
        _repeat_1d(nodes[i], repetitions[i], out[:, i])

    return out"

/-- `mlinspace`, `cartesian.py` L48-68. -/
def mlinspaceText : Str := c!"def mlinspace(a, b, nums, order=\"C\"):
    \"\"\"Constructs a regular cartesian grid

    Parameters:
    -----------
    a: (1d-array) lower bounds in each dimension
    b: (1d-array) upper bounds in each dimension
    nums: (1d-array) number of nodes along each dimension
    order: ('C' or 'F') order in which the product is enumerated

    Returns:
    --------
    out: (2d-array) each line corresponds to one point of the product space
    \"\"\"

    a = numpy.array(a, dtype=\"float64\")
    b = numpy.array(b, dtype=\"float64\")
    nums = numpy.array(nums, dtype=\"int64\")
    nodes = [numpy.linspace(a[i], b[i], nums[i]) for i in range(len(nums))]

    return cartesian(nodes, order=order)"

/-- `_repeat_1d`, `cartesian.py` L72-100. -/
def repeat1dText : Str := c!"def _repeat_1d(x, K, out):
    \"\"\"Repeats each element of a vector many times and repeats the whole result many times

    Parameters
    ----------

    x: (1d array)       vector to be repeated
    K: (int)            number of times each element of x is repeated (inner iterations)
    out: (1d array)     placeholder for the result

    Returns
    -------
    None
    \"\"\"

    N = x.shape[0]
    L = out.shape[0] // (K * N)  # number of outer iterations
    # K                       # number of inner iterations

    # the result out should enumerate in C-order the elements
    # of a 3-dimensional array T of dimensions (K,N,L)
    # such that for all k,n,l, we have T[k,n,l] == x[n]

    for n in range(N):
        val = x[n]
        for k in range(K):
            for l in range(L):
                ind = k * N * L + n * L + l
                out[ind] = val"

/-- `permute`, `smolyak/util.py` L6-50. -/
def permuteText : Str := c!"def permute(a):
    \"\"\"
    Creates all unique combinations of a list a that is passed in.
    Function is based off of a function written by John Lettman:
    TCHS Computer Information Systems.  My thanks to him.
    \"\"\"

    a.sort()  # Sort.

    ## Output the first input sorted.
    yield list(a)

    i = 0
    first = 0
    alen = len(a)

    ## \"alen\" could also be used for the reference to the last element.

    while True:
        i = alen - 1

        while True:
            i -= 1  # i--

            if a[i] < a[(i + 1)]:
                j = alen - 1

                while not (a[i] < a[j]):
                    j -= 1  # j--

                a[i], a[j] = a[j], a[i]  # swap(a[j], a[i])
                t = a[(i + 1) : alen]
                t.reverse()
                a[(i + 1) : alen] = t

                # Output current.
                yield list(a)

                break  # next.

            if i == first:
                a.reverse()

                # yield list(a)
                return"

/-- `num_grid_points`, `smolyak/grid.py` L53-79. -/
def numGridPointsText : Str := c!"def num_grid_points(d, mu):
    \"\"\"
    Checks the number of grid points for a given d, mu combination.

    Parameters
    ----------
    d, mu : int
        The parameters d and mu that specify the grid

    Returns
    -------
    num : int
        The number of points that would be in a grid with params d, mu

    Notes
    -----
    This function is only defined for mu = 1, 2, or 3

    \"\"\"
    if mu == 1:
        return 2 * d + 1

    if mu == 2:
        return 1 + 4 * d + 4 * d * (d - 1) / 2.0

    if mu == 3:
        return 1 + 8 * d + 12 * d * (d - 1) / 2.0 + 8 * d * (d - 1) * (d - 2) / 6.0"

/-- `m_i`, `smolyak/grid.py` L82-113. -/
def mIText : Str := c!"def m_i(i):
    r\"\"\"
    Compute one plus the \"total degree of the interpolating
    polynoimals\" (Kruger & Kubler, 2004). This shows up many times in
    Smolyak's algorithm. It is defined as:

    .. math::

        m_i = \\begin{cases}
        1 \\quad & \\text{if } i = 1 \\\\
        2^{i-1} + 1 \\quad & \\text{if } i \\geq 2
        \\end{cases}

    Parameters
    ----------
    i : int
        The integer i which the total degree should be evaluated

    Returns
    -------
    num : int
        Return the value given by the expression above

    \"\"\"
    if i < 0:
        raise ValueError(\"i must be positive\")
    elif i == 0:
        return 0
    elif i == 1:
        return 1
    else:
        return 2 ** (i - 1) + 1"

/-- `cheby2n`, `smolyak/grid.py` L164-200. -/
def cheby2nText : Str := c!"def cheby2n(x, n, kind=1.0):
    \"\"\"
    Computes the first :math:`n+1` Chebychev polynomials of the first
    kind evaluated at each point in :math:`x` .

    Parameters
    ----------
    x : float or array(float)
        A single point (float) or an array of points where each
        polynomial should be evaluated

    n : int
        The integer specifying which Chebychev polynomial is the last
        to be computed

    kind : float, optional(default=1.0)
        The \"kind\" of Chebychev polynomial to compute. Only accepts
        values 1 for first kind or 2 for second kind

    Returns
    -------
    results : array (float, ndim=x.ndim+1)
        The results of computation. This will be an :math:`(n+1 \\\\times
        dim \\\\dots)` where :math:`(dim \\\\dots)` is the shape of x. Each
        slice along the first dimension represents a new Chebychev
        polynomial. This dimension has length :math:`n+1` because it
        includes :math:`\\\\phi_0` which is equal to 1 :math:`\\\\forall x`

    \"\"\"
    x = np.asarray(x)
    dim = x.shape
    results = np.zeros((n + 1,) + dim)
    results[0, ...] = np.ones(dim)
    results[1, ...] = x * kind
    for i in range(2, n + 1):
        results[i, ...] = 2 * x * results[i - 1, ...] - results[i - 2, ...]
    return results"

/-- `phi_chain`, `smolyak/grid.py` L279-313. -/
def phiChainText : Str := c!"def phi_chain(n):
    \"\"\"
    For each number in 1 to n, compute the Smolyak indices for the
    corresponding basis functions. This is the :math:`n` in
    :math:`\\\\phi_n`

    Parameters
    ----------
    n : int
        The last Smolyak index :math:`n` for which the basis polynomial
        indices should be found

    Returns
    -------
    aphi_chain : dict (int -> list)
        A dictionary whose keys are the Smolyak index :math:`n` and
        values are lists containing all basis polynomial subscripts for
        that Smolyak index

    \"\"\"

    # First create a dictionary
    aphi_chain = {}

    aphi_chain[1] = [1]
    aphi_chain[2] = [2, 3]

    curr_val = 4
    for i in range(3, n + 1):
        end_val = 2 ** (i - 1) + 1
        temp = range(curr_val, end_val + 1)
        aphi_chain[i] = temp
        curr_val = end_val + 1

    return aphi_chain"

/-- `s_n`, `smolyak/grid.py` L203-235. -/
def sNText : Str := c!"def s_n(n):
    \"\"\"
    Finds the set :math:`S_n` , which is the :math:`n` th Smolyak set of
    Chebychev extrema

    Parameters
    ----------
    n : int
        The index :math:`n` specifying which Smolyak set to compute

    Returns
    -------
    s_n : array (float, ndim=1)
        An array containing all the Chebychev extrema in the set
        :math:`S_n`

    \"\"\"

    if n == 1:
        return np.array([0.0])

    # Apply the necessary transformation to get the nested sequence
    m_i = 2 ** (n - 1) + 1

    # Create an array of values that will be passed in to calculate
    # the set of values
    comp_vals = np.arange(1.0, m_i + 1.0)

    # Values are - cos(pi(j-1)/(n-1)) for j in [1, 2, ..., n]
    vals = -1.0 * np.cos(np.pi * (comp_vals - 1.0) / (m_i - 1.0))
    vals[np.where(np.abs(vals) < 1e-14)] = 0.0

    return vals"

/-- `a_chain`, `smolyak/grid.py` L238-276. -/
def aChainText : Str := c!"def a_chain(n):
    \"\"\"
    Finds all of the unidimensional disjoint sets of Chebychev extrema
    that are used to construct the grid.  It improves on past algorithms
    by noting  that :math:`A_{n} = S_{n}` [evens] except for :math:`A_1
    = \\{0\\}`  and :math:`A_2 = \\{-1, 1\\}` . Additionally, :math:`A_{n} =
    A_{n+1}` [odds] This prevents the calculation of these nodes
    repeatedly. Thus we only need to calculate biggest of the S_n's to
    build the sequence of :math:`A_n` 's

    Parameters
    ----------
    n : int
      This is the number of disjoint sets from Sn that this should make

    Returns
    -------
    A_chain : dict (int -> list)
      This is a dictionary of the disjoint sets that are made.  They are
      indexed by the integer corresponding

    \"\"\"

    # # Start w finding the biggest Sn(We will subsequently reduce it)
    Sn = s_n(n)

    A_chain = {}
    A_chain[1] = [0.0]
    A_chain[2] = [-1.0, 1.0]

    # Need a for loop to extract remaining elements
    for seq in range(n, 2, -1):
        num = Sn.size
        # Need odd indices in python because indexing starts at 0
        A_chain[seq] = tuple(Sn[range(1, num, 2)])
        # A_chain.append(list(Sn[range(1, num, 2)]))
        Sn = Sn[range(0, num, 2)]

    return A_chain"

/-- `smol_inds`, `smolyak/grid.py` L321-377. -/
def smolIndsText : Str := c!"def smol_inds(d, mu):
    \"\"\"
    Finds all of the indices that satisfy the requirement that
    :math:`d \\leq \\sum_{i=1}^d \\leq d + \\mu`.

    Parameters
    ----------
    d : int
        The number of dimensions in the grid

    mu : int or array (int, ndim=1)
        The parameter mu defining the density of the grid. If an array,
        there must be d elements and an anisotropic grid is formed

    Returns
    -------
    true_inds : array
        A 1-d Any array containing all d element arrays satisfying the
        constraint

    Notes
    -----
    This function is used directly by build_grid and poly_inds

    \"\"\"
    if isinstance(mu, int):
        max_mu = mu
    else:
        if mu.size != d:
            raise ValueError(\"mu must have d elements. It has %i\" % mu.size)
        max_mu = int(np.max(mu))

    # Need to capture up to value mu + 1 so in python need mu+2
    possible_values = range(1, max_mu + 2)

    # find all (i1, i2, ... id) such that their sum is in range
    # we want; this will cut down on later iterations
    poss_inds = [
        el
        for el in combinations_with_replacement(possible_values, d)
        if d < sum(el) <= d + max_mu
    ]

    if isinstance(mu, int):
        true_inds = [[el for el in permute(list(val))] for val in poss_inds]
    else:
        true_inds = [
            [el for el in permute(list(val)) if all(el <= mu + 1)] for val in poss_inds
        ]

    # Add the d dimension 1 array so that we don't repeat it a bunch
    # of times
    true_inds.extend([[[1] * d]])

    tinds = list(chain.from_iterable(true_inds))

    return tinds"

/-- `poly_inds`, `smolyak/grid.py` L380-429. -/
def polyIndsText : Str := c!"def poly_inds(d, mu, inds=None):
    \"\"\"
    Build indices specifying all the Cartesian products of Chebychev
    polynomials needed to build Smolyak polynomial

    Parameters
    ----------
    d : int
        The number of dimensions in grid / polynomial

    mu : int
        The parameter mu defining the density of the grid

    inds : list (list (int)), optional (default=None)
        The Smolyak indices for parameters d and mu. Should be computed
        by calling `smol_inds(d, mu)`. If None is given, the indices
        are computed using this function call

    Returns
    -------
    phi_inds : array : (int, ndim=2)
        A two dimensional array of integers where each row specifies a
        new set of indices needed to define a Smolyak basis polynomial

    Notes
    -----
    This function uses smol_inds and phi_chain. The output of this
    function is used by build_B to construct the B matrix

    \"\"\"
    if inds is None:
        inds = smol_inds(d, mu)

    if isinstance(mu, int):
        max_mu = mu
    else:
        max_mu = max(mu)

    aphi = phi_chain(max_mu + 1)

    base_polys = []

    for el in inds:
        temp = [aphi[i] for i in el]
        # Save these indices that we iterate through because
        # we need them for the chebychev polynomial combination
        # inds.append(el)
        base_polys.extend(list(product(*temp)))

    return base_polys"

/-- `build_grid`, `smolyak/grid.py` L432-481. -/
def buildGridText : Str := c!"def build_grid(d, mu, inds=None):
    \"\"\"
    Use disjoint Smolyak sets to construct Smolyak grid of degree d and
    density parameter :math:`mu`

    The return value is an :math:`n \\\\times d` Array, where :math:`n`
    is the number of points in the grid

    Parameters
    ----------
    d : int
        The number of dimensions in the grid

    mu : int
        The density parameter for the grid

    inds : list (list (int)), optional (default=None)
        The Smolyak indices for parameters d and mu. Should be computed
        by calling `smol_inds(d, mu)`. If None is given, the indices
        are computed using this function call

    Returns
    -------
    grid : array (float, ndim=2)
        The Smolyak grid for the given d, :math:`mu`

    \"\"\"
    if inds is None:
        inds = smol_inds(d, mu)

    # Get An chain
    if isinstance(mu, int):
        An = a_chain(mu + 1)
    else:  # Anisotropic case
        An = a_chain(max(mu) + 1)

    points = []

    # Need to get the correct indices

    for el in inds:
        temp = [An[i] for i in el]
        # Save these indices that we iterate through because
        # we need them for the chebychev polynomial combination
        # inds.append(el)
        points.extend(list(product(*temp)))

    grid = np.array(points)

    return grid"

/-- `build_B`, `smolyak/grid.py` L484-559. -/
def buildBText : Str := c!"def build_B(d, mu, pts, b_inds=None, deriv=False):
    \"\"\"
    Compute the matrix B from equation 22 in JMMV 2013
    Translation of dolo.numeric.interpolation.smolyak.SmolyakBasic

    Parameters
    ----------
    d : int
        The number of dimensions on the grid

    mu : int or array (int, ndim=1, legnth=d)
        The mu parameter used to define grid

    pts : array (float, dims=2)
        Arbitrary d-dimensional points. Each row is assumed to be a new
        point. Often this is the smolyak grid returned by calling
        `build_grid(d, mu)`

    b_inds : array (int, ndim=2)
        The polynomial indices for parameters a given grid. These should
        be  computed by calling `poly_inds(d, mu)`.

    deriv : bool
        Whether or not to compute the values needed for the derivative matrix
        B_prime.

    Returns
    -------
    B : array (float, ndim=2)
        The matrix B that represents the Smolyak polynomial
        corresponding to grid

    B_Prime : array (float, ndim=3), optional (default=false)
        This will be the 3 dimensional array representing the gradient of the
        Smolyak polynomial at each of the points. It is only returned when
        `deriv=True`

    \"\"\"
    if b_inds is None:
        inds = smol_inds(d, mu)
        b_inds = poly_inds(d, mu, inds)

    if isinstance(mu, int):
        max_mu = mu
    else:
        max_mu = max(mu)

    Ts = cheby2n(pts.T, m_i(max_mu + 1))
    npolys = len(b_inds)
    npts = pts.shape[0]
    B = np.empty((npts, npolys), order=\"F\")
    for ind, comb in enumerate(b_inds):
        B[:, ind] = reduce(mul, [Ts[comb[i] - 1, i, :] for i in range(d)])

    if deriv:
        # TODO: test this. I am going to bed.
        Us = cheby2n(pts.T, m_i(max_mu + 1), kind=2.0)
        Us = np.concatenate([np.zeros((1, d, npts)), Us], axis=0)
        for i in range(Us.shape[0]):
            Us[i, :, :] = Us[i, :, :] * i

        der_B = np.zeros((npolys, d, npts))

        for i in range(d):
            for ind, comb in enumerate(b_inds):
                der_B[ind, i, :] = reduce(
                    mul,
                    [
                        (Ts[comb[k] - 1, k, :] if i != k else Us[comb[k] - 1, k, :])
                        for k in range(d)
                    ],
                )

        return B, der_B

    return B"

/-- The value of `basis`, `splines/filter_cubic.py` L8. -/
def oldBasisText : Str := c!"np.array([1.0 / 6.0, 2.0 / 3.0, 1.0 / 6.0, 0.0])"

end Interp.Spec.PySrc
