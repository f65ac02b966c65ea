# Lean model of EconForge/interpolation.py

## 1. What is modelled, and over which arithmetic

The Python sources in `/repo` are read as text and never run. Each numerical function is transcribed
to a Lean function of the same control flow; every definition cites file and lines.

**Arithmetic.** The model is generic in the scalar type `K`. It uses only the *notation* classes
(`Add`, `Sub`, `Mul`, `Div`, `Neg`, `Zero`, `One`, casts, a decidable `<`, `==`) and a class
`IntFloor` for `int(floor(x))` and `int(x // y)`; none of these classes has laws. Theorems are at
four levels, and the manifest says which:

* **A – any arithmetic.** No law is assumed; the theorem also holds for IEEE-754 doubles with
  whatever rounding, overflow and NaN behaviour (index safety, pointwise = vectorised, in-place =
  allocated, component independence, dispatch, histories).
* **B – exact arithmetic.** `K` is any linearly ordered field with floor (ℚ, ℝ, ...).
* **C – real analysis.** `K = ℝ` (continuity, derivatives, cos).
* **R – rounded arithmetic.** `K = Fl R` (`Spec/Rounding.lean`): real numbers on which `+ - * /` are
  followed by a rounding function with relative error at most `u`. Negation, comparison, floor and
  conversions of integers are exact. No overflow, underflow, infinities or NaN. Round-to-nearest
  binary numbers with any number of digits are constructed as an instance.

Level B and C theorems are about the exact-arithmetic reading of the code.

**Exceptions are values.** Functions return `Py α = Except Err α`. Compiled (numba) code raises
`ZeroDivisionError` on a zero divisor: modelled by `pyDiv`. Array reads are bounds-checked in the
model with the numba wrap-around of negative indices; an access outside is `Err.outOfBounds` (in reality
undefined behaviour), so "the result is `ok`" includes "no illegal access".

**Code generation.** `codegen.py` builds source text from templates. The model is a deep embedding at
the granularity of template lines: the generator (branching on call shape, mode, orders, axis kinds)
produces a list of `Stmt`s, and an interpreter runs them over an environment of optional variables
(reading an undefined variable is `Err.name`, a missing `return` falls through). The tensor sum text
produced by `gen_trex`/`get_values` is an expression tree `TExpr`. Theorems are about running the
generated program. The text level is modelled as well: `Model/CodegenText.lean` contains the literal templates and
runs them through a model of the template engine, and C91 proves that the resulting text is, line by line, the program
of `Stmt`s. C97 closes the circle: `Spec/PyLang.lean` and `Spec/PyEval.lean` define, without reference to the code generator,
how a text of a small part of Python is parsed and executed, and executing the generated text gives the results of the
interpreter of `Stmt`s. So for `codegen.py` the part that is trusted is not the statements but the literal templates, the
template engine, and the meaning of this part of Python as compiled by numba (division by zero raises, negative indices wrap,
an index out of bounds is an error; a name is local when it has been assigned, otherwise global; `floor` gives an integer).
C98 does the same for the texts that `multilinear/fungen.py` and `make_mlinterp` build with `str.format` (`Model/FungenText.lean`).

**Source texts.** For hand-written functions the transcription into the model is itself proved correct, file by file (C108 and later).
`Spec/SourceTexts.lean` contains the texts of the functions character for character (written by `tools/gen_sources.py`, which can
compare them with `/repo`: `--check`). `Spec/PySrc.lean` reads them (lines, indentation, expressions, statements, inner
functions), `Spec/PyRun.lean` executes the result: arrays are references into a heap, views remember the fixed indices, functions
registered with `@overload` are executed on the arguments in place of their types and return the implementation; lists, tuples,
dictionaries with integer keys, comprehensions, keyword arguments and elementwise operations on arrays are values and
expressions of the language. The
theorems say that executing the texts gives the results and the exceptions of the model. What is trusted for these files is then the
reading and execution of this part of Python, not the model. Long texts are given by their lines (`Spec/Lines.lean`,
`Spec/NumbaTexts.lean`); the statements of a file outside its functions are executed first and the arrays that they make are
constants for the functions (`loadLines`, `assigned`). The syntax trees in `Proofs/SourceTrees.lean` are only a cache: that
the parser returns them is proved (`kernel_rfl`). Simplifications of the execution: an iterator or generator is the list of its
elements, `np.empty` returns zeros, the transpose of an array is a new array, `np.where` is for a condition on a vector, `cos`, `pi` and
`1e-14` are the ones of the arithmetic (`Model/Trig.lean`).

**Objects are records**; a method that can raise after having changed the object returns the new
record together with the outcome, so histories with failing calls can be stated.

## 2. Trusted base

* The Lean 4.33.0 kernel.
* Axioms: `propext`, `Classical.choice`, `Quot.sound`, and no other. `Verif/Audit.lean` (written by
  `tools/gen_audit.py`) prints the axioms of every theorem of the manifest during the build. No
  `sorry`, no own axioms, no `native_decide`/`bv_decide`.
* The fidelity of the transcription (source file → model file):

| source (`/repo/interpolation/…`) | model |
|---|---|
| `splines/codegen.py`, `splines/eval_splines.py`, `splines/option_types.py` | `Model/Codegen.lean` |
| `splines/codegen.py` as text | `Model/CodegenText.lean`, `Model/TemplateText.lean` (literal templates, written by `tools/gen_templates.py`, which can compare them with the source: `--check`), `Model/PyExpr.lean` (the Python expressions inside the templates: names, integers, strings, calls, subscripts, attributes, comparisons, boolean operators) |
| `tempita/__init__.py` | `Model/Tempita.lean` (text templates with default delimiters; no inheritance, no HTML) |
| `tempita/_looper.py` | `Model/Looper.lean` (a getter of any kind is a function) |
| `splines/prefilter_cubic.py`, `splines/filter_cubic.py` | `Model/Filter.lean` |
| `splines/eval_cubic_numba.py` | `Model/CubicNumba.lean` (generic in `d`; that the twenty texts compute what it says is C112) |
| `splines/eval_cubic.py`, `splines/multilinear_numba.py`, `splines/splines.py`, `splines/multilinear.py` | `Model/Objects.lean` |
| `splines/hermite.py` | `Model/Hermite.lean` |
| `splines/basis_splines.py` | `Model/BSplines.lean` |
| `splines/__init__.py`, `cartesian.py` | `Model/Cartesian.lean` |
| `multilinear/fungen.py`, `multilinear/mlinterp.py` | `Model/Mlinterp.lean` (meaning), `Model/FungenText.lean` (the generated source texts) |
| `complete_poly.py` | `Model/CompletePoly.lean` |
| `smolyak/util.py` | `Model/Permute.lean` |
| `smolyak/grid.py`, `smolyak/interp.py` | `Model/Smolyak.lean`, `Model/Chebyvalto.lean` (`chebyvalto`) |

* Semantics given to library calls: numba typing and compilation (only the errors that the properties
  mention), `np.searchsorted` (left binary search), `np.zeros`, `np.empty` (arbitrary content passed as
  `garbage`), `reshape` (row-major), `np.linspace`, `np.meshgrid`.
* Linear algebra is a parameter. `LinAlgOK` (in `Spec/Smolyak.lean`): `scipy.linalg.lu(B, True)` returns factors whose
  product is `B`; `numpy.linalg.solve` solves nonsingular systems. `LeastSquares` (in `Spec/Monomials.lean`): `lstsq`
  returns a minimiser. Both appear as hypotheses of the theorems that need them, and both are shown
  to be satisfiable (`exactLA_ok`, `leastSquares_exists`).

**Not modelled.** `numba` itself, `misc/`, `examples/`,
`docs/`, `dev.py`, tests, plotting (`plot_grid`), `__repr__`, docstrings, `float32` arrays, machine integer
overflow, concurrency, caching of compiled functions, timing. Simplifications local to one file are
stated at the head of the model file.

## 3. Layout

* `lean/Verif/Model/*` – the transcription. No theorem there except termination facts.
* `lean/Verif/Spec/*` – small independent specifications (what is a node, a multi-affine function, a
  natural cubic spline, a monomial, a rounding, ...).
* `lean/Verif/Proofs/*` – lemmas.
* `lean/Verif/Props/*` – the property theorems `Cnn_...`, each with an `example` that applies it to a
  concrete case. Where the code does not satisfy the property, the negation is proved (`Cnn_..._fails`;
  in general where possible, else on a witness) and the largest provable part as `Cnn_..._partial`.
* `lean/Verif/Audit.lean` – axioms of all theorems of the manifest.
* `seeded/` – wrong programs. `LOG.jsonl` has one line per attempt. `batch*.json` are hand-written bugs (run by
  `tools/seed.py`), `mech*.json` mechanical mutants of the model definitions (written by
  `tools/mutate.py`, run by `tools/mutrun.py`). All are built in a scratch copy. How to read `theorems_failed`: a plain name is a theorem
  whose own proof failed. "(not built)" means that its module, or a module it imports, stopped at an earlier error
  (`first_failures`); the theorem was then not checked, and the line does not by itself show that its statement is false
  of the wrong program, as a lemma may only have lost its proof script. Lines of `batch*` list only theorems of the claimed properties.
  The log is not a detection rate. For most of its life `tools/mutrun.py` wrote a line only when the build failed, so that
  every line of the log says "fails". 130 mutants of `mech*.json` (57 of 234 and 73 of 160) and the 14 edits of `batch5.json`
  have no line: the mutants did not elaborate, survived, or were never run, the edits of `batch5.json` left no result, and no
  record says which. They should be run again and the survivors examined; a survivor is an equivalent program or shows that a
  theorem is too weak. The runner now also logs survivors. Lines of `batch*` for edits that did not elaborate were removed.
* `lean/Verif/Tools/GenTree.lean` writes `Proofs/TemplateTree.lean`: the parsed templates, and the proof by evaluation that the
  model's parser gives them.
* `tools/gen_properties.py`, `tools/gen_manifest.py` write `properties.jsonl` and `MANIFEST.json`.

## 4. How the properties are proved

| id | file | method |
|----|------|------|
| C01–C05, C10, C11, C15, C17 | `Props/LinearValues`, `Props/SplineCalls` | running the generated program = tensor sum of 1-d weights, for every call form (`GoodCall.returns`); then induction on the axes. C05 fails for in-place single-point vector calls, C17 fails for nonuniform axes |
| C06–C09, C14, C16 | `Props/SplineSafety`, `Props/SplineCalls` | same refinement in any arithmetic |
| C12, C13, C21, C22, C24, C25 | `Props/SplineCalculus`, `Props/CubicShape` | finite closed cover by cells; derivative of the tensor sum. C13 fails on uniform axes of spacing ≠ 1 |
| C18–C20, C23, C27–C33 | `Props/CubicFilter` | elimination invariant (pivots, solved rows) by induction on rows; several dimensions by nesting one-dimensional solves. C32 fails with an `out` argument |
| C26, C77 | `Props/CubicGradient` | specialised evaluators refine the generated ones. C26 fails outside the grid |
| C34–C39 | `Props/Mlinterp` | own model including call-shape detection. C39 fails: extra arguments are ignored |
| C40–C43 | `Props/Hermite` | |
| C44–C46 | `Props/BSplines` | Cox–de Boor recursion by induction on the degree |
| C47–C52 | `Props/CompletePoly`, `Props/CompleteFit` | loops unrolled into lists, bijection with exponent vectors; least squares by its contract |
| C53–C57 | `Props/Grids` | `_repeat_1d` index arithmetic. C53 fails for empty input, C55 for nonuniform axes |
| C58–C60, C71 | `Props/SmolyakGrid` | next-permutation loop, counting |
| C61–C70, C72, C73 | `Props/SmolyakGrid`, `Props/SmolyakClass`, `Props/SmolyakInterp`, `Props/SmolyakAny` | Chebyshev extrema over ℝ, unisolvence by hierarchical triangularity. C61–C67 fail from level 50 on (threshold `1e-14`), C66/C70 fail for several outputs. `SmolyakAny`: any coefficients, every level, every linear algebra |
| C74–C76 | `Props/ObjectHistory`, `Props/Objects`, `Props/Legacy` | objects as state machines. C75 fails for the linear classes (orientation of `grid`), C76 for `vec_multilinear_interpolation` with `out` |
| C78, C79 | `Props/Rounding` | calculus of relative errors (`Near`), induction on the axes |
| C80, C81 | `Props/LinearError` | error of one axis (Lipschitz, or convexity of `f ± M t²/2`), telescoping over the axes; uniform continuity on compact boxes |
| C87–C90 | `Props/CubicError` | diagonal dominance of the filtering system (`tri_le`), one axis at a time (`spl_cons`); fourth order: consistency of second differences by convexity, then the error function of one cell |
| C82 | `Props/Chebyvalto` | loop invariant on blocks of columns. The code never computes the last polynomial |
| C83–C85 | `Props/Symmetry` | closed form of the tensor sum (`evalAt_ofFn`) and its behaviour under changes of variables |
| C86 | `Props/Errors` | first failing element of the comprehension |
| C91 | `Props/GeneratedText` | the template engine run symbolically (`GivesLines`): one lemma per node of the parsed template, for all namespaces that give the variables their values |
| C92 | `Props/Templates` | lexer: induction over the text with a position invariant (`Chunks`); parser: fuel bound and printer inverse by mutual induction over trees; trimming: pointwise relation (`Trimmed`) |
| C93 | `Props/Looper` | list positions; groups by case analysis of the neighbours |
| C94 | `Props/Options` | overload resolution by cases, then the values from C01-C05's `Returns` |
| C95 | `Props/CompleteObject` | the monomials of C47 as `MvPolynomial`s; formal derivative by Leibniz; spanning from C50 |
| C96 | `Props/Misuse` | the argument checks by cases |
| C97 | `Props/GeneratedCode` | printer inverse for the lexer and parser (`Reads`, `Means`), then a simulation between environments of names and the records of variables of the model (`Rel`, `Sim`), statement by statement |
| C98 | `Props/FungenCode` | the same language, with one-line functions, functions of any number of arguments and calls of functions; printer inverse by induction on the number of axes; for `make_mlinterp` a loop invariant relating the array in the environment to the list of results |
| C99 | `Props/Curvature` | integration by parts in every cell: the second derivative of the spline is orthogonal to that of every function vanishing at the nodes (Holladay); for slopes the same with constants |
| C100, C101 | `Props/HermiteError` | Rolle's theorem four times on the difference with a quartic; the slope in a cell is affine in both tangents, so its minimum is at a corner of the square of admissible tangents |
| C102, C103 | `Props/CubicRounding` | absolute errors through the elimination and back substitution, whose recursions contract (`Proofs/FilterRounding`); induction on the axes (`Proofs/FilterRoundingNd`, `Proofs/CubicRoundingNd`); the weights are Lipschitz across the branch at the end of the cell, splines are Lipschitz by the mean value theorem |
| C104, C105 | `Props/CubicLocal` | the second differences of the coefficients solve a tridiagonal system; a comparison principle with weights `ρ^k` (`Proofs/CubicLocal`); induction on the axes, near and far nodes apart; for C105 the same comparison for the error of the second derivatives |
| C106, C107 | `Props/MlinterpRounding` | index and weight of a uniform axis are those of a nearby point (`Proofs/MlinterpRounding`); arrays: the formulas of `mlinterp` coincide with those of the linear splines in any arithmetic; induction on the axes |
| C108 | `Props/SourceHermite` | the parser is evaluated by the kernel; execution by rewriting with equations of the evaluator (`pysimp`, `Proofs/SrcRun`); a loop invariant relating the heap to the array of the model |
| C109 | `Props/SourceFilter` | as C108; an array is its part at the last indices (`fill`, `Proofs/SrcView`), so that slices of slices are handled by induction on the extra dimensions; loops of the text simulate loops of the model (`for_sim`), heaps related by `Reach` |
| C110 | `Props/SourceBSplines` | as C108, induction on the degree |
| C111 | `Props/SourceComplete` | as C108; the nested loops of each depth are instances of one scheme (`Proofs/SrcComplete`, `Proofs/SrcCompleteDer`) |
| C112 | `Props/SourceNumba` | the twenty parsed texts are instances of one tree that is generic in the list of axes (`Proofs/NumbaTree`, `Proofs/NumbaParse1`-`4`); each stage (grid, point, cell, powers, basis, sum) is proved for any list of axes (`Proofs/SrcNumbaStages`); the constants are computed by the kernel for arbitrary entries (`Proofs/SrcNumbaInit`) |
| C113 | `Props/SourceOldFilter` | the tridiagonal solver has the same text as in C109, so its run is reused (`Proofs/SrcSolve`, generic in the program); the loops of each dimension reduce to one lemma for the pass over data and one for the pass in place (`Proofs/SrcOldFilter`); array arithmetic, reshaping and the ellipsis are in `Proofs/SrcOldTop` |
| C114 | `Props/SourceCartesian` | the product loop of `cartesian` is followed column by column; the loops of `_repeat_1d` become `repeat1d` of the model; list comprehensions over arrays and shapes are one lemma each (`Proofs/SrcCartesian`) |
| C115 | `Props/SourceSmolyak` | the `while` loops of `permute` are followed pass by pass with the bounded loops of the model (`Proofs/SrcPermute`), whose bound is never reached by C58; `cheby2n` row by row through views of the first axis (`Proofs/SrcSmolyak`) |
| C116 | `Props/SourceEndToEnd` | C113 and C112 joined by C27 and C77; then C18, C21, C23, C26 and C88-C90, restated for what the texts compute |
| C117 | `Props/SourceSmolyakGrid` | index sets: `Proofs/SrcSmolInds`, `Proofs/SrcProducts` (products over a dictionary, for both `poly_inds` and `build_grid`); nodes: vectors on the heap (`Proofs/SrcVectors`, `Proofs/SrcChain`); `Proofs/SrcGrid` joins them; then C59-C62 for what the texts return |
| C118 | `Props/SourceSmolyakB` | `Proofs/SrcBuildB`: products of views of the heap, one column per pass of the loop; then `IndsOK.basisMat_det` for the grid of C117 |
| C119 | `Props/SourceSmolyakD` | `Proofs/SrcBuildD`: the polynomials of the second kind, shifted and scaled on the heap; then `hasDerivAt_chebProd` |
| C120 | `Props/SourceCurrent` | C109 and C97 put together; the function is that of C116 |
| C121 | `Props/SourceHermiteEnd` | C108 put together with C40-C43, C100, C101 |
| C122 | `Props/CompleteRounding` | level R: relative error of every entry, by induction on the factors |
| C123 | `Props/HermiteRounding` | level R: same branches as in exact arithmetic, then absolute errors of the single operations |
| C124 | `Props/BSplineRounding` | level R: induction on the degree; every step adds terms that are not negative |
| C125 | `Props/ChebRounding` | level R: the error satisfies the recursion of the polynomials; polynomials of the second kind are bounded by degree plus one |
| C126 | `Props/NodesRounding` | level R with errors of cos and pi (`Spec/RoundingTrig`): Jordan's inequality, then the grid by relating the two runs of `a_chain` and `build_grid` |
| C127 | `Props/SmolRounding` | level R: the error of the map to the cube enters the Chebyshev recursion as a local error; then products and sums |
| C128 | `Props/CompleteCallRounding` | level R: C122 for the terms, then products with the coefficients and the sum; the derivative of a monomial is read from its exponents |
| C129 | `Props/SmolGradRounding` | level R: as C127, with the recursion of the second kind and products with one factor of size `4^m` |
| C130 | `Props/SmolReproRounding` | level R: as C127, with the grid mapped to the domain and back; the solver enters through its residual |
| C131 | `Props/SmolDomRounding` | level R: C126 followed by the map of the cube to the domain |
| C132 | `Props/CubicSlopeRounding` | level R: as C103; the slope is Lipschitz across adjacent cells, its weights are those of a single coefficient (`Proofs/CubicSlopeRounding`) |
| C133 | `Props/RoundedError` | level R: C78 and C103 (rounding), C80, C88, C90 and C105 (smooth functions), linearity in the data; `mlinterp` by C107 |
