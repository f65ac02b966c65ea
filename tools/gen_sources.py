#!/usr/bin/env python3
"""Write lean/Verif/Spec/SourceTexts.lean: the source texts of functions of /repo, character for character
(from `def` to the last line, without decorators). `--check` compares the file with the texts."""
import ast, os, sys

REPO = "/repo/interpolation/"
OUT = os.path.join(os.path.dirname(__file__), "..", "lean", "Verif", "Spec", "SourceTexts.lean")

# (lean name, file, function, occurrence); the constant texts are the right sides of assignments
FUNS = [
    ("hermiteSplinesText", "splines/hermite.py", "hermite_splines", 0),
    ("hermiteInterpText", "splines/hermite.py", "hermite_interp", 0),
    ("hermiteInterpolationText", "splines/hermite.py", "HermiteInterpolation", 0),
    ("hermiteInterpolationVectText", "splines/hermite.py", "HermiteInterpolationVect", 0),
    ("olHermiteText", "splines/hermite.py", "ol_hermite", 0),
    ("solveText", "splines/prefilter_cubic.py", "solve_deriv_interp_1d", 0),
    ("findCoefsText", "splines/prefilter_cubic.py", "find_coefs_1d", 0),
    ("filterText", "splines/prefilter_cubic.py", "__filter_cubic", 0),
    ("filterAllocText", "splines/prefilter_cubic.py", "__filter_cubic", 1),
    ("b0Text", "splines/basis_splines.py", "B0", 0),
    ("bText", "splines/basis_splines.py", "B", 0),
    ("nCompleteText", "complete_poly.py", "n_complete", 0),
    ("implVecText", "complete_poly.py", "_complete_poly_impl_vec", 0),
    ("implMatText", "complete_poly.py", "_complete_poly_impl", 0),
    ("derImplVecText", "complete_poly.py", "_complete_poly_der_impl_vec", 0),
    ("derImplMatText", "complete_poly.py", "_complete_poly_der_impl", 0),
    ("completePolynomialText", "complete_poly.py", "complete_polynomial", 0),
    ("completePolynomialDerText", "complete_poly.py", "complete_polynomial_der", 0),
]
CONSTS = [("basisText", "splines/prefilter_cubic.py", "basis")]


def lit(s):
    return '"' + s.replace("\\", "\\\\").replace('"', '\\"') + '"'


cache = {}


def load(f):
    if f not in cache:
        src = open(REPO + f, encoding="utf8").read()
        cache[f] = (src.split("\n"), ast.parse(src))
    return cache[f]



def head(title):
    return ["import Verif.Model.Tempita", "", "/-!", "# " + title, "",
            "Written by `tools/gen_sources.py` from the files of `/repo`, character for character.", "-/", "",
            "namespace Interp.Spec.PySrc", "", "open Interp.Tempita (Str)", "",
            "set_option maxRecDepth 100000", ""]


def texts(funs, consts):
    out = []
    for name, f, fun, k in funs:
        lines, tree = load(f)
        n = [x for x in tree.body if isinstance(x, ast.FunctionDef) and x.name == fun][k]
        s = "\n".join(lines[n.lineno - 1:n.end_lineno])
        out += [f"/-- `{fun}`, `{f}` L{n.lineno}-{n.end_lineno}. -/", f"def {name} : Str := c!{lit(s)}", ""]
    for name, f, var in consts:
        lines, tree = load(f)
        n = next(x for x in tree.body if isinstance(x, ast.Assign) and getattr(x.targets[0], "id", "") == var)
        s = ast.get_source_segment(open(REPO + f, encoding="utf8").read(), n.value)
        out += [f"/-- The value of `{var}`, `{f}` L{n.lineno}. -/", f"def {name} : Str := c!{lit(s)}", ""]
    return out


txt = "\n".join(head("Source texts") + texts(FUNS, CONSTS) + ["end Interp.Spec.PySrc", ""])

# eval_cubic_numba.py: texts given by their lines; the module-level statements before the first function
NUMBA = "splines/eval_cubic_numba.py"
OUT2 = os.path.join(os.path.dirname(__file__), "..", "lean", "Verif", "Spec", "NumbaTexts.lean")


def camel(s):
    a = s.split("_")
    return a[0] + "".join(w[:1].upper() + w[1:] for w in a[1:])


out2 = ["import Verif.Model.Tempita", "import Verif.Spec.Lines", "", "/-!", "# Source texts of `eval_cubic_numba.py`", "",
        "Written by `tools/gen_sources.py` from the file in `/repo`, character for character, line by line.", "-/", "",
        "namespace Interp.Spec.PySrc", "", "open Interp.Tempita (Str)", "",
        "set_option maxRecDepth 1000000", ""]
lines, tree = load(NUMBA)
funs = [n for n in tree.body if isinstance(n, ast.FunctionDef)]
stmts = [n for n in tree.body if isinstance(n, (ast.Assign, ast.For))]
assert len(funs) + len(stmts) + sum(isinstance(n, ast.ImportFrom) or isinstance(n, ast.Import) for n in tree.body) == len(tree.body)
assert stmts[-1].end_lineno < funs[0].lineno
a, b = stmts[0].lineno, stmts[-1].end_lineno
out2 += [f"/-- The statements outside functions, `{NUMBA}` L{a}-{b}. -/",
         "def numbaInitText : List Str := lines!" + lit("\n".join(lines[a - 1:b])), ""]
for n in funs:
    s = "\n".join(lines[n.lineno - 1:n.end_lineno])
    out2 += [f"/-- `{n.name}`, `{NUMBA}` L{n.lineno}-{n.end_lineno}. -/", f"def {camel(n.name)}Text : List Str := lines!{lit(s)}", ""]
out2 += ["end Interp.Spec.PySrc", ""]
txt2 = "\n".join(out2)

# more functions: (lean name, file, function, occurrence), and texts of constants
MORE = [
    ("oldSolveText", "splines/filter_cubic.py", "solve_deriv_interp_1d", 0),
    ("oldFindCoefsText", "splines/filter_cubic.py", "find_coefs_1d", 0),
    ("filterCoeffs1dText", "splines/filter_cubic.py", "filter_coeffs_1d", 0),
    ("filterCoeffs2dText", "splines/filter_cubic.py", "filter_coeffs_2d", 0),
    ("filterCoeffs3dText", "splines/filter_cubic.py", "filter_coeffs_3d", 0),
    ("filterCoeffs4dText", "splines/filter_cubic.py", "filter_coeffs_4d", 0),
    ("filterCoeffsText", "splines/filter_cubic.py", "filter_coeffs", 0),
    ("filterMcoeffsText", "splines/filter_cubic.py", "filter_mcoeffs", 0),
    ("filterDataText", "splines/filter_cubic.py", "filter_data", 0),
    ("cartesianText", "cartesian.py", "cartesian", 0),
    ("mlinspaceText", "cartesian.py", "mlinspace", 0),
    ("repeat1dText", "cartesian.py", "_repeat_1d", 0),
    ("permuteText", "smolyak/util.py", "permute", 0),
    ("numGridPointsText", "smolyak/grid.py", "num_grid_points", 0),
    ("mIText", "smolyak/grid.py", "m_i", 0),
    ("cheby2nText", "smolyak/grid.py", "cheby2n", 0),
    ("phiChainText", "smolyak/grid.py", "phi_chain", 0),
    ("sNText", "smolyak/grid.py", "s_n", 0),
    ("aChainText", "smolyak/grid.py", "a_chain", 0),
    ("smolIndsText", "smolyak/grid.py", "smol_inds", 0),
    ("polyIndsText", "smolyak/grid.py", "poly_inds", 0),
    ("buildGridText", "smolyak/grid.py", "build_grid", 0),
    ("buildBText", "smolyak/grid.py", "build_B", 0),
]
MORE_CONSTS = [("oldBasisText", "splines/filter_cubic.py", "basis")]
OUT3 = os.path.join(os.path.dirname(__file__), "..", "lean", "Verif", "Spec", "MoreTexts.lean")
txt3 = "\n".join(head("More source texts") + texts(MORE, MORE_CONSTS) + ["end Interp.Spec.PySrc", ""])

if "--check" in sys.argv:
    same = all(open(o, encoding="utf8").read() == t for o, t in [(OUT, txt), (OUT2, txt2), (OUT3, txt3)])
    print("same" if same else "DIFFERENT")
    sys.exit(0 if same else 1)
open(OUT, "w", encoding="utf8").write(txt)
open(OUT2, "w", encoding="utf8").write(txt2)
open(OUT3, "w", encoding="utf8").write(txt3)
