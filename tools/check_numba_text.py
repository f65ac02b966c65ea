"""Compares the text of /repo/interpolation/splines/eval_cubic_numba.py with a dimension-generic
template (syntax trees only; the code is not executed).  The Lean model `Model/CubicNumba.lean` follows
this template."""
import ast, sys

SRC = "/repo/interpolation/splines/eval_cubic_numba.py"
tree = ast.parse(open(SRC).read())
funcs = {n.name: n for n in tree.body if isinstance(n, ast.FunctionDef)}


def trex(d, diff, multi, off=()):
    i = len(off)
    if i == d:
        idx = ", ".join(f"i{q} + {o}" for q, o in enumerate(off)) + (", k" if multi else "")
        return f"coefs[{idx}]"
    pre = "dPhi" if diff == i else "Phi"
    return " + ".join(f"{pre}{i}_{j} * ({trex(d, diff, multi, off + (j,))})" for j in range(4))


def header(d):
    L = []
    for i in range(d):
        L += [f"M{i} = orders[{i}]", f"start{i} = a[{i}]", f"dinv{i} = (orders[{i}] - 1.0) / (b[{i}] - a[{i}])"]
    return L


def locate(d, many):
    L = []
    for i in range(d):
        L.append(f"x{i} = points[n, {i}]" if many else f"x{i} = point[{i}]")
    for i in range(d):
        L += [f"u{i} = (x{i} - start{i}) * dinv{i}", f"i{i} = int(floor(u{i}))",
              f"i{i} = max(min(i{i}, M{i} - 2), 0)", f"t{i} = u{i} - i{i}"]
    for i in range(d):
        L += [f"tp{i}_0 = t{i} * t{i} * t{i}", f"tp{i}_1 = t{i} * t{i}", f"tp{i}_2 = t{i}", f"tp{i}_3 = 1.0"]
    for i in range(d):
        L += [f"Phi{i}_{j} = 0" for j in range(4)]
        L.append(f"if t{i} < 0:")
        L += [f"    Phi{i}_{j} = dAd[{j}, 3] * t{i} + Ad[{j}, 3]" for j in range(4)]
        L.append(f"elif t{i} > 1:")
        L += [f"    Phi{i}_{j} = (3 * Ad[{j}, 0] + 2 * Ad[{j}, 1] + Ad[{j}, 2]) * (t{i} - 1) + "
              f"(Ad[{j}, 0] + Ad[{j}, 1] + Ad[{j}, 2] + Ad[{j}, 3])" for j in range(4)]
        L.append("else:")
        L += [f"    Phi{i}_{j} = Ad[{j}, 0] * tp{i}_0 + Ad[{j}, 1] * tp{i}_1 + Ad[{j}, 2] * tp{i}_2 + "
              f"Ad[{j}, 3] * tp{i}_3" for j in range(4)]
    return L


def dphis(d):
    return [f"dPhi{i}_{j} = (dAd[{j}, 0] * tp{i}_0 + dAd[{j}, 1] * tp{i}_1 + dAd[{j}, 2] * tp{i}_2 + "
            f"dAd[{j}, 3] * tp{i}_3) * dinv{i}" for i in range(d) for j in range(4)]


def ind(L):
    return ["    " + l for l in L]


def expected(kind, d):
    if kind == "eval_cubic_spline":
        return header(d) + locate(d, False) + [f"t = {trex(d, None, False)}", "return t"]
    if kind == "vec_eval_cubic_spline":
        return ["d = a.shape[0]", "N = points.shape[0]", "for n in range(N):"] + ind(
            locate(d, True)[:d] + header(d) + locate(d, True)[d:] + [f"out[n] = {trex(d, None, False)}"])
    if kind == "eval_cubic_splines":
        return [f"n_vals = coefs.shape[{d}]"] + header(d) + locate(d, False) + ["for k in range(n_vals):"] + ind(
            [f"vals[k] = {trex(d, None, True)}"])
    if kind == "vec_eval_cubic_splines":
        return [f"n_vals = coefs.shape[{d}]", "N = points.shape[0]"] + header(d) + ["for n in range(N):"] + ind(
            locate(d, True) + ["for k in range(n_vals):"] + ind([f"vals[n, k] = {trex(d, None, True)}"]))
    if kind == "vec_eval_cubic_splines_G":
        return [f"n_vals = coefs.shape[{d}]", "N = points.shape[0]"] + header(d) + ["for n in range(N):"] + ind(
            locate(d, True) + dphis(d) + ["for k in range(n_vals):"] + ind(
                [f"vals[n, k] = {trex(d, None, True)}"] +
                [f"dvals[n, {i}, k] = {trex(d, i, True)}" for i in range(d)]))


def flat(body):
    """statements with nested blocks, as text"""
    return [ast.unparse(s) for s in body]


bad = 0
for kind in ["eval_cubic_spline", "vec_eval_cubic_spline", "eval_cubic_splines", "vec_eval_cubic_splines",
             "vec_eval_cubic_splines_G"]:
    for d in range(1, 5):
        f = funcs.pop(f"{kind}_{d}")
        exp = ast.parse("def f():\n" + "\n".join(ind(expected(kind, d)))).body[0]
        got, want = flat(f.body), flat(exp.body)
        if got != want:
            bad += 1
            print("DIFFERS", kind, d, len(got), len(want))
            for g, w in zip(got, want):
                if g != w:
                    gl, wl = g.split("\n"), w.split("\n")
                    for x, y in zip(gl, wl):
                        if x != y:
                            print("   got ", x[:300]); print("   want", y[:300]); break
                    else:
                        print("   got ", len(gl), "lines; want", len(wl))
                    break
        else:
            print("same", kind, d)
print("other functions:", list(funcs))
sys.exit(bad)
