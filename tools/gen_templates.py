#!/usr/bin/env python3
"""Write lean/Verif/Model/TemplateText.lean: the template strings of splines/codegen.py, read as text."""
import ast, os, sys

SRC = "/repo/interpolation/splines/codegen.py"
OUT = os.path.join(os.path.dirname(__file__), "..", "lean", "Verif", "Model", "TemplateText.lean")


def lit(s):
    return '"' + s.replace("\\", "\\\\").replace('"', '\\"') + '"'


tree = ast.parse(open(SRC, encoding="utf8").read())
consts = {}
for node in tree.body:
    if isinstance(node, ast.Assign) and isinstance(node.value, ast.Constant):
        consts[node.targets[0].id] = (node.value.value, node.lineno, node.end_lineno)
blend = next(n for n in tree.body if isinstance(n, ast.FunctionDef) and n.name == "blending_formula")
t0, tail = [], None
for n in ast.walk(blend):
    if isinstance(n, ast.Assign) and getattr(n.targets[0], "id", "") == "template_0":
        t0.append((n.value.value, n.lineno, n.end_lineno))
    if isinstance(n, ast.BinOp) and getattr(n.left, "id", "") == "template_0":
        tail = (n.right.value, n.right.lineno, n.right.end_lineno)
t0.sort(key=lambda x: x[1])
items = [
    ("evalTemplate", "`eval_template`", consts["eval_template"]),
    ("evalTemplateVectorized", "`eval_template_vectorized`", consts["eval_template_vectorized"]),
    ("blendHead0", "`template_0` for `l == 0`", t0[0]),
    ("blendHead1", "`template_0` for `l == 1`", t0[1]),
    ("blendTail", "second part of the template of `blending_formula`", tail),
]
out = ["import Verif.Model.Tempita", "", "/-!", "# Template strings of `splines/codegen.py`", "",
       "Written by `tools/gen_templates.py` from the source text.", "-/", "",
       "namespace Interp.CodegenText", "", "open Tempita", "",
       "set_option maxRecDepth 20000", ""]
for name, doc, (s, a, b) in items:
    out += [f"/-- {doc}, `codegen.py` L{a}-{b}. -/", f"def {name} : Str := c!{lit(s)}", ""]
out += ["end Interp.CodegenText", ""]
txt = "\n".join(out)
if "--check" in sys.argv:
    same = open(OUT, encoding="utf8").read() == txt
    print("same" if same else "DIFFERENT")
    sys.exit(0 if same else 1)
open(OUT, "w", encoding="utf8").write(txt)
