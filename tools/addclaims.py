"""Append claims to gen_manifest.py: reads python tuples (id, status, [names], note) from stdin."""
import os, sys, ast
p = os.path.join(os.path.dirname(os.path.abspath(__file__)), "gen_manifest.py")
s = open(p).read()
new = ast.literal_eval("[" + sys.stdin.read() + "]")
lines = ""
for i, st, names, note in new:
    s = "".join(l for l in s.splitlines(True) if not l.lstrip().startswith(f'("{i}"'))
    lines += "    " + repr((i, st, ["Interp.Props." + n for n in names], note)).replace("('C", '("C', 1).replace("', ", '", ', 1) + ",\n"
s = s.replace("]\nout =", lines + "]\nout =")
open(p, "w").write(s)
