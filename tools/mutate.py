"""Generates small wrong programs mechanically: for every definition of lean/Verif/Model, a few token-level edits.
usage: mutate.py SEED PER_DEF OUT.json [File ...]      (run them with seed.py --fast)"""
import json, os, random, re, sys
ROOT = os.path.abspath(os.path.join(os.path.dirname(__file__), ".."))
OPS = [
    (r" \+ 1\b", [" + 2", ""]), (r" - 1\b", ["", " - 2"]), (r" \+ 2\b", [" + 1"]), (r" - 2\b", [" - 1"]),
    (r" < ", [" ≤ "]), (r" ≤ ", [" < "]), (r" > ", [" ≥ "]), (r" ≥ ", [" > "]), (r" = ", [" ≠ "]), (r" ≠ ", [" = "]),
    (r" ∧ ", [" ∨ "]), (r" ∨ ", [" ∧ "]), (r" \+ ", [" - "]), (r" - ", [" + "]), (r" \* ", [" + "]), (r" / ", [" * "]),
    (r"\bpyMin\b", ["pyMax"]), (r"\bpyMax\b", ["pyMin"]), (r"\bif ¬ ", ["if "]), (r"\bif (?!¬|let|h)", ["if ¬ "]),
    (r"\btrue\b", ["false"]), (r"\bfalse\b", ["true"]),
    (r"(?<![\w.])0(?![\w.])", ["1"]), (r"(?<![\w.])1(?![\w.])", ["0", "2"]), (r"(?<![\w.])2(?![\w.])", ["1", "3"]),
    (r"(?<![\w.])3(?![\w.])", ["2"]), (r"(?<![\w.])4(?![\w.])", ["3"]),
    (r"\.assertion\b", [".value"]), (r"\.value\b", [".typing"]), (r"\.typing\b", [".value"]), (r"\.index\b", [".value"]),
    (r"\.name\b", [".typing"]), (r"\.attribute\b", [".typing"]), (r"\.reverse\b", [""]), (r"\bfst\b", ["snd"]), (r"\.1\b", [".2"]), (r"\.2\b", [".1"]),
    (r"\"C\"", ['"F"']), (r"\"F\"", ['"C"']), (r"\"nearest\"", ['"constant"']), (r"\"constant\"", ['"nearest"']), (r"\"linear\"", ['"nearest"']),
    (r"\bevens\b", ["odds"]), (r"\bodds\b", ["evens"]), (r"\btranspose\b ", [""]), (r"\bheadD\b", ["getLastD"]), (r"\bgetLastD\b", ["headD"]),
]
KW = re.compile(r"^(?:@\[.*\]\s*)?(?:private |noncomputable |protected |partial )*(def|abbrev|instance|structure|inductive|class|theorem|lemma|example|namespace|section|end|variable|open|set_option|mutual)\b\s*(\S*)")

def defs(src):
    """(name, start, end) of every def, comments excluded"""
    pos, out = [], []
    off = 0
    incom = 0
    for line in src.split("\n"):
        if incom == 0:
            m = KW.match(line)
            if m or line.startswith("/-") or line.startswith("--"):
                pos.append((off, m.group(1) if m else "comment", m.group(2) if m else ""))
        incom += line.count("/-") - line.count("-/")
        off += len(line) + 1
    pos.append((len(src), "end", ""))
    for (a, k, n), (b, _, _) in zip(pos, pos[1:]):
        if k in ("def", "instance"):
            out.append((n, a, b))
    return out

def main():
    rnd = random.Random(int(sys.argv[1]))
    per = int(sys.argv[2])
    out = sys.argv[3]
    only = sys.argv[4:]
    batch = []
    d = os.path.join(ROOT, "lean/Verif/Model")
    for fn in sorted(os.listdir(d)):
        if only and fn[:-5] not in only:
            continue
        src = open(os.path.join(d, fn)).read()
        for name, a, b in defs(src):
            body = src[a:b]
            # skip the signature
            k = body.find(":=")
            k2 = body.find("\n  |")
            starts = [x for x in (k, k2) if x >= 0]
            if not starts:
                continue
            st = min(starts)
            cands = []
            for pat, reps in OPS:
                for m in re.finditer(pat, body):
                    if m.start() < st:
                        continue
                    if re.search(r"(getD (\S+|\([^()]*\)) |headD |getLastD |--.*)$", body[:m.start()].split("\n")[-1]):
                        continue        # default of a total accessor
                    for r in reps:
                        cands.append((m.start(), m.end(), r))
            rnd.shuffle(cands)
            n = 0
            for s, e, r in cands:
                if n >= per:
                    break
                # smallest context making the old text unique
                w = 8
                while True:
                    lo, hi = max(0, a + s - w), min(len(src), a + e + w)
                    old = src[lo:hi]
                    if src.count(old) == 1:
                        break
                    w += 8
                new = src[lo:a + s] + r + src[a + e:hi]
                batch.append(dict(id="M%s-%03d" % (sys.argv[1], len(batch) + 1), file="Verif/Model/" + fn, definition=name,
                                  old=old, new=new, claim=[], why="mechanical edit"))
                n += 1
    rnd.shuffle(batch)
    json.dump(batch, open(out, "w"), indent=1, ensure_ascii=False)
    print(len(batch))
main()
