"""Try wrong programs: apply each edit of a batch file to a scratch copy of lean/, rebuild, log what broke.

usage: seed.py batch.json   (run with lean/ built)
Each entry of the batch: {"id", "file", "definition", "old", "new", "claim": ["Cnn", ...], "why"}; optionally "also" (more edits)
and "target" (modules to build instead of all).
"""
import json, os, re, subprocess, sys, tempfile
ROOT = os.path.abspath(os.path.join(os.path.dirname(__file__), ".."))
SCRATCH = "/tmp/seed"
BASE = os.environ.get("BASE", ROOT + "/lean")   # a built copy of lean/

def imports(src):
    return re.findall(r"^import (Verif\S*)", src, re.M)

def attempt(e):
    subprocess.run("rm -rf %s && cp -a %s %s" % (SCRATCH, BASE, SCRATCH), shell=True, check=True)
    p = os.path.join(SCRATCH, e["file"])
    s = open(p).read()
    assert s.count(e["old"]) == 1, (e["id"], s.count(e["old"]))
    with open(p, "w") as f:
        f.write(s.replace(e["old"], e["new"]))
    for x in e.get("also", []):   # further edits that belong to the same wrong program; all occurrences
        q = os.path.join(SCRATCH, x["file"])
        s = open(q).read()
        assert x["old"] in s, (e["id"], x["old"])
        with open(q, "w") as f:
            f.write(s.replace(x["old"], x["new"]))
    r = subprocess.run(["nice", "lake", "build"] + e.get("target", []), cwd=SCRATCH, capture_output=True, text=True, timeout=2400)
    out = r.stdout + r.stderr
    errs = re.findall(r"error: (Verif/\S+\.lean):(\d+)", out)
    direct, bad = [], set()
    for f, ln in errs:
        bad.add(f[:-5].replace("/", "."))
        lines = open(os.path.join(SCRATCH, f)).read().split("\n")
        for i in range(int(ln) - 1, -1, -1):
            m = re.match(r"(?:private |noncomputable |omit .* in )*(?:theorem|lemma|def|instance|example|abbrev)\s*(\S*)", lines[i])
            if m:
                nm = m.group(1) or "example"
                if nm not in direct: direct.append(nm)
                break
    # transitive closure of failed modules
    mods = {}
    for d, _, fs in os.walk(os.path.join(SCRATCH, "Verif")):
        for f in fs:
            if f.endswith(".lean"):
                q = os.path.join(d, f)
                mods[os.path.relpath(q, SCRATCH)[:-5].replace("/", ".")] = imports(open(q).read())
    ch = True
    while ch:
        ch = False
        for m, im in mods.items():
            if m not in bad and any(i in bad for i in im):
                bad.add(m); ch = True
    # claims: theorems of the manifest living in failed modules: the theorem itself fails, or it is not built because
    # its module or an import fails, which does not show that the theorem is false of the wrong program
    man = json.load(open(ROOT + "/MANIFEST.json"))
    where = {}
    for m in mods:
        for t in re.findall(r"^(?:theorem|lemma) (\S+)", open(os.path.join(SCRATCH, m.replace(".", "/") + ".lean")).read(), re.M):
            where[t] = m
    failed = []
    for c in man["claims"]:
        if c["property"] in e["claim"]:
            for t in c["theorems"]:
                short = t.split(".")[-1]
                m = where.get(short)
                if m in bad: failed.append(short + ("" if m in {x[0][:-5].replace("/", ".") for x in errs} and short in direct else " (not built)"))
    return r.returncode, direct, failed

def main():
    batch = json.load(open(sys.argv[1]))
    only = set(sys.argv[2:])
    for e in batch:
        if only and e["id"] not in only: continue
        rc, direct, failed = attempt(e)
        row = dict(id=e["id"], definition=e["definition"], edit="%s  ==>  %s" % (e["old"], e["new"]), claim=e["claim"],
                   why=e["why"], build="fails" if rc else "passes", first_failures=direct[:12], theorems_failed=failed,
                   tightened=e.get("tightened", []), note=e.get("note", ""))
        with open(ROOT + "/seeded/LOG.jsonl", "a") as f:
            f.write(json.dumps(row) + "\n")
        print(e["id"], "OK" if rc and failed else "SURVIVED", direct[:4], len(failed), flush=True)
main()
