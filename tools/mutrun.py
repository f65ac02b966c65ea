"""Runs the edits produced by mutate.py: builds a scratch copy, stops at the first failing proof, logs the outcome.
usage: mutrun.py batch.json     (edits already logged are skipped; edits that are not well-typed are not logged)"""
import json, os, re, subprocess, sys
ROOT = os.path.abspath(os.path.join(os.path.dirname(__file__), ".."))
SCRATCH = "/tmp/mut"
BASE = os.environ.get("BASE", ROOT + "/lean")   # a built copy of lean/
LOG = ROOT + "/seeded/LOG.jsonl"

def decl_at(path, ln):
    lines = open(path).read().split("\n")
    for i in range(ln - 1, -1, -1):
        m = re.match(r"(?:private |noncomputable |omit .* in )*(?:theorem|lemma|def|instance|example|abbrev)\s*(\S*)", lines[i])
        if m:
            return m.group(1) or "example"
    return "?"

def closure(bad):
    mods = {}
    for d, _, fs in os.walk(os.path.join(SCRATCH, "Verif")):
        for f in fs:
            if f.endswith(".lean"):
                q = os.path.join(d, f)
                mods[os.path.relpath(q, SCRATCH)[:-5].replace("/", ".")] = re.findall(r"^import (Verif\S*)", open(q).read(), re.M)
    bad = set(bad)
    ch = True
    while ch:
        ch = False
        for m, im in mods.items():
            if m not in bad and any(i in bad for i in im):
                bad.add(m); ch = True
    return bad

def attempt(e):
    subprocess.run("rm -rf %s && cp -a %s %s" % (SCRATCH, BASE, SCRATCH), shell=True, check=True)
    p = os.path.join(SCRATCH, e["file"])
    s = open(p).read()
    if s.count(e["old"]) != 1:
        return "stale", [], []
    with open(p, "w") as f:
        f.write(s.replace(e["old"], e["new"]))
    own = e["file"][:-5].replace("/", ".")
    r = subprocess.run(["nice", "lake", "build", own], cwd=SCRATCH, capture_output=True, text=True)
    if r.returncode:
        return "invalid", [], []
    pr = subprocess.Popen(["nice", "lake", "build"], cwd=SCRATCH, stdout=subprocess.PIPE, stderr=subprocess.STDOUT, text=True, start_new_session=True)
    bad, direct = set(), []
    for line in pr.stdout:
        m = re.search(r"error: (Verif/\S+\.lean):(\d+)", line)
        if m:
            bad.add(m.group(1)[:-5].replace("/", "."))
            nm = decl_at(os.path.join(SCRATCH, m.group(1)), int(m.group(2)))
            if nm not in direct:
                direct.append(nm)
        elif bad and (line.startswith("✔") or line.startswith("✖") or line.startswith("⚠")):
            os.killpg(pr.pid, 9)
            break
    pr.wait()
    if not bad:
        return ("survived" if pr.returncode == 0 else "unclear"), [], []
    cl = closure(bad)
    where = {}
    for m in cl:
        q = os.path.join(SCRATCH, m.replace(".", "/") + ".lean")
        if os.path.exists(q):
            for t in re.findall(r"^(?:theorem|lemma) (\S+)", open(q).read(), re.M):
                where[t] = m
    claims, failed = [], []
    for c in json.load(open(ROOT + "/MANIFEST.json"))["claims"]:
        for t in c["theorems"]:
            sh = t.split(".")[-1]
            if sh in where:
                failed.append(sh)
                if c["property"] not in claims:
                    claims.append(c["property"])
    return "killed", direct, (claims, failed)

def main():
    done = set()
    for l in open(LOG):
        done.add(json.loads(l)["id"])
    for e in json.load(open(sys.argv[1])):
        if e["id"] in done:
            continue
        st, direct, info = attempt(e)
        print(e["id"], st, e["definition"], direct[:3], flush=True)
        if st == "survived":
            print("   ", json.dumps(e, ensure_ascii=False), flush=True)
        if st in ("survived", "unclear"):   # every attempt that elaborates is logged
            row = dict(id=e["id"], definition=e["definition"], edit="%s  ==>  %s" % (e["old"], e["new"]), claim=[], why=e["why"],
                       build="passes" if st == "survived" else "unclear", first_failures=[], theorems_failed=[], tightened=[],
                       note="to be examined: an equivalent program, or a theorem that is too weak")
            with open(LOG, "a") as f:
                f.write(json.dumps(row, ensure_ascii=False) + "\n")
        if st == "killed":
            row = dict(id=e["id"], definition=e["definition"], edit="%s  ==>  %s" % (e["old"], e["new"]), claim=info[0][:8],
                       why=e["why"], build="fails", first_failures=direct[:6], theorems_failed=info[1][:8], tightened=[],
                       note="build stopped at the first failing module; theorems_failed lists (some of) the theorems in or above it")
            with open(LOG, "a") as f:
                f.write(json.dumps(row, ensure_ascii=False) + "\n")
main()
