"""Seeded wrong programs: apply one edit to the model in a scratch copy, rebuild, report which theorems stop proving.
usage: seed.py mutants.json  (list of {file, definition, old, new, edit, claim, target})"""
import json, re, subprocess, sys, os
V = "/verif/lean"; S = "/tmp/scratch/lean"; P = "/tmp/scratch/pristine"
LOG = "/verif/seeded/LOG.jsonl"
def sh(c, **k): return subprocess.run(c, shell=True, capture_output=True, text=True, **k)
def sync():
    sh(f"rm -rf {P}; cp -a {V} {P}")
def reset(): sh(f"rm -rf {S}; cp -a {P} {S}")
def decls(path):
    out = []
    for i, l in enumerate(open(path), 1):
        m = re.match(r"\s*(?:private |noncomputable |protected |@\[[^\]]*\] )*(theorem|lemma|def|example|instance|structure)\s*([^\s:({\[]*)", l)
        if m: out.append((i, m.group(2) or "example"))
    return out
def enclosing(path, line):
    name = "?"
    for i, n in decls(path):
        if i <= line: name = n
    return name
man = json.load(open("/verif/MANIFEST.json"))
def modules_of_theorem():
    d = {}
    for root, _, fs in os.walk(P + "/Verif"):
        for f in fs:
            if f.endswith(".lean"):
                p = os.path.join(root, f)
                for _, n in decls(p): d.setdefault(n, set()).add(os.path.relpath(p, P))
    return d
def run(m, log=True):
    reset()
    p = f"{S}/Verif/{m['file']}"
    s = open(p).read()
    if s.count(m["old"]) != m.get("count", 1):
        print("!! pattern count", s.count(m["old"]), m["definition"], m["edit"]); return None
    open(p, "w").write(s.replace(m["old"], m["new"]))
    r = sh("timeout 1500 lake build " + m["target"], cwd=S)
    out = r.stdout + r.stderr
    fails = []
    for f, l in re.findall(r"error: (Verif/[\w/]+\.lean):(\d+):", out):
        n = f.split("/", 1)[1][:-5].replace("/", ".") + "." + enclosing(f"{S}/{f}", int(l))
        if n not in fails: fails.append(n)
    built = r.returncode == 0
    blocked = []
    if not built:
        bad = set(re.findall(r"^- (Verif[\w.]*)", out, re.M))
        badf = {b.replace(".", "/") + ".lean" for b in bad}
        # modules that import a bad module, transitively
        imps = {}
        for root, _, fs in os.walk(S + "/Verif"):
            for f in fs:
                q = os.path.join(root, f)
                imps[os.path.relpath(q, S)] = {x.replace(".", "/") + ".lean" for x in re.findall(r"^import (Verif[\w.]*)", open(q).read(), re.M)}
        ch = True
        down = set(badf)
        while ch:
            ch = False
            for k, v in imps.items():
                if k not in down and v & down: down.add(k); ch = True
        mt = modules_of_theorem()
        claim = set(m["claim"].replace(",", " ").split())
        for c in man["claims"]:
            if c["property"] in claim:
                for t in c["theorems"]:
                    n = t.split(".")[-1]
                    if mt.get(n, set()) & down and not any(x.endswith("." + n) for x in fails): blocked.append(n)
    rec = {"definition": m["definition"], "file": m["file"], "edit": m["edit"], "old": m["old"], "new": m["new"], "claim": m["claim"] + (": " + m["why"] if "why" in m else ""),
           "survived": built, "theorems_failed": fails, "theorems_blocked_by_them": blocked, "theorems_tightened": m.get("tightened", [])}
    print(("SURVIVED " if built else "killed   ") + m["definition"], "|", m["edit"], "|", fails[:6], "| blocked", len(blocked), flush=True)
    if not built and not fails: print(out[-1500:])
    if log and (fails or built): open(LOG, "a").write(json.dumps(rec) + "\n")
    return rec
if __name__ == "__main__":
    sync()
    for m in json.load(open(sys.argv[1])): run(m, log="--dry" not in sys.argv)
