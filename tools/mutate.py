#!/usr/bin/env python3
"""Apply one textual edit to a scratch copy of the Lean project, rebuild, report the declarations that fail.

usage: mutate.py spec.json   with [{"file","old","new","definition","edit","claim"}, ...]
Appends one line per attempt to seeded/LOG.jsonl.
"""
import json, os, re, subprocess, sys
SRC, DST = "/verif/lean", "/tmp/scratch/lean"
# the sources of the last commit, with the compiled files at hand
subprocess.run(f"rm -rf {DST}; mkdir -p {DST}; cp -a {SRC}/. {DST}/; rm -rf {DST}/Verif; git -C /verif archive HEAD lean | tar x -C {os.path.dirname(DST)}", shell=True, check=True)
specs = json.load(open(sys.argv[1]))
nolog = len(sys.argv) > 2


def decls(path):
    out, cur = [], None
    for i, l in enumerate(open(path), 1):
        m = re.match(r"(?:@\[.*\] *)?(?:private |noncomputable )?(theorem|lemma|example|def|instance|structure)\b *([\w.'?]*)", l)
        if m:
            out.append((i, m.group(1), m.group(2) or "example"))
    return out


def enclosing(path, line):
    best = ("?", "?")
    for i, k, n in decls(path):
        if i <= line:
            best = (k, n)
    return best


def imports():
    g = {}
    for root, _, fs in os.walk(DST + "/Verif"):
        for f in fs:
            if f.endswith(".lean"):
                p = os.path.join(root, f)
                mod = os.path.relpath(p, DST)[:-5].replace("/", ".")
                g[mod] = (p, re.findall(r"^import (Verif[\w.]*)", open(p).read(), re.M))
    return g


for s in specs:
    path = f"{DST}/Verif/{s['file']}"
    text = open(path).read()
    n = text.count(s["old"])
    if n != 1:
        print("SKIP: pattern occurs", n, "times:", s["old"][:60]); continue
    open(path, "w").write(text.replace(s["old"], s["new"]))
    r = subprocess.run(["lake", "build"], cwd=DST, capture_output=True, text=True)
    out = r.stdout + r.stderr
    failed = {}
    for m in re.finditer(r"error: (Verif/[\w/]+\.lean):(\d+):\d+", out):
        k, nme = enclosing(f"{DST}/{m.group(1)}", int(m.group(2)))
        failed.setdefault(m.group(1), [])
        if nme not in failed[m.group(1)]:
            failed[m.group(1)].append(nme)
    g = imports()
    bad = {f[:-5].replace("/", ".") for f in failed}
    blocked = set()
    changed = True
    while changed:
        changed = False
        for mod, (p, imps) in g.items():
            if mod not in bad | blocked and any(i in bad | blocked for i in imps):
                blocked.add(mod); changed = True
    thms = [x for v in failed.values() for x in v if re.match(r"C\d\d_", x)]
    lem = [x for v in failed.values() for x in v if not re.match(r"C\d\d_", x)]
    dep = []
    for mod in blocked:
        dep += re.findall(r"^theorem (C\d\d_\w+)", open(g[mod][0]).read(), re.M)
    verdict = "caught" if failed else "SURVIVED"
    print(f"{verdict}: {s['definition']}: {s['edit']}\n   theorems {thms}\n   lemmas {lem}\n   blocked modules {sorted(blocked)}")
    open(path, "w").write(text)
    if failed and not nolog:
        rec = {"definition": s["definition"], "edit": s["edit"], "claim": s["claim"], "failed": thms, "failed_lemmas": lem,
               "theorems_in_modules_that_no_longer_build": sorted(dep), "tightened": s.get("tightened", [])}
        open("/verif/seeded/LOG.jsonl", "a").write(json.dumps(rec, ensure_ascii=False) + "\n")
