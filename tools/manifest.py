#!/usr/bin/env python3
"""Write lean/Verif.lean (imports) and MANIFEST.json from the Props files and tools/status.tsv.

status.tsv: property <tab> status <tab> note.  Theorem names are read from lean/Verif/Props/*.lean:
every theorem whose name starts with the property id and an underscore."""
import glob, json, os, re
ROOT = os.path.join(os.path.dirname(os.path.abspath(__file__)), "..")
LEAN = os.path.join(ROOT, "lean")
mods = []
for p in glob.glob(os.path.join(LEAN, "Verif", "**", "*.lean"), recursive=True):
    m = os.path.relpath(p, LEAN)[:-5].replace(os.sep, ".")
    if not m.startswith("Verif.Gen."):
        mods.append(m)
open(os.path.join(LEAN, "Verif.lean"), "w").write("".join(f"import {m}\n" for m in sorted(mods)))
thms = {}
for p in sorted(glob.glob(os.path.join(LEAN, "Verif", "Props", "*.lean"))):
    ns = []
    for line in open(p):
        if m := re.match(r"namespace (\S+)", line):
            ns.append(m[1])
        elif m := re.match(r"end (\S+)", line):
            if ns and ns[-1] == m[1]:
                ns.pop()
        elif m := re.match(r"(?:@\[[^\]]*\] *)?(?:protected )?theorem (C\d\d\w*)", line):
            thms.setdefault(m[1][:3], []).append(".".join(ns + [m[1]]))
status = {}
for line in open(os.path.join(ROOT, "tools", "status.tsv")):
    if line.strip() and not line.startswith("#"):
        c, s, n = line.rstrip("\n").split("\t")
        status[c] = (s, n)
claims = []
for c in sorted(set(thms) | set(status)):
    if c not in status:
        print("no status for", c)
        continue
    if c not in thms and status[c][0] != "not_applicable":
        print("no theorems for", c)
    claims.append({"property": c, "status": status[c][0], "theorems": thms.get(c, []), "note": status[c][1]})
json.dump({"claims": claims}, open(os.path.join(ROOT, "MANIFEST.json"), "w"), indent=1)
print(len(claims), "claims,", sum(len(c["theorems"]) for c in claims), "theorems")
