#!/usr/bin/env python3
"""Writes MANIFEST.json, lean/Verif.lean and lean/Verif/Audit.lean.

The theorems of property Cxx are those named Cxx_... in lean/Verif/Props.
tools/notes.json holds the status and note of each property."""
import glob, json, os, re
root = os.path.join(os.path.dirname(os.path.abspath(__file__)), "..")
lean = os.path.join(root, "lean")
notes = json.load(open(os.path.join(root, "tools", "notes.json")))
thms = {}
allthms = []
for f in sorted(glob.glob(os.path.join(lean, "Verif/Props/*.lean"))):
    ns = []
    for line in open(f):
        m = re.match(r"namespace (\S+)", line)
        if m: ns.append(m.group(1))
        m = re.match(r"end (\S+)", line)
        if m and ns and ns[-1] == m.group(1): ns.pop()
        m = re.match(r"theorem ((C\d\d+)_\S+)", line)
        if m:
            name = ".".join(ns + [m.group(1)])
            thms.setdefault(m.group(2), []).append(name)
            allthms.append(name)
ids = [json.loads(l)["id"] for l in open(os.path.join(root, "properties.jsonl"))]
claims = []
for i in ids:
    n = notes.get(i)
    if i in thms and n:
        claims.append({"property": i, "status": n["status"], "theorems": thms[i], "note": n["note"]})
    elif n and n["status"] == "not_applicable":
        claims.append({"property": i, "status": "not_applicable", "theorems": [], "note": n["note"]})
    else:
        print("no claim for", i, "theorems:", len(thms.get(i, [])), "note:", bool(n))
for i in thms:
    if i not in ids: print("theorems without property", i)
json.dump({"claims": claims}, open(os.path.join(root, "MANIFEST.json"), "w"), indent=1, ensure_ascii=False)
open(os.path.join(root, "MANIFEST.json"), "a").write("\n")
mods = []
for f in glob.glob(os.path.join(lean, "Verif/**/*.lean"), recursive=True):
    m = os.path.relpath(f, lean)[:-5].replace("/", ".")
    if m != "Verif.Audit": mods.append(m)
mods.sort()
with open(os.path.join(lean, "Verif.lean"), "w") as o:
    for m in mods: o.write("import %s\n" % m)
    o.write("import Verif.Audit\n")
with open(os.path.join(lean, "Verif/Audit.lean"), "w") as o:
    for m in mods:
        if m.startswith("Verif.Props."): o.write("import %s\n" % m)
    o.write("\n/-! The axioms each property theorem depends on (printed when building). -/\n\n")
    for t in allthms: o.write("#print axioms %s\n" % t)
print(len(allthms), "theorems")
