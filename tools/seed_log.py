"""Writes seeded/LOG.jsonl from the results of seed.py: seed_log.py RESULTS.jsonl...

Entries of edits that are not among the results are kept.

seeded/reviews.json may hold, per edit, {"tightened": [...], "note": ...}.

`theorems_failed` are the theorems of the claims the edit breaks whose proof no longer checks. A proof may
also stop checking because it uses a helper lemma that broke although the theorem is still true; the theorems
of other claims for which the harness cannot tell the difference are in `also_without_proof`. `still_hold` are
the theorems of the broken claims that still prove (mostly about other objects of the same claim).
"""
import json, os, re, sys

ROOT = os.path.dirname(os.path.dirname(os.path.abspath(__file__)))


def definition(file, old):
    lines = open(os.path.join(ROOT, "lean/Verif", file)).read()
    i = lines.find(old)
    if i < 0:
        return file
    name = None
    for m in re.finditer(r"^(?:@\[[^\]]*\] *)?(?:private |protected )*(?:def|abbrev|structure|inductive) (\S+)", lines, re.M):
        if m.start() > i + len(old.split("\n")[0]):
            break
        name = m.group(1)
    return "%s: %s" % (file, name)


path = os.path.join(ROOT, "seeded/reviews.json")
reviews = json.load(open(path)) if os.path.exists(path) else {}
log = os.path.join(ROOT, "seeded/LOG.jsonl")
entries = {}
if os.path.exists(log):
    for line in open(log):
        r = json.loads(line)
        entries[r["name"]] = r
for path in sys.argv[1:]:
    for line in open(path):
        r = json.loads(line)
        v = reviews.get(r["name"], {})
        if "error" in r:
            continue
        mine = [t for t in r["failed"] if any(t.startswith(b + "_") for b in r["breaks"])]
        entries[r["name"]] = {
            "name": r["name"], "definition": definition(r["file"], r["old"]),
            "edit": {"old": r["old"], "new": r["new"]},
            "claim_broken": {"properties": r["breaks"], "how": r["claim"]},
            "theorems_failed": mine,
            "first_broken_declarations": r["first_broken"],
            "also_without_proof": [t for t in r["failed"] if t not in mine],
            "still_hold": r["still_hold_of_broken_claims"],
            "theorems_tightened": v.get("tightened", []), "note": v.get("note", "")}
with open(log, "w") as out:
    for r in entries.values():
        out.write(json.dumps(r, ensure_ascii=False) + "\n")
