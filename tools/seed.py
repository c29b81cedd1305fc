"""Tries one edit of the model in a scratch copy and reports which property theorems still hold.

usage: seed.py NAME FILE CLAIM BREAKS < json {"old": ..., "new": ...}   (see run() for the programmatic form)

The edit is applied in /tmp/seed (a copy of /verif/lean with its build output). A declaration whose proof no longer
checks gets its proof replaced by `sorry` there, until everything builds; property theorems that then depend
on sorryAx are the ones that failed, and the rest still prove.
"""
import json, os, re, shutil, subprocess, sys, time

SRC, DST = "/verif/lean", "/tmp/seed"
DECL = re.compile(r"^(?:@\[[^\]]*\] *)?(?:private |protected |noncomputable )*(theorem|lemma|def|example|instance|abbrev|structure|inductive|mutual|end|namespace|open|set_option|section|variable|/-|#|infix|@\[|deriving|class)")


def prepare():
    base = "/tmp/seed_base"
    subprocess.run(["rm", "-rf", DST])
    subprocess.run(["cp", "-a", base, DST], check=True)


def refresh_base():
    base = "/tmp/seed_base"
    subprocess.run(["rm", "-rf", base])
    subprocess.run(["cp", "-a", SRC, base], check=True)


def decl_range(lines, n):
    """0-based range of the declaration around line n."""
    s = n
    while s > 0 and not re.match(r"^(?:@\[[^\]]*\] *)?(?:private |protected |noncomputable )*(theorem|lemma|def|example|instance|abbrev)\b", lines[s]):
        s -= 1
    e = s + 1
    while e < len(lines) and not DECL.match(lines[e]):
        e += 1
    return s, e


def split_body(text):
    """position of the top-level := (or where / first |) of a declaration"""
    depth = 0
    i = 0
    while i < len(text):
        c = text[i]
        if text.startswith("--", i):
            i = text.find("\n", i)
            continue
        if c in "([{⟨":
            depth += 1
        elif c in ")]}⟩":
            depth -= 1
        elif depth == 0 and text.startswith(":=", i):
            # a let in the statement
            before = text[:i].split("\n")[-1]
            if not re.search(r"\blet \S+( : [^:=]*)? *$", before):
                return i
        elif depth == 0 and text.startswith(" where\n", i):
            return i
        elif depth == 0 and re.match(r"\n  \| ", text[i:i + 5]):
            return i
        i += 1
    return None


def break_decl(path, n):
    lines = open(path).read().split("\n")
    s, e = decl_range(lines, n)
    head = lines[s]
    m = re.match(r"^(?:@\[[^\]]*\] *)?(?:private |protected |noncomputable )*(theorem|lemma|def|example|instance|abbrev)\s*(\S*)", head)
    if not m:
        raise Exception("no declaration at %s:%d" % (path, n + 1))
    kind, name = m.group(1), m.group(2)
    text = "\n".join(lines[s:e])
    if kind == "example":
        # delete it, with set_option … in lines directly before
        s0 = s
        while s0 > 0 and re.match(r"^set_option .* in$", lines[s0 - 1]):
            s0 -= 1
        # a doc comment directly before has to go too
        if s0 > 0 and lines[s0 - 1].rstrip().endswith("-/"):
            k = s0 - 1
            while k > 0 and "/-" not in lines[k]:
                k -= 1
            if lines[k].startswith("/--"):
                s0 = k
        new = lines[:s0] + lines[e:]
        open(path, "w").write("\n".join(new))
        return "example at %s:%d" % (path[len(DST) + 1:], s + 1)
    i = split_body(text)
    if i is None or text[i:].strip() == ":= sorry":
        raise Exception("cannot replace %s in %s" % (name, path))
    new = lines[:s] + (text[:i].rstrip() + " := sorry\n").split("\n") + lines[e:]
    open(path, "w").write("\n".join(new))
    return name


def build():
    p = subprocess.run(["lake", "build"], cwd=DST, stdout=subprocess.PIPE, stderr=subprocess.STDOUT, text=True)
    return p.returncode, p.stdout


def run(name, file, old, new, claim, breaks, count=1, log=print):
    t0 = time.time()
    prepare()
    path = os.path.join(DST, "Verif", file)
    s = open(path).read()
    if s.count(old) < 1 or (count == 1 and s.count(old) != 1):
        return {"name": name, "error": "old text occurs %d times" % s.count(old)}
    open(path, "w").write(s.replace(old, new))
    broken = []
    out = ""
    for it in range(60):
        rc, out = build()
        if rc == 0:
            break
        errs = {}
        for m in re.finditer(r"^error: (Verif/\S+\.lean):(\d+):\d+:", out, re.M):
            errs.setdefault(m.group(1), set()).add(int(m.group(2)) - 1)
        if not errs:
            return {"name": name, "error": "no error positions", "out": out[-2000:]}
        for f, ns in errs.items():
            if f == "Verif/" + file:
                ls = open(os.path.join(DST, f)).read().split("\n")
                if any(not re.match(r"(theorem|lemma|example)", ls[decl_range(ls, n)[0]]) for n in ns):
                    return {"name": name, "error": "model does not compile", "out": out[-3000:]}
            p = os.path.join(DST, f)
            lines = open(p).read().split("\n")
            for n in sorted({decl_range(lines, n)[0] for n in ns}, reverse=True):
                try:
                    broken.append("%s: %s" % (f[6:-5], break_decl(p, n)))
                except Exception as e:
                    return {"name": name, "error": str(e), "out": out[-3000:], "broken": broken}
    else:
        return {"name": name, "error": "did not converge", "broken": broken}
    failed, holds = [], []
    for m in re.finditer(r"'([\w.]+)' depends on axioms: \[([^\]]*)\]", out):
        (failed if "sorryAx" in m.group(2) else holds).append(m.group(1).split(".")[-1])
    for m in re.finditer(r"'([\w.]+)' does not depend on any axioms", out):
        holds.append(m.group(1).split(".")[-1])
    direct = [b for b in broken]
    r = {"name": name, "file": file, "old": old, "new": new, "claim": claim, "breaks": breaks,
         "failed": sorted(failed), "first_broken": direct,
         "still_hold_of_broken_claims": sorted(t for t in holds if any(t.startswith(b + "_") for b in breaks)),
         "seconds": int(time.time() - t0)}
    return r


if __name__ == "__main__":
    if sys.argv[1:] == ["refresh"]:
        refresh_base()
        sys.exit()
    muts = json.load(open(sys.argv[1]))
    outp = sys.argv[2]
    have = set()
    if os.path.exists(outp):
        have = {json.loads(l)["name"] for l in open(outp)}
    for m in muts:
        if m["name"] in have:
            continue
        r = run(m["name"], m["file"], m["old"], m["new"], m["claim"], m["breaks"], m.get("count", 1))
        with open(outp, "a") as f:
            f.write(json.dumps(r, ensure_ascii=False) + "\n")
        print(m["name"], r.get("error") or (len(r["failed"]), r["still_hold_of_broken_claims"]), r.get("seconds"), flush=True)
