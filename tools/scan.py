"""Systematic small edits of the model: scan.py BASE WORK RESULTS.jsonl SEED PER_DEFINITION [FILE ...]

BASE is a built copy of the Lake project, WORK a scratch directory. Every definition of the model gets up to
PER_DEFINITION random edits (a number changed, a comparison, a constructor or two neighbouring lines swapped, ...).
Each edited copy is built until the first theorem or lemma fails; the edits after which everything still
builds are the interesting ones: "survived". Edits that do not type check are dropped ("invalid").
"""
import json, os, random, re, shutil, signal, subprocess, sys, time

BASE, WORK, OUT = sys.argv[1:4]
rng = random.Random(int(sys.argv[4]))
PER = int(sys.argv[5])
only = sys.argv[6:]

SWAPS = [("≤", "<"), (" < ", " ≤ "), ("true", "false"), ("false", "true"), (" ∧ ", " ∨ "), (" ∨ ", " ∧ "),
         (" = ", " ≠ "), (" ≠ ", " = "), (" == ", " != "), (" && ", " || "), (" || ", " && "), (" + ", " - "),
         (" - ", " + "), (".valueError", ".typeError"), (".typeError", ".valueError"), (".indexError", ".keyError"),
         (".attributeError", ".typeError"), (".int", ".chr"), ("take", "drop"), ("isSome", "isNone"), (">>>", "<<<")]
START = (r"^(?:@\[[^\]]*\]\s*)?(?:private |protected |noncomputable )*(def|abbrev|instance|inductive|structure|theorem|"
         r"lemma|example|/-|end|namespace|mutual|open|variable|section|macro|syntax|set_option)(?=\W)")


def definitions(text):
    """(name, start, end) of definitions."""
    starts = list(re.finditer(START, text, re.M))
    for i, m in enumerate(starts):
        if m.group(1) in ("def", "abbrev"):
            end = starts[i + 1].start() if i + 1 < len(starts) else len(text)
            yield re.match(r"\S+", text[m.end():].lstrip()).group(0), m.end(), end


def edits(text, a, b):
    body = text[a:b]
    off = a + min(x for x in (body.find(":="), body.find("\n  |"), len(body)) if x >= 0)
    body = text[off:b]
    res = []
    comment = [(m.start(), m.end()) for m in re.finditer(r"--.*", body)]

    def add(s, e, new):
        if not any(x <= s < y for x, y in comment) and body[s:e] != new:
            res.append((off + s, off + e, new))
    for m in re.finditer(r"(?<![\w.'])(0x[0-9A-Fa-f]+|\d+)(?![\w.])", body):
        v = int(m.group(0), 0)
        for w in (v + 1, v - 1, 2 * v):
            if w >= 0:
                add(m.start(), m.end(), str(w))
    for o, n in SWAPS:
        for m in re.finditer(re.escape(o), body):
            add(m.start(), m.end(), n)
    for m in re.finditer(r'"([^"\\\n]+)"', body):
        s = m.group(1)
        add(m.start(1), m.end(1), s[1:] if len(s) > 1 else s + "x")
    # neighbouring lines with the same indentation swapped; one line removed
    lines = [(m.start(), m.end()) for m in re.finditer(r"[^\n]+\n", body)]
    for (s1, e1), (s2, e2) in zip(lines[1:], lines[2:]):
        l1, l2 = body[s1:e1], body[s2:e2]
        plain = not any(re.match(r"\s*(\||else|\w+ := )", l) for l in (l1, l2))
        if plain and len(l1) - len(l1.lstrip()) == len(l2) - len(l2.lstrip()):
            add(s1, e2, l2 + l1)
    if len(lines) > 2:
        for s, e in lines[1:]:
            add(s, e, "")
    # neighbouring operands of ++ and ∧ and neighbouring arguments swapped
    for m in re.finditer(r"([\w.']+(?: [\w.']+)?) (\+\+) ([\w.']+(?: [\w.']+)?)", body):
        add(m.start(), m.end(), "%s %s %s" % (m.group(3), m.group(2), m.group(1)))
    for m in re.finditer(r"([⟨(,] ?)([\w.']+), ([\w.']+)(?=[⟩),])", body):
        add(m.start(), m.end(), "%s%s, %s" % (m.group(1), m.group(3), m.group(2)))
    return res


def declaration(path, line):
    name = "?"
    for l in open(path).read().split("\n")[:line]:
        m = re.match(r"(?:@\[[^\]]*\]\s*)?(?:private |protected )*(theorem|lemma|def|abbrev|example|instance|inductive|structure)\b\s*(\S*)", l)
        if m:
            name = m.group(1) + " " + m.group(2)
    return name


def sync():
    """Makes WORK a copy of BASE."""
    if not os.path.exists(WORK):
        subprocess.check_call(["cp", "-a", BASE, WORK])
        return
    for d, ds, fs in os.walk(WORK):
        b = BASE + d[len(WORK):]
        for f in fs:
            if not os.path.lexists(os.path.join(b, f)):
                os.remove(os.path.join(d, f))
    for d, ds, fs in os.walk(BASE):
        w = WORK + d[len(BASE):]
        os.makedirs(w, exist_ok=True)
        for f in fs:
            x, y = os.path.join(d, f), os.path.join(w, f)
            a = os.lstat(x)
            c = os.lstat(y) if os.path.lexists(y) else None
            if c is None or (a.st_size, a.st_mtime_ns) != (c.st_size, c.st_mtime_ns):
                if c is not None:
                    os.remove(y)
                shutil.copy2(x, y, follow_symlinks=False)


def run(file, new):
    sync()
    with open(os.path.join(WORK, file), "w") as f:
        f.write(new)
    p = subprocess.Popen(["nice", "lake", "build", "Verif.All"], cwd=WORK, stdout=subprocess.PIPE,
                         stderr=subprocess.STDOUT, text=True, start_new_session=True)
    verdict, where = None, []
    t0 = time.time()
    try:
        for line in p.stdout:
            m = re.match(r"error: (Verif/\S+\.lean):(\d+):", line)
            if m:
                d = declaration(os.path.join(WORK, m.group(1)), int(m.group(2)))
                where.append((m.group(1), d))
                if m.group(1) == file and not d.startswith(("theorem", "lemma", "example")):
                    verdict = "invalid"
                    break
                if not d.startswith("example"):
                    verdict = "failed"
                    break
        if verdict is None:
            p.wait()
            verdict = "survived" if p.returncode == 0 else "examples" if where else "error"
    finally:
        try:
            os.killpg(p.pid, signal.SIGKILL)
        except ProcessLookupError:
            pass
        p.wait()
    return verdict, where, time.time() - t0


files = sorted("Verif/Model/" + f for f in os.listdir(BASE + "/Verif/Model")) + ["Verif/Py.lean"]
done, valid = set(), {}
for l in (open(OUT) if os.path.exists(OUT) else []):
    r = json.loads(l)
    done.add((r["file"], r["definition"], r["old"], r["new"], r["at"]))
    if r["verdict"] != "invalid":
        valid[r["file"], r["definition"]] = valid.get((r["file"], r["definition"]), 0) + 1
plan = []
for file in files:
    if only and not any(o in file for o in only):
        continue
    text = open(os.path.join(BASE, file)).read()
    for name, a, b in definitions(text):
        es = edits(text, a, b)
        rng.shuffle(es)
        for rank, e in enumerate(es[:PER * 3]):
            plan.append((rank, rng.random(), file, name, e, text))
plan.sort(key=lambda x: (x[0], x[1]))
print(len(plan), "edits planned", flush=True)
for rank, _, file, name, (s, e, new), text in plan:
    if valid.get((file, name), 0) >= PER:
        continue
    key = (file, name, text[s:e], new, text[:s].count("\n") + 1)
    if key in done:
        continue
    verdict, where, secs = run(file, text[:s] + new + text[e:])
    if verdict != "invalid":
        valid[file, name] = valid.get((file, name), 0) + 1
    ls, le = text.rfind("\n", 0, s) + 1, text.find("\n", e)
    with open(OUT, "a") as f:
        f.write(json.dumps({"file": file, "definition": name, "at": key[4], "old": text[s:e], "new": new,
                            "line": text[ls:le], "verdict": verdict, "first_broken": where, "seconds": int(secs)},
                           ensure_ascii=False) + "\n")
    print(verdict, file, name, repr(text[ls:le].strip()), repr(text[s:e]), "->", repr(new), where[-1:], int(secs), flush=True)
