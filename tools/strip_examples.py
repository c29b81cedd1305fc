"""strip_examples.py DIR: removes the `example`s (with their comments) from the Lean files under DIR, a scratch copy."""
import os, re, sys

TOP = re.compile(r"^(?:@\[|private |protected |noncomputable |def |abbrev |instance|inductive |structure |theorem |lemma |"
                 r"example\b|/-|end\b|namespace |mutual|open |variable |section|macro|syntax|set_option |attribute |"
                 r"deriving |import |local |scoped |notation|infix)")


def strip(text):
    lines = text.split("\n")
    # chunks: start at a top-level token; a comment /- ... -/ is one chunk
    chunks, i = [], 0
    while i < len(lines):
        j = i + 1
        if lines[i].startswith("/-"):
            while "-/" not in lines[j - 1]:
                j += 1
        while j < len(lines) and not TOP.match(lines[j]):
            j += 1
        chunks.append(lines[i:j])
        i = j
    out = []
    for c in chunks:
        if c[0].startswith("example"):
            while out and (out[-1][0].startswith("/--") or re.match(r"(set_option|open) .* in$", out[-1][0])):
                out.pop()
        else:
            out.append(c)
    return "\n".join("\n".join(c) for c in out)


for d, _, fs in os.walk(sys.argv[1]):
    for f in fs:
        if f.endswith(".lean"):
            p = os.path.join(d, f)
            t = open(p).read()
            if re.search(r"^example", t, re.M):
                with open(p, "w") as g:
                    g.write(strip(t))
