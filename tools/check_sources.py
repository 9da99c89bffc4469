#!/usr/bin/env python3
"""Compares the model with the text of /repo. Nothing is compiled or run.

1. every citation `src/x.rs` lines a-b: `name` in lean/Verif/Model points at lines that contain the name;
2. the numbers, and for tables of characters the characters, of every constant table agree with the Rust source.
"""
import glob, os, re, sys
ROOT = os.path.dirname(os.path.dirname(os.path.abspath(__file__)))
REPO = "/repo"
bad = 0
cites = 0
tables = 0
names = []
CITE = re.compile(r"`(src/[a-z0-9_/]+\.rs)` lines? (\d+)(?:-(\d+))?(?:: `([^`]+)`)?")
for f in sorted(glob.glob(ROOT + "/lean/Verif/Model/*.lean")):
    text = open(f).read()
    for m in CITE.finditer(text):
        cites += 1
        lines = open(os.path.join(REPO, m[1])).read().split("\n")
        a, b = int(m[2]), int(m[3] or m[2])
        seg = "\n".join(lines[a - 1:b])
        if b > len(lines) or not seg.strip():
            bad += 1; print(f"{f}: {m[0]}: no such lines"); continue
        if m[4]:
            name = m[4]
            want = re.sub(r"^.*::|!$", "", name) if re.match(r"^[\w:]+!?$", name) else name
            if want not in seg:
                bad += 1; print(f"{f}: {m[0]}: '{want}' is not there")
    # tables: a comment citing lines, followed by a def whose value is a literal list
    for m in re.finditer(r"/-- `(src/[a-z0-9_/]+\.rs)` lines? (\d+)(?:-(\d+))?: `(\w+)`(?:(?!-/).)*-/\ndef (\w+) : [^\n]*:=\s*(\[.*?\])\s*(?=\n\n|\n/--|\nend|\Z)", text, re.S):
        if m[4] != m[5]: continue
        lines = open(os.path.join(REPO, m[1])).read().split("\n")
        seg = "\n".join(lines[int(m[2]) - 1:int(m[3] or m[2])])
        seg = re.sub(r"//.*", "", seg)
        seg = seg.split("=", 1)[1]
        def toks(s):
            out = []
            for t in re.finditer(r"'(\\u\{[0-9a-fA-F]+\}|\\u[0-9a-fA-F]{4}|\\.|[^'])'|\"((?:\\.|[^\"\\])*)\"|\b(\d+)\b", s):
                if t[3] is not None: out.append(("n", int(t[3])))
                else:
                    raw = t[1] if t[1] is not None else t[2]
                    raw = re.sub(r"\\u\{([0-9a-fA-F]+)\}|\\x([0-9a-fA-F]{2})|\\u([0-9a-fA-F]{4})", lambda k: chr(int(k[1] or k[2] or k[3], 16)), raw)
                    raw = raw.replace("\\\\", "\\").replace("\\\"", "\"").replace("\\'", "'").replace("\\n", "\n")
                    out.extend(("c", ch) for ch in raw)
            return out
        tables += 1
        names.append(os.path.basename(f)[:-5] + "." + m[5])
        x, y = toks(m[6]), toks(seg)
        if x != y:
            bad += 1
            i = next((k for k, (p, q) in enumerate(zip(x, y)) if p != q), min(len(x), len(y)))
            print(f"{f}: {m[5]} differs from {m[1]} at token {i}: {x[i:i+3]} / {y[i:i+3]} (lengths {len(x)}, {len(y)})")
# the bars of Codabar are `match` arms in both
arm = lambda s, sep: [(n, re.findall(r"\d+", v)) for n, v in re.findall(sep + r"(\w+) => (?:vec!)?\[([^\]]*)\]", s)]
rs = "\n".join(open(REPO + "/src/sym/codabar.rs").read().split("\n")[39:63])
ln = open(ROOT + "/lean/Verif/Model/Codabar.lean").read()
x, y = arm(ln, r"\| \."), arm(rs, r"Unit::")
tables += 1
names.append("Codabar.Unit.lookup")
if not x or x != y:
    bad += 1; print("Codabar.Unit.lookup differs", x, y)
print("tables:", ", ".join(names))
print(f"{cites} citations, {tables} tables, {bad} problems")
sys.exit(1 if bad else 0)
