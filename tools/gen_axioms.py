#!/usr/bin/env python3
"""Write AXIOMS.md: the axioms of every property theorem, as printed by Lean (needs a finished `lake build` in lean/)."""
import collections, glob, os, re, subprocess, sys, tempfile
root = os.path.dirname(os.path.dirname(os.path.abspath(__file__)))
lean = sys.argv[1] if len(sys.argv) > 1 else root + "/lean"
names = []
for f in sorted(glob.glob(root + "/lean/Verif/Props/*.lean")):
    names += re.findall(r"^theorem (C\d\d+_\w+)", open(f).read(), re.M)
with tempfile.NamedTemporaryFile("w", suffix=".lean", delete=False) as t:
    t.write("import Verif\n" + "".join("#print axioms Barcoders.%s\n" % n for n in names))
out = subprocess.run(["lake", "env", "lean", t.name], cwd=lean, capture_output=True, text=True).stdout.replace("\n ", "")
os.unlink(t.name)
groups = collections.defaultdict(list)
for m in re.finditer(r"'Barcoders\.(\w+)' (?:depends on axioms: \[(.*?)\]|does not depend on any axioms)", out, re.S):
    groups[re.sub(r"\s+", " ", m.group(2) or "none")].append(m.group(1))
assert sum(map(len, groups.values())) == len(names)
with open(root + "/AXIOMS.md", "w") as f:
    f.write("# Axioms of the property theorems\n\nOutput of `#print axioms`, grouped (`tools/gen_axioms.py`).\n")
    for k in sorted(groups, key=lambda k: (len(k), k)):
        f.write("\n## %s\n\n" % k + "".join("* %s\n" % n for n in sorted(groups[k])))
print({k: len(v) for k, v in groups.items()})
