"""Rewrites MANIFEST.json from the theorem names in lean/Verif/Props and the notes in tools/notes.json.

A property is "partial" when one of its theorems ends in `_partial`, otherwise "proved".
"""
import json, glob, re, os
root = os.path.dirname(os.path.dirname(os.path.abspath(__file__)))
thms = {}
for f in sorted(glob.glob(root + "/lean/Verif/Props/*.lean")):
    for m in re.finditer(r"^theorem (C\d\d\w*)", open(f).read(), re.M):
        thms.setdefault(re.match(r"C\d+", m.group(1)).group(), []).append("Metro2." + m.group(1))
notes = json.load(open(root + "/tools/notes.json"))
claims = []
for p in sorted(thms, key=lambda p: int(p[1:])):
    partial = any(t.endswith("_partial") for t in thms[p])
    claims.append({"property": p, "status": "partial" if partial else "proved",
                   "theorems": thms[p], "note": notes.get(p, "")})
    if p not in notes:
        print("no note for", p)
json.dump({"claims": claims}, open(root + "/MANIFEST.json", "w"), indent=1)
