#!/usr/bin/env python3
"""Regenerate MANIFEST.json: the theorems of a claim Cxx are those named Cxx_* in lean/Verif/Props."""
import glob, json, os, re
root = os.path.dirname(os.path.dirname(os.path.abspath(__file__)))
notes = json.load(open(os.path.join(root, "tools", "notes.json")))
thms = {}
for f in sorted(glob.glob(os.path.join(root, "lean/Verif/Props/*.lean"))):
    for m in re.finditer(r"^theorem (C\d\d_\w+)", open(f).read(), re.M):
        n = m.group(1)
        if n.endswith("_aux") or "_aux_" in n:
            continue
        thms.setdefault(n[:3], []).append("Ethnum." + n)
claims = []
for line in open(os.path.join(root, "properties.jsonl")):
    if not line.strip():
        continue
    i = json.loads(line)["id"]
    n = notes.get(i, {})
    t = thms.get(i, [])
    if "status" in n:
        claims.append({"property": i, "status": n["status"], "theorems": [] if n["status"] == "not_applicable" else t,
                       "note": n.get("note", "")})
    elif t:
        claims.append({"property": i, "status": "partial" if any(x.endswith("_partial") for x in t) else "proved",
                       "theorems": t, "note": n.get("note", "")})
json.dump({"claims": claims}, open(os.path.join(root, "MANIFEST.json"), "w"), indent=1)
print(", ".join(f"{c['property']}:{c['status']}({len(c['theorems'])})" for c in claims))
