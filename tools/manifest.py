#!/usr/bin/env python3
"""Writes MANIFEST.json: for each property, the theorems (found by their name prefix in
lean/Verif/Props) and the status and note given here."""
import json, re, glob, os
root = os.path.dirname(os.path.dirname(os.path.abspath(__file__)))
STATUS = json.load(open(os.path.join(root, "tools", "status.json")))
thms = {}
for f in sorted(glob.glob(os.path.join(root, "lean/Verif/Props/**/*.lean"), recursive=True)):
    ns = "Sqldef"
    for line in open(f):
        m = re.match(r"theorem (C\d\d)_(\S+)", line)
        if m:
            thms.setdefault(m.group(1), []).append(f"{ns}.{m.group(1)}_{m.group(2)}")
ids = [json.loads(l)["id"] for l in open(os.path.join(root, "properties.jsonl"))]
claims = []
for i in ids:
    t = thms.get(i, [])
    st = STATUS.get(i, {})
    if not t and not st: continue
    claims.append({"property": i, "status": st.get("status", "partial"), "theorems": t, "note": st.get("note", "")})
json.dump({"claims": claims}, open(os.path.join(root, "MANIFEST.json"), "w"), indent=1, ensure_ascii=False)
print(len(claims), "claims;", "missing:", [i for i in ids if i not in {c['property'] for c in claims}])
print("no status:", [c['property'] for c in claims if c['property'] not in STATUS])
