#!/usr/bin/env python3
"""Writes /verif/MANIFEST.json.  Theorem names are collected from lean/Verif/Props; status and notes
are written by hand below."""
import json, os, re, glob
ROOT = os.path.join(os.path.dirname(os.path.abspath(__file__)), "..")
thms = {}
for f in sorted(glob.glob(ROOT + "/lean/Verif/Props/**/*.lean", recursive=True)):
    for m in re.finditer(r"^theorem (?:_root_\.)?(C\d\d\d?)_([A-Za-z0-9_]+)", open(f).read(), re.M):
        thms.setdefault(m.group(1), []).append("Post.%s_%s" % m.groups())
props = [json.loads(l) for l in open(ROOT + "/properties.jsonl")]
E = "exact arithmetic (XR: reals with NaN and infinities, no rounding)"
G = "any arithmetic (no law of numbers assumed)"
L = "any arithmetic with the IEEE comparison laws"
exec(open(ROOT + "/tools/manifest_notes.py").read())
claims = []
for p in props:
    i = p["id"]
    status, note = NOTES[i]
    assert i in thms, i
    claims.append({"property": i, "status": status, "theorems": thms[i], "note": note})
extra = set(thms) - {p["id"] for p in props}
assert not extra, extra
json.dump({"claims": claims}, open(ROOT + "/MANIFEST.json", "w"), indent=1)
print(len(claims), sum(len(c["theorems"]) for c in claims))
