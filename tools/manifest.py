"""Writes MANIFEST.json from tools/manifest_data.py (property -> status, theorems, note)."""
import json, os, sys
here = os.path.dirname(os.path.abspath(__file__))
sys.path.insert(0, here)
from manifest_data import CLAIMS
ids = [json.loads(l)["id"] for l in open(os.path.join(here, "..", "properties.jsonl"))]
out = []
for i in ids:
    if i in CLAIMS:
        st, th, note = CLAIMS[i]
        out.append({"property": i, "status": st, "theorems": ["NJ." + t for t in th], "note": note})
unknown = set(CLAIMS) - set(ids)
assert not unknown, unknown
json.dump({"claims": out}, open(os.path.join(here, "..", "MANIFEST.json"), "w"), indent=1)
print(len(out), "claims;", "missing:", [i for i in ids if i not in CLAIMS])
