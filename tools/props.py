#!/usr/bin/env python3
"""Writes /verif/properties.jsonl from the table below (one tuple per property)."""
import json, os
P = []
def p(id, title, statement, quantifier, why, anchors):
    P.append(dict(id=id, title=title, statement=statement, quantifier=quantifier,
                  why_tests_cant=why, anchors=anchors))
U = "netjsonconfig/utils.py"
B = "netjsonconfig/backends/base/backend.py"
W = "netjsonconfig/backends/openwrt/"
WC = W + "converters/"
exec(open(os.path.join(os.path.dirname(__file__), "props_data.py")).read())
out = os.path.join(os.path.dirname(__file__), "..", "properties.jsonl")
ids = [x["id"] for x in P]
assert len(ids) == len(set(ids)), "duplicate ids"
with open(out, "w") as f:
    for x in P:
        f.write(json.dumps(x, ensure_ascii=False) + "\n")
print(len(P), "properties")
