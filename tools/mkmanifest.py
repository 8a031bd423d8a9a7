#!/usr/bin/env python3
"""Regenerate MANIFEST.json. Claims are kept here so that the file is easy to review."""
import json, os
C = {}
def c(pid, status, thms, note=""):
    C[pid] = {"property": pid, "status": status, "theorems": ["Egts." + t for t in thms], "note": note}
exec(open(os.path.join(os.path.dirname(__file__), "claims.py")).read())
props = [json.loads(l)["id"] for l in open(os.path.join(os.path.dirname(__file__), "../properties.jsonl"))]
json.dump({"claims": [C[p] for p in props if p in C]}, open(os.path.join(os.path.dirname(__file__), "../MANIFEST.json"), "w"), indent=1, ensure_ascii=False)
print("missing:", [p for p in props if p not in C])
