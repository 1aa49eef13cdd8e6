"""Writes MANIFEST.json from tools/claims.py."""
import json, os
here = os.path.dirname(os.path.abspath(__file__))
C = {}
P = "Mp4.Props."
def c(p, st, ths, note=""):
    C[p] = (st, ths, note)
exec(open(os.path.join(here, "claims.py")).read())
out = {"claims": [{"property": p, "status": C[p][0], "theorems": [P + t for t in C[p][1]], "note": C[p][2]}
                  for p in sorted(C)]}
json.dump(out, open(os.path.join(here, "..", "MANIFEST.json"), "w"), indent=1, ensure_ascii=False)
