"""Add or change a claim: claim.py C29 proved "note"; the manifest is rewritten by manifest.py."""
import json, os, sys
p = os.path.join(os.path.dirname(os.path.abspath(__file__)), "claims.json")
d = json.load(open(p))
d[sys.argv[1]] = [sys.argv[2], sys.argv[3] if len(sys.argv) > 3 else ""]
json.dump(dict(sorted(d.items())), open(p, "w"), indent=1)
