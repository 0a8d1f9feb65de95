#!/usr/bin/env python3
"""setstatus.py ID STATUS [NOTE]: records the status of a property in status.json."""
import json, os, sys
p = os.path.join(os.path.dirname(os.path.abspath(__file__)), "status.json")
d = json.load(open(p))
d[sys.argv[1]] = {"status": sys.argv[2], "note": sys.argv[3] if len(sys.argv) > 3 else ""}
json.dump(dict(sorted(d.items())), open(p, "w"), indent=0)
