#!/usr/bin/env python3
"""addnote.py: read {"Cnn": "note", ...} on stdin and merge into notes.json."""
import json, os, sys
f = os.path.join(os.path.dirname(__file__), "notes.json")
d = json.load(open(f)); d.update(json.load(sys.stdin))
json.dump(dict(sorted(d.items())), open(f, "w"), indent=1, ensure_ascii=False)
