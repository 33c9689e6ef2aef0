#!/usr/bin/env python3
"""Set a claim in MANIFEST.json: tools_manifest.py C10 partial 'note' thm thm ..."""
import json,sys
p='/verif/MANIFEST.json'
d=json.load(open(p))
pid,st,note,*th=sys.argv[1:]
d['claims']=[c for c in d['claims'] if c['property']!=pid]+[{"property":pid,"status":st,"theorems":th,"note":note}]
d['claims'].sort(key=lambda c:c['property'])
json.dump(d,open(p,'w'),indent=1)
