#!/bin/sh
# Regenerate AXIOMS.txt: the axioms each theorem of MANIFEST.json depends on.
cd "$(dirname "$0")" || exit 1
python3 -c "
import json
print('import Verif')
for c in json.load(open('MANIFEST.json'))['claims']:
    for t in c['theorems']: print('#print axioms', t)" > /tmp/ax.lean
(cd lean && lake env lean /tmp/ax.lean) | tr '\n' ' ' | sed "s/ '/\n'/g;s/  */ /g" > AXIOMS.txt
echo >> AXIOMS.txt
