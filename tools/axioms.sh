#!/bin/sh
# lists the axioms of every theorem named in MANIFEST.json -> AXIOMS.txt
cd "$(dirname "$0")/../lean" || exit 1
python3 - > /tmp/axioms_in.lean <<'P'
import json
m = json.load(open('../MANIFEST.json'))
print('import Verif')
for t in sorted({t for c in m['claims'] for t in c['theorems']}): print('#print axioms', t)
P
lake env lean /tmp/axioms_in.lean > ../AXIOMS.txt
