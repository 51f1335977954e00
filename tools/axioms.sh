#!/bin/sh
# prints the axioms of every theorem named in MANIFEST.json (run after lake build)
cd "$(dirname "$0")/../lean" && python3 - <<'P' > /tmp/axioms.lean
import json
m = json.load(open('../MANIFEST.json'))
print('import Verif')
for x in sorted({x for c in m['claims'] for x in c['theorems']}): print('#print axioms', x)
P
lake env lean /tmp/axioms.lean
