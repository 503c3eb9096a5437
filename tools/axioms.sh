#!/bin/bash
# Prints the axioms of every theorem named in MANIFEST.json and fails if one is not allowed.
cd "$(dirname "$0")/../lean" || exit 1
python3 - > /tmp/axioms_check.lean <<'PY'
import json
m = json.load(open('../MANIFEST.json'))
print('import Verif')
for c in m['claims']:
    for t in c['theorems']:
        print(f'#print axioms {t}')
PY
lake env lean /tmp/axioms_check.lean > /tmp/axioms_out.txt 2>&1
python3 - <<'PY'
import re
ok = {'propext', 'Classical.choice', 'Quot.sound'}
t = open('/tmp/axioms_out.txt').read()
bad = [l for l in t.split('\n') if 'error' in l]
for m in re.finditer(r"'([^']+)' depends on axioms: \[([^\]]*)\]", t):
    x = {a.strip() for a in m.group(2).split(',')} - ok
    if x: bad.append(f'{m.group(1)}: {x}')
n = len(re.findall(r"depends on axioms|does not depend on any axioms", t))
print(n, 'theorems checked;', 'BAD:' if bad else 'all within', *(bad or sorted(ok)))
PY
