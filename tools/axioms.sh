#!/bin/sh
# Prints the axioms of every theorem listed in MANIFEST.json (run after `lake build`).
cd "$(dirname "$0")/../lean" || exit 1
{ echo 'import Verif'; python3 -c "
import json
for c in json.load(open('../MANIFEST.json'))['claims']:
    for t in c['theorems']: print('#print axioms', t)"; } > /tmp/axioms_check.lean
lake env lean /tmp/axioms_check.lean > /tmp/axioms_out.txt 2>&1
tr '\n' ' ' < /tmp/axioms_out.txt | sed "s/'Mcu/\n'Mcu/g" | sed 's/.*depends on axioms: //; s/.*does not depend on any axioms.*/none/' | sort | uniq -c
