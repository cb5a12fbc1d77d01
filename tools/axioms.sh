#!/bin/sh
# Prints, for every theorem named in MANIFEST.json, the axioms it depends on; writes AXIOMS.txt.
cd "$(dirname "$0")/.."
t=$(mktemp -d)
{ echo 'import Verif'; python3 -c "
import json
for c in json.load(open('MANIFEST.json'))['claims']:
    for t in c['theorems']: print('#print axioms', t)"; } > $t/Ax.lean
(cd lean && lake env lean $t/Ax.lean) | tr '\n' ' ' | sed "s/' d/\n' d/g;s/ 'FinProto/\n'FinProto/g" | sed '/^$/d' | awk '{printf "%s", $0} /\]|any axioms/{print ""}' > AXIOMS.txt
wc -l AXIOMS.txt
