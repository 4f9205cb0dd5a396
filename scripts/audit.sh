#!/bin/sh
# Prints the axioms on which the theorems named in MANIFEST.json depend, grouped by set of axioms.
# Needs a built project: run "lake build" in lean/ first.
set -e
root=$(cd "$(dirname "$0")/.." && pwd)
tmp=$(mktemp /tmp/auditXXXXXX.lean)
python3 - "$root/MANIFEST.json" > "$tmp" <<'P'
import json, sys
print("import Verif")
for c in json.load(open(sys.argv[1]))["claims"]:
    for t in c["theorems"]:
        print("#print axioms", t)
P
cd "$root/lean"
lake env lean "$tmp" | tr '\n' ' ' | sed "s/'Verif/\n'Verif/g" | sed "s/^'[^']*' //" | sort | uniq -c
rm -f "$tmp"
