#!/bin/sh
# Prints the axioms of each theorem in MANIFEST.json. Needs a finished build.
cd "$(dirname "$0")/../lean" || exit 1
f=$(mktemp /tmp/axioms.XXXXXX.lean)
python3 - > "$f" <<'P'
import json
print("import Verif")
for c in json.load(open("../MANIFEST.json"))["claims"]:
    for t in c["theorems"]:
        print("#print axioms " + t)
P
lake env lean "$f"
rm -f "$f"
