#!/bin/sh
# axiom survey of the theorems of MANIFEST.json -> tools/axioms.txt (needs a finished `lake build`)
cd "$(dirname "$0")/.." || exit 1
python3 -c "
import json
print('\n'.join(sorted({t for c in json.load(open('MANIFEST.json'))['claims'] for t in c['theorems']})))" > /tmp/axnames.txt
cat > /tmp/Ax.lean <<'LEAN'
import Verif
open Lean
run_cmd do
  let names := (← IO.FS.lines "/tmp/axnames.txt")
  let h ← IO.FS.Handle.mk "/tmp/axioms.txt" .write
  for s in names do
    let ax ← collectAxioms s.toName
    h.putStrLn (s ++ " : " ++ ", ".intercalate ((ax.toList.map toString).mergeSort (· ≤ ·)))
LEAN
(cd lean && lake env lean /tmp/Ax.lean) && cp /tmp/axioms.txt tools/axioms.txt
