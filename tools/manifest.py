#!/usr/bin/env python3
"""Write MANIFEST.json and lean/Verif/Axioms.lean from the theorems in lean/Verif/Props."""
import json, re, pathlib
root = pathlib.Path(__file__).resolve().parent.parent
notes = json.load(open(root / 'tools' / 'notes.json'))
thms = {}
for f in sorted((root / 'lean/Verif/Props').glob('*.lean')):
    text = f.read_text()
    ns = re.search(r'^namespace (\S+)', text, re.M).group(1)
    for m in re.finditer(r'^theorem ((C\d+)_\w+)', text, re.M):
        thms.setdefault(m.group(2), []).append(ns + '.' + m.group(1))
claims = []
for line in open(root / 'properties.jsonl'):
    p = json.loads(line)['id']
    n = notes.get(p, {})
    ts = thms.get(p, [])
    status = n.get('status') or ('not_applicable' if not ts else
             'partial' if any(t.endswith('_partial') for t in ts) else 'proved')
    note = n.get('note', '' if ts else 'not yet proved')
    claims.append({'property': p, 'status': status, 'theorems': ts, 'note': note})
json.dump({'claims': claims}, open(root / 'MANIFEST.json', 'w'), indent=1)
names = [t for ts in thms.values() for t in ts]
mods = sorted('Verif.Props.' + f.stem for f in (root / 'lean/Verif/Props').glob('*.lean'))
(root / 'lean/Verif/Axioms.lean').write_text(
'import Lean.Elab.Command\nimport Lean.Util.CollectAxioms\n' + ''.join(f'import {m}\n' for m in mods) + '''
/-!
Generated by `tools/manifest.py`: fails to build if a property theorem depends on anything but
`propext`, `Classical.choice` and `Quot.sound`.
-/

open Lean Elab Command in
/-- Check the axioms of the named theorems. -/
elab "#check_axioms " ids:ident* : command => do
  for id in ids do
    let n ← liftCoreM <| realizeGlobalConstNoOverloadWithInfo id
    for a in ← liftCoreM (collectAxioms n) do
      unless [``propext, ``Classical.choice, ``Quot.sound].contains a do
        throwErrorAt id "{n} depends on {a}"

#check_axioms
''' + '\n'.join('  ' + n for n in names) + '\n')
print({s: sum(c['status'] == s for c in claims) for s in ('proved', 'partial', 'not_applicable')}, len(names), 'theorems')
