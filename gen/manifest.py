#!/usr/bin/env python3
"""Write MANIFEST.json from the table in gen/claims.json: property -> [status, [theorems], note]."""
import json
c = json.load(open('/verif/gen/claims.json'))
ids = [json.loads(l)['id'] for l in open('/verif/properties.jsonl')]
json.dump({"claims": [{"property": i, "status": c[i][0], "theorems": c[i][1], "note": c[i][2]} for i in ids if i in c]},
          open('/verif/MANIFEST.json', 'w'), indent=1)
print("not yet claimed:", [i for i in ids if i not in c])

# lean/Verif/Audit.lean: the axioms of every theorem claimed
ths = [t for i in ids if i in c for t in c[i][1]]
ths = list(dict.fromkeys(ths))
out = ['import Lean.Util.CollectAxioms', 'import Lean.Elab.Command']
mods = sorted({'.'.join(t.split('.')[:2]) for t in ths})
out += ['import Verif.' + m for m in mods]
out += ['/-', 'Every theorem of MANIFEST.json depends on no other axioms than `propext`, `Classical.choice` and `Quot.sound`.  Printed by', 'gen/manifest.py; the build fails if one does.', '-/',
        'open Lean Elab Command in', 'run_cmd liftTermElabM do', '  let names : List Name := [']
out += ['    ``' + t + (',' if k + 1 < len(ths) else ']') for k, t in enumerate(ths)]
out += ['  for n in names do', '    let ax ← collectAxioms n', '    for a in ax do', '      unless a == ``propext || a == ``Classical.choice || a == ``Quot.sound do',
        '        throwError "{n} depends on {a}"', '']
open('/verif/lean/Verif/Audit.lean', 'w').write('\n'.join(out))
