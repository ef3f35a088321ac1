#!/usr/bin/env python3
"""Regenerate lean/Verif.lean and MANIFEST.json from the sources.

Theorem names are taken from the sources: every `theorem Cnn_...` belongs to property Cnn.
Status and note come from tools/status.json.
"""
import json, os, re
root = os.path.dirname(os.path.dirname(os.path.abspath(__file__)))
lean = os.path.join(root, 'lean')
mods, thms = [], {}
for d, _, fs in sorted(os.walk(os.path.join(lean, 'Verif'))):
    for f in sorted(fs):
        if not f.endswith('.lean'):
            continue
        p = os.path.join(d, f)
        mods.append(os.path.relpath(p, lean)[:-5].replace('/', '.'))
        ns = []
        depth = 0
        src = open(p).read()
        src = re.sub(r'/-.*?-/', lambda m: '\n' * m.group(0).count('\n'), src, flags=re.S)
        for line in src.split('\n'):
            m = re.match(r'namespace\s+(\S+)', line)
            if m:
                ns.append(m.group(1)); continue
            m = re.match(r'(?:noncomputable )?section\b\s*(\S*)', line)
            if m:
                ns.append(None); continue
            m = re.match(r'end\b\s*(\S*)', line)
            if m and ns:
                ns.pop(); continue
            m = re.match(r'theorem\s+(C\d+_\S+)', line)
            if m:
                thms.setdefault(m.group(1).split('_')[0], []).append('.'.join([n for n in ns if n] + [m.group(1)]))
mods = [m for m in mods if m != 'Verif.Axioms'] + ['Verif.Axioms']
open(os.path.join(lean, 'Verif.lean'), 'w').write(''.join(f'import {m}\n' for m in mods))
open(os.path.join(lean, 'Verif', 'Axioms.lean'), 'w').write(
    ''.join(f'import {m}\n' for m in mods if m != 'Verif.Axioms') + '''import Lean.Util.CollectAxioms
import Lean.Elab.Command
/-!
# Axioms

The build fails if any declaration of this development depends on an axiom other than `propext`, `Classical.choice` and
`Quot.sound`. The axioms of each property theorem are printed after that.
-/

open Lean Elab Command in
run_cmd do
  let env ← getEnv
  let ok := [``propext, ``Classical.choice, ``Quot.sound]
  for (n, ci) in env.constants.map₁.toList do
    if n.getRoot == `StateObs then
      if ci matches .axiomInfo _ then throwError "axiom {n}"
      if ci matches .thmInfo _ then
        for a in (← liftCoreM (collectAxioms n)) do
          unless ok.contains a do throwError "{n} depends on {a}"

''' + ''.join(f'#print axioms {t}\n' for k in sorted(thms, key=lambda c: int(c[1:])) for t in thms[k]))
st = json.load(open(os.path.join(root, 'tools', 'status.json')))
ids = [json.loads(l)['id'] for l in open(os.path.join(root, 'properties.jsonl')) if l.strip()]
claims = []
for i in ids:
    s = st.get(i, {"status": "partial", "note": "Not formalised yet."})
    claims.append({"property": i, "status": s["status"], "theorems": thms.get(i, []), "note": s["note"]})
    if s["status"] != "not_applicable" and not thms.get(i):
        print("no theorem for", i)
open(os.path.join(root, 'MANIFEST.json'), 'w').write(json.dumps({"claims": claims}, indent=1, ensure_ascii=False) + '\n')
print(sum(map(len, thms.values())), 'theorems,', len(mods), 'modules')
