#!/usr/bin/env python3
"""Regenerate MANIFEST.json and lean/Verif.lean from the theorems named Cnn_* under lean/Verif/Props.

A property is 'partial' when it is listed in PARTIAL below (its statement is refuted or only partly proved)."""
import json, os, re, glob
root = os.path.dirname(os.path.dirname(os.path.abspath(__file__)))
lean = os.path.join(root, 'lean')
mods = sorted(os.path.relpath(p, lean)[:-5].replace('/', '.') for p in glob.glob(lean + '/Verif/**/*.lean', recursive=True))
open(lean + '/Verif.lean', 'w').write(''.join('import %s\n' % m for m in mods))
notes = json.load(open(os.path.join(root, 'tools', 'notes.json')))
thms = {}
for p in sorted(glob.glob(lean + '/Verif/Props/*.lean')):
    for m in re.finditer(r'^theorem (C\d\d+)_(\w+)', open(p).read(), re.M):
        thms.setdefault(m.group(1), []).append('Shipgrav.%s_%s' % (m.group(1), m.group(2)))
claims = []
for line in open(os.path.join(root, 'properties.jsonl')):
    pid = json.loads(line)['id']
    if pid not in thms:
        continue
    n = notes.get(pid, {})
    claims.append({'property': pid, 'status': n.get('status', 'proved'), 'theorems': thms[pid], 'note': n.get('note', '')})
json.dump({'claims': claims}, open(os.path.join(root, 'MANIFEST.json'), 'w'), indent=1, ensure_ascii=False)
print(len(claims), 'claims', sum(len(c['theorems']) for c in claims), 'theorems')
