#!/usr/bin/env python3
"""Write DESIGN.md: the text of tools/design_text.md, then a list of all properties with status, module and method."""
import glob, json, os, re
root = os.path.dirname(os.path.dirname(os.path.abspath(__file__)))
how = json.load(open(root + '/tools/how.json'))
mods = {}
for p in sorted(glob.glob(root + '/lean/Verif/Props/*.lean')):
    for m in re.finditer(r'^theorem (C\d\d+)_', open(p).read(), re.M):
        name = 'Props/' + os.path.basename(p)
        if name not in mods.setdefault(m.group(1), []):
            mods[m.group(1)].append(name)
claims = {c['property']: c for c in json.load(open(root + '/MANIFEST.json'))['claims']}
out = [open(root + '/tools/design_text.md').read().rstrip('\n'), '', '## 6. Property by property', '',
       'Theorem names are in MANIFEST.json; every name begins with the number of its property.', '']
for line in open(root + '/properties.jsonl'):
    p = json.loads(line)
    c = claims.get(p['id'])
    if c is None:
        out.append('- **%s** (%s) — not yet proved.' % (p['id'], p['title']))
        continue
    s = '- **%s** (%s) — %s; `%s`: %s' % (p['id'], p['title'], c['status'], '`, `'.join(mods[p['id']]), how.get(p['id'], ''))
    out.append(s + (' ' + c['note'] if c['note'] else ''))
open(root + '/DESIGN.md', 'w').write('\n'.join(out) + '\n')
