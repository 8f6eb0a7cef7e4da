#!/usr/bin/env python3
"""Regenerate lean/Verif.lean (imports of all modules) and MANIFEST.json (theorem names by property id)."""
import glob, json, os, re
root = os.path.dirname(os.path.dirname(os.path.abspath(__file__)))
lean = os.path.join(root, 'lean')
mods = sorted(os.path.relpath(p, lean)[:-5].replace('/', '.') for p in glob.glob(lean + '/Verif/**/*.lean', recursive=True))
open(lean + '/Verif.lean', 'w').write(''.join(f'import {m}\n' for m in mods))
notes = json.load(open(os.path.join(root, 'tools', 'notes.json')))
thms = {}
for p in sorted(glob.glob(lean + '/Verif/Props/*.lean')):
    for m in re.finditer(r'^theorem\s+(C\d\d+_\S+)', open(p).read(), re.M):
        thms.setdefault(m.group(1).split('_')[0], []).append('Verif.Props.' + m.group(1))
claims = []
for line in open(os.path.join(root, 'properties.jsonl')):
    pid = json.loads(line)['id']
    if pid in thms:
        n = notes.get(pid, '')
        status = 'partial' if any(t.endswith('_partial') for t in thms[pid]) else 'proved'
        claims.append({'property': pid, 'status': status, 'theorems': thms[pid], 'note': n})
    elif pid in notes and notes[pid].startswith('NA:'):
        claims.append({'property': pid, 'status': 'not_applicable', 'theorems': [], 'note': notes[pid][3:].strip()})
json.dump({'claims': claims}, open(os.path.join(root, 'MANIFEST.json'), 'w'), indent=1)
print(len(claims), 'claims', sum(len(c['theorems']) for c in claims), 'theorems')
