#!/usr/bin/env python3
"""Transcribe the size tables of /repo/*/*_lookup.go (read as text) into lean/Verif/Model/Tables/.

ethash and kawpow embed the same tables, and firopow embeds the same cache table; each distinct table is written once."""
import re, os
OUT = '/verif/lean/Verif/Model/Tables'
T = {}
for c in ['ethash', 'kawpow', 'firopow', 'octopus']:
    s = open(f'/repo/{c}/{c}_lookup.go').read()
    for m in re.finditer(r'var (\w+) = \[\]uint64\{(.*?)\}', s, re.S):
        line = s[:m.start()].count('\n') + 1
        end = s[:m.end()].count('\n') + 1
        T[c, m[1]] = ([int(x) for x in re.findall(r'\d+', m[2])], line, end)
seen = {}
for (c, v), (t, l0, l1) in T.items():
    key = tuple(t)
    name = c.capitalize() + v[0].upper() + v[1:]
    ref = f'/repo/{c}/{c}_lookup.go:{l0}-{l1}'
    if key in seen:
        seen[key][1].append((c, v, ref))
    else:
        seen[key] = (name, [(c, v, ref)])
os.makedirs(OUT, exist_ok=True)
for key, (name, refs) in seen.items():
    rows = [key[i:i + 205] for i in range(0, len(key), 205)]
    o = ['/-! # The table of ' + ', '.join(r for _, _, r in refs), '', f'Written by tools/tables.py. {len(key)} entries. -/', '', 'set_option autoImplicit false', '', 'namespace Verif.Tables', '']
    v = name[0].lower() + name[1:]
    for i, r in enumerate(rows):
        o.append(f'/-- {refs[0][2]}, entries {205*i} to {205*i+len(r)-1} -/')
        o.append(f'def {v}{i} : List Nat := [')
        for j in range(0, len(r), 10):
            o.append('  ' + ', '.join(map(str, r[j:j + 10])) + (',' if j + 10 < len(r) else ']'))
        o.append('')
    o.append('/-- ' + ', '.join(r for _, _, r in refs) + ' -/')
    o.append(f'def {v} : List Nat := ' + ' ++ '.join(f'{v}{i}' for i in range(len(rows))))
    o += ['', 'end Verif.Tables', '']
    open(f'{OUT}/{name}.lean', 'w').write('\n'.join(o))
    print(name, len(key), refs)
