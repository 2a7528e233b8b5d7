#!/usr/bin/env python3
"""Collect the theorems named Cnn_* under lean/Verif/Props into MANIFEST.json."""
import glob, json, os, re

root = os.path.dirname(os.path.dirname(os.path.abspath(__file__)))
theorems = {}
for f in sorted(glob.glob(root + '/lean/Verif/Props/*.lean')):
    ns = []
    for line in open(f):
        m = re.match(r'namespace (\S+)', line)
        if m:
            ns.append(m.group(1))
        m = re.match(r'end (\S+)', line)
        if m and ns and ns[-1] == m.group(1):
            ns.pop()
        m = re.match(r'(?:protected )?theorem (C\d\d)_(\S+)', line)
        if m:
            theorems.setdefault(m.group(1), []).append('.'.join(ns + [m.group(1) + '_' + m.group(2)]))

notes = json.load(open(root + '/tools/manifest_notes.json'))
claims = []
for line in open(root + '/properties.jsonl'):
    pid = json.loads(line)['id']
    ts = theorems.get(pid, [])
    n = notes.get(pid, {})
    status = n.get('status', 'proved' if ts else 'partial')
    claims.append({'property': pid, 'status': status, 'theorems': ts,
                   'note': n.get('note', '' if ts else 'no theorem yet')})
json.dump({'claims': claims}, open(root + '/MANIFEST.json', 'w'), indent=1)
print(sum(c['status'] == 'proved' for c in claims), 'proved,',
      [c['property'] for c in claims if not c['theorems']], 'without theorems')
