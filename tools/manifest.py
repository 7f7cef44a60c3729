#!/usr/bin/env python3
"""Regenerates MANIFEST.json.  Each *Props.lean theorem whose name starts with a
property id (C01_...) is attached to that property; status and notes come from
tools/status.json."""
import json, re, glob, os
root = os.path.dirname(os.path.dirname(os.path.abspath(__file__)))
props = [json.loads(l) for l in open(os.path.join(root, 'properties.jsonl')) if l.strip()]
status = json.load(open(os.path.join(root, 'tools', 'status.json')))
thms = {}
for f in sorted(glob.glob(os.path.join(root, 'lean', 'Verif', '**', '*.lean'), recursive=True)):
    stack = []
    for line in open(f):
        m = re.match(r'namespace\s+(\S+)', line)
        if m: stack.append(m.group(1)); continue
        m = re.match(r'end\s+(\S+)', line)
        if m and stack and stack[-1] == m.group(1): stack.pop(); continue
        m = re.match(r'theorem\s+((C\d+)_\S+)', line)
        if m:
            thms.setdefault(m.group(2), []).append('.'.join(stack + [m.group(1)]))
claims = []
for p in props:
    i = p['id']
    if i not in status: continue
    st, note = status[i]
    claims.append({'property': i, 'status': st, 'theorems': thms.get(i, []), 'note': note})
json.dump({'claims': claims}, open(os.path.join(root, 'MANIFEST.json'), 'w'), indent=1)
print(len(claims), 'claims,', sum(len(c['theorems']) for c in claims), 'theorems; ids without claim:',
      [p['id'] for p in props if p['id'] not in status])
