#!/usr/bin/env python3
"""Regenerate MANIFEST.json from the theorem names in lean/Verif/**/*.lean and tools/notes.json.

Property theorems are named Cnn_...; names ending in _partial (or listed as violated) make the
status partial."""
import json, re, glob, os
root = os.path.dirname(os.path.dirname(os.path.abspath(__file__)))
notes = json.load(open(os.path.join(root, 'tools', 'notes.json')))
thms = {}
for f in sorted(glob.glob(os.path.join(root, 'lean/Verif/**/*.lean'), recursive=True)):
    ns = []
    for line in open(f):
        m = re.match(r'namespace (\S+)', line)
        if m: ns.append(m.group(1)); continue
        m = re.match(r'end (\S+)', line)
        if m and ns and ns[-1] == m.group(1): ns.pop(); continue
        m = re.match(r'(?:@\[[^\]]*\]\s*)?theorem (C(\d+)_\S+)', line)
        if m:
            thms.setdefault('C%s' % m.group(2), []).append('.'.join(ns + [m.group(1)]))
# The disagreements of a property: the bullets about it at the end of DESIGN.md.
design = open(os.path.join(root, 'DESIGN.md')).read().split('## Where the code and the property disagree')[1]
bullets = {}
for b in re.split(r'\n\* ', design)[1:]:
    pid = re.match(r'C\d+', b).group(0)
    bullets.setdefault(pid, []).append(re.sub(r'\s+', ' ', b[len(pid):].lstrip(': ')).strip())
claims = []
for line in open(os.path.join(root, 'properties.jsonl')):
    pid = json.loads(line)['id']
    t = thms.get(pid, [])
    n = notes.get(pid, {})
    if not t:
        claims.append(dict(property=pid, status=n.get('status', 'not_applicable'), theorems=[],
                           note=n.get('note', 'not yet modelled')))
        continue
    if 'note' not in n and pid in bullets:
        part = [x.split('.')[-1] for x in t if x.endswith('_partial')]
        n = dict(n, note='The code disagrees with the property: ' + ' '.join(bullets[pid]) +
                 (' What holds is stated by ' + ', '.join(part) + '; the comment of each says what is missing.' if part
                  else ' The other theorems state what holds.'))
    partial = any(x.endswith('_partial') or '_violated' in x for x in t)
    claims.append(dict(property=pid, status=n.get('status', 'partial' if partial else 'proved'),
                       theorems=t, note=n.get('note', '')))
json.dump({'claims': claims}, open(os.path.join(root, 'MANIFEST.json'), 'w'), indent=1)
print(sum(len(c['theorems']) for c in claims), 'theorems;', [c['property'] for c in claims if not c['theorems']])
