#!/usr/bin/env python3
"""Regenerate MANIFEST.json from the theorem names in lean/Verif/Props and tools/status.json.

status.json: {"C01": {"status": "proved", "note": "..."}}; properties without an entry are
'proved' when they have theorems and none ends in _partial or _fails, else 'partial'.
Properties without theorems are left out unless status.json lists them."""
import json, re, glob, os
root = os.path.dirname(os.path.dirname(os.path.abspath(__file__)))
st = json.load(open(root + '/tools/status.json'))
ths = {}
for f in sorted(glob.glob(root + '/lean/Verif/Props/*.lean')):
    s = open(f).read()
    ns = []
    for line in s.split('\n'):
        m = re.match(r'namespace ([A-Z][\w.]*)$', line)
        if m: ns.append(m.group(1))
        m = re.match(r'end (\S+)', line)
        if m and ns and ns[-1] == m.group(1): ns.pop()
        m = re.match(r'theorem (C\d\d\d?)_(\S+)', line)
        if m: ths.setdefault(m.group(1), []).append('.'.join(ns + [m.group(1) + '_' + m.group(2)]))
claims = []
ids = [json.loads(l)['id'] for l in open(root + '/properties.jsonl') if l.strip()]
for i in ids:
    t = ths.get(i, [])
    e = st.get(i, {})
    if not t and not e: continue
    auto = 'partial' if any(x.endswith(('_partial', '_fails')) for x in t) else 'proved'
    claims.append({"property": i, "status": e.get("status", auto), "theorems": t, "note": e.get("note", "")})
json.dump({"claims": claims}, open(root + '/MANIFEST.json', 'w'), indent=1)
print(len(claims), 'claims', sum(len(c['theorems']) for c in claims), 'theorems',
      {s: sum(c['status'] == s for c in claims) for s in ('proved', 'partial', 'not_applicable')})
for i in ids:
    if i not in ths and i not in st: print('no claim', i, end='; ')
print()
for i in ths:
    if i not in ids: print('unknown property', i)
