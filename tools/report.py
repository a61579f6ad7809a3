#!/usr/bin/env python3
"""Regenerate AXIOMS.md (axioms of every claim theorem, as Lean prints them) and FINDINGS.md
(every theorem ending in _fails with its comment). Needs a finished `lake build` and MANIFEST.json."""
import json, re, glob, os, subprocess, tempfile
root = os.path.dirname(os.path.dirname(os.path.abspath(__file__)))
claims = json.load(open(root + '/MANIFEST.json'))['claims']
names = [t for c in claims for t in c['theorems']]
with tempfile.NamedTemporaryFile('w', suffix='.lean', delete=False) as f:
    f.write('import Verif\n' + ''.join('#print axioms %s\n' % n for n in names))
out = subprocess.run(['lake', 'env', 'lean', f.name], cwd=root + '/lean', capture_output=True, text=True).stdout
ax = {}
for m in re.finditer(r"'(\S+)' (does not depend on any axioms|depends on axioms: \[([^\]]*)\])", out):
    ax[m.group(1)] = ' '.join((m.group(3) or '').replace(',', ' ').split())
groups = {}
for n in names:
    groups.setdefault(ax.get(n, 'NOT PRINTED'), []).append(n)
with open(root + '/AXIOMS.md', 'w') as g:
    g.write('# Axioms of the claim theorems\n\nMade by tools/report.py from `#print axioms`.\n')
    for k in sorted(groups):
        g.write('\n## %s (%d)\n\n' % (k or 'no axioms', len(groups[k])))
        g.write('\n'.join('* ' + n for n in groups[k]) + '\n')
doc = {}
for f in sorted(glob.glob(root + '/lean/Verif/Props/*.lean')):
    s = open(f).read()
    for m in re.finditer(r'/--((?:(?!-/).)*)-/\s*theorem (C\d+_\w*_fails|C\d+_fails)\b', s, re.S):
        doc[m.group(2)] = (os.path.basename(f), ' '.join(m.group(1).split()))
titles = {json.loads(l)['id']: json.loads(l)['title'] for l in open(root + '/properties.jsonl') if l.strip()}
n = 0
with open(root + '/FINDINGS.md', 'w') as g:
    g.write('# Where the code departs from the properties\n\nEvery theorem with suffix `_fails`, with the comment beside it. Made by tools/report.py.\n')
    for c in claims:
        fs = [t.split('.')[-1] for t in c['theorems'] if t.endswith('_fails')]
        if not fs: continue
        g.write('\n## %s %s\n\n' % (c['property'], titles[c['property']]))
        for t in fs:
            n += 1
            file, d = doc.get(t, ('', ''))
            g.write('* `%s` (Props/%s): %s\n' % (t, file, d.replace('**', '')))
print({k or 'none': len(v) for k, v in groups.items()}, n, 'findings', [t for t in names if t.endswith('_fails') and t.split('.')[-1] not in doc])
