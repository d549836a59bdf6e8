#!/usr/bin/env python3
"""Print which axioms the manifest theorems depend on (run after `lake build` in lean/). Writes AXIOMS.txt."""
import json, re, subprocess, tempfile, os, collections
root = os.path.dirname(os.path.dirname(os.path.abspath(__file__)))
m = json.load(open(os.path.join(root, 'MANIFEST.json')))
names = []
for c in m['claims']:
    for t in c['theorems']:
        if t not in names: names.append(t)
with tempfile.NamedTemporaryFile('w', suffix='.lean', delete=False) as f:
    f.write('import Verif\n')
    for n in names: f.write(f'#print axioms {n}\n')
out = subprocess.run(['lake', 'env', 'lean', f.name], cwd=os.path.join(root, 'lean'), capture_output=True, text=True)
os.unlink(f.name)
txt = re.sub(r'\n +', ' ', out.stdout)
res = {}
for line in txt.splitlines():
    a = re.match(r"'(.+)' depends on axioms: \[(.*)\]", line)
    b = re.match(r"'(.+)' does not depend on any axioms", line)
    if a: res[a.group(1)] = ', '.join(sorted(x.strip() for x in a.group(2).split(',')))
    elif b: res[b.group(1)] = '(none)'
missing = [n for n in names if not any(k == n or k.endswith('.' + n) for k in res)]
with open(os.path.join(root, 'AXIOMS.txt'), 'w') as g:
    for k in sorted(res): g.write(f'{k}: {res[k]}\n')
cnt = collections.Counter(res.values())
for k, v in cnt.most_common(): print(v, k)
print('missing', missing, out.stderr[:500])
