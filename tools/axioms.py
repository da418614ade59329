#!/usr/bin/env python3
"""Write AXIOMS.md: the axioms every theorem named in MANIFEST.json depends on (run after 'lake build')."""
import json, os, re, subprocess, tempfile

root = os.path.dirname(os.path.dirname(os.path.abspath(__file__)))
claims = json.load(open(os.path.join(root, 'MANIFEST.json')))['claims']
names = list(dict.fromkeys(t for c in claims for t in c['theorems']))
with tempfile.NamedTemporaryFile('w', suffix='.lean', delete=False) as f:
    f.write('import Verif\n' + '\n'.join('#print axioms ' + n for n in names))
out = subprocess.run(['lake', 'env', 'lean', f.name], cwd=os.path.join(root, 'lean'), capture_output=True, text=True).stdout
os.unlink(f.name)
out = re.sub(r'\n\s+', ' ', out)
groups = {}
for line in out.splitlines():
    m = re.match(r"'(.*)' (?:depends on axioms: \[(.*)\]|does not depend.*)", line)
    groups.setdefault(m.group(2) or 'no axioms', []).append(m.group(1))
with open(os.path.join(root, 'AXIOMS.md'), 'w') as f:
    f.write('# Axioms\n\nOutput of `#print axioms` for every theorem named in MANIFEST.json, written by tools/axioms.py.\n')
    for k in sorted(groups, key=len):
        f.write(f'\n## {k}\n\n' + ''.join(f'* {n}\n' for n in groups[k]))
print({k: len(v) for k, v in groups.items()})
