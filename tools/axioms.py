#!/usr/bin/env python3
"""Lists the axioms of every theorem of MANIFEST.json at the end of DESIGN.md (run after `lake build`)."""
import json, os, re, subprocess, tempfile
root = os.path.dirname(os.path.dirname(os.path.abspath(__file__)))
names = sorted({t for c in json.load(open(root + '/MANIFEST.json'))['claims'] for t in c['theorems']})
with tempfile.NamedTemporaryFile('w', suffix='.lean', delete=False) as f:
    f.write('import Verif\n' + ''.join(f'#print axioms {n}\n' for n in names))
out = subprocess.run(['lake', 'env', 'lean', f.name], cwd=root + '/lean', capture_output=True, text=True).stdout
os.unlink(f.name)
groups = {}
for n, ax in re.findall(r"'([^']+)' (does not depend on any axioms|depends on axioms:\s*\[[^\]]*\])", out):
    m = re.search(r'\[([^\]]*)\]', ax)
    key = ', '.join(sorted(x.strip() for x in m.group(1).split(','))) if m else 'none'
    groups.setdefault(key, []).append(n.replace('Verif.Props.', ''))
seen = sum(map(len, groups.values()))
assert seen == len(names), (seen, len(names))
text = open(root + '/DESIGN.md').read().split('<!-- axioms -->')[0] + '<!-- axioms -->\n'
text += '\nAxioms per theorem (`tools/axioms.py`, names in `Verif.Props`):\n\n'
for k in sorted(groups, key=lambda k: (k != 'none', k)):
    text += f'* {k}: ' + ', '.join(groups[k]) + '\n'
open(root + '/DESIGN.md', 'w').write(text)
print({k: len(v) for k, v in groups.items()})
