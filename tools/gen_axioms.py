#!/usr/bin/env python3
"""Lists, in DESIGN.md between the two markers, the axioms each theorem of MANIFEST.json depends on.
Needs a finished `lake build` in lean/."""
import json, pathlib, re, subprocess, tempfile

root = pathlib.Path(__file__).resolve().parent.parent
names = []
for c in json.loads((root / 'MANIFEST.json').read_text())['claims']:
    for t in c['theorems']:
        if t not in names:
            names.append(t)
src = 'import Verif\n' + ''.join(f'#print axioms {n}\n' for n in names)
with tempfile.NamedTemporaryFile('w', suffix='.lean', delete=False) as f:
    f.write(src)
out = subprocess.run(['lake', 'env', 'lean', f.name], cwd=root / 'lean', capture_output=True, text=True).stdout
out = re.sub(r'\n\s+', ' ', out)
groups = {}
for n in names:
    m = re.search(r"'" + re.escape(n) + r"' (does not depend on any axioms|depends on axioms: \[(.*?)\])", out)
    assert m, n
    ax = 'none' if m.group(2) is None else ', '.join('`' + a.strip() + '`' for a in m.group(2).split(','))
    groups.setdefault(ax, []).append(n.removeprefix('Webwire.'))
text = ''
for ax in sorted(groups, key=len):
    text += f'* {ax} ({len(groups[ax])} theorems): ' + ', '.join(groups[ax]) + '\n\n'
p = root / 'DESIGN.md'
d = p.read_text()
a, b = '<!-- axioms -->\n', '<!-- end axioms -->'
i, j = d.index(a) + len(a), d.index(b)
p.write_text(d[:i] + text + d[j:])
print({k: len(v) for k, v in groups.items()})
