"""Write the table of axioms into DESIGN.md: what `#print axioms` says of every theorem of MANIFEST.json.

usage: axioms.py     (after `lake build` in lean/)
"""
import json, os, re, subprocess, tempfile
root = os.path.dirname(os.path.dirname(os.path.abspath(__file__)))
claims = json.load(open(root + '/MANIFEST.json'))['claims']
names = [t for c in claims for t in c['theorems']]
with tempfile.NamedTemporaryFile('w', suffix='.lean', delete=False) as f:
    f.write('import Verif\n' + ''.join(f'#print axioms {t}\n' for t in names))
out = subprocess.run(['lake', 'env', 'lean', f.name], cwd=root + '/lean', capture_output=True, text=True).stdout
os.unlink(f.name)
found = {}
for m in re.finditer(r"'([^']+(?:'[^' ]*)*)' (does not depend on any axioms|depends on axioms: \[([^\]]*)\])", out):
    found[m.group(1)] = tuple(sorted(re.split(r',\s*', m.group(3)))) if m.group(3) else ()
missing = [t for t in names if t not in found]
assert not missing, (missing, out[:2000])
groups = {}
for t in names:
    groups.setdefault(found[t], []).append(t)
allowed = {'propext', 'Classical.choice', 'Quot.sound'}
text = []
for axs in sorted(groups, key=lambda a: (len(a), a)):
    assert set(axs) <= allowed, axs
    short = [t.split('.')[-1] for t in groups[axs]]
    text.append(f"* {', '.join(f'`{a}`' for a in axs) or 'none'} ({len(short)} theorems): {', '.join(short)}")
d = open(root + '/DESIGN.md').read()
a, b = '<!-- axioms:begin -->\n', '<!-- axioms:end -->\n'
assert a in d and b in d
d = d[:d.index(a) + len(a)] + '\n'.join(text) + '\n' + d[d.index(b):]
open(root + '/DESIGN.md', 'w').write(d)
print({', '.join(k) or 'none': len(v) for k, v in groups.items()})
