"""Regenerate MANIFEST.json from the theorem names in lean/Verif/Props and tools/status.txt.

status.txt lines: `Cxx | status | note`.  Theorems are all `theorem Cxx_...`, with the namespaces they are in.
"""
import glob, json, re, os
here = os.path.dirname(os.path.abspath(__file__))
root = os.path.dirname(here)
thms = {}
for p in sorted(glob.glob(root + '/lean/Verif/Props/*.lean')):
    inside = []
    for line in open(p):
        m = re.match(r'namespace (\S+)', line)
        if m:
            inside.append(m.group(1))
        m = re.match(r'end (\S+)', line)
        if m and inside and inside[-1] == m.group(1):
            inside.pop()
        m = re.match(r'theorem (C\d+)_(\S+)', line)
        if m:
            thms.setdefault(m.group(1), []).append('.'.join(inside + [f'{m.group(1)}_{m.group(2)}']))
claims = []
for line in open(here + '/status.txt'):
    line = line.strip()
    if not line:
        continue
    cid, status, note = [x.strip() for x in line.split('|', 2)]
    assert status in ('proved', 'partial', 'not_applicable'), line
    assert thms.get(cid), cid
    claims.append({'property': cid, 'status': status, 'theorems': thms[cid], 'note': note})
missing = sorted(set(thms) - {c['property'] for c in claims})
assert not missing, missing
json.dump({'claims': claims}, open(root + '/MANIFEST.json', 'w'), indent=1, ensure_ascii=False)
print(len(claims), 'claims')
