#!/usr/bin/env python3
"""Apply seeded bugs to a scratch copy of the Lean project and record which theorems stop compiling.

usage: mutate.py specs.json     (list of {file, old, new, def, claim, [tightened]})
The scratch copy lives in /tmp/scratch (or $SCRATCH); results are appended to seeded/LOG.jsonl.
"""
import json, os, re, subprocess, sys

SRC = os.environ.get('SRC', '/verif/lean')
DST = os.environ.get('SCRATCH', '/tmp/scratch') + '/lean'


def sync():
    os.makedirs(DST, exist_ok=True)
    subprocess.check_call(['rsync', '-a', '--delete', SRC + '/', DST + '/']
                          if subprocess.call('which rsync >/dev/null', shell=True) == 0
                          else ['bash', '-c', f'rm -rf {DST} && cp -a {SRC} {DST}'])


def decl_at(lines, n):
    for i in range(min(n, len(lines)) - 1, -1, -1):
        m = re.match(r"\s*(?:private |noncomputable |@\[[^\]]*\]\s*)*(theorem|lemma|def|abbrev|example|instance|structure)\b\s*([\w.'«»]*)", lines[i])
        if m:
            return m.group(2) or m.group(1)
    return '?'


def imports(mod):
    p = f"{DST}/{mod.replace('.', '/')}.lean"
    return re.findall(r'^import (Verif\S*)', open(p).read(), re.M)


def closure(mod, seen):
    for m in imports(mod):
        if m not in seen:
            seen.add(m)
            closure(m, seen)
    return seen


def main():
    specs = json.load(open(sys.argv[1]))
    sync()
    for s in specs:
        path = f"{DST}/Verif/{s['file']}"
        orig = open(path).read()
        if orig.count(s['old']) < 1:
            print('NOT FOUND', s['def'], s['old'])
            continue
        if orig.count(s['old']) > 1 and not s.get('first'):
            print('AMBIGUOUS', s['def'], s['old'])
            continue
        open(path, 'w').write(orig.replace(s['old'], s['new'], 1))
        out = subprocess.run(['lake', 'build'], cwd=DST, capture_output=True, text=True)
        txt = out.stdout + out.stderr
        failed, mods = [], set()
        for m in re.finditer(r'error: (Verif/\S+?\.lean):(\d+):', txt):
            f, n = m.group(1), int(m.group(2))
            name = decl_at(open(f'{DST}/{f}').read().split('\n'), n)
            mods.add(f[:-5].replace('/', '.'))
            if name not in failed:
                failed.append(name)
        allprops = [l.split()[1] for l in open(f'{DST}/Verif.lean') if l.startswith('import')]
        blocked = sorted(p.split('.')[-1] for p in allprops if closure(p, set()) & mods)
        rec = {'definition': s['def'], 'file': 'Verif/' + s['file'], 'edit': f"{s['old'].strip()}  ->  {s['new'].strip()}",
               'claim_broken': s['claim'], 'theorems_failed': failed,
               'property_files_blocked': blocked,
               'tightened': s.get('tightened', [])}
        print(('KILLED  ' if failed else 'SURVIVED'), s['def'], '|', s['claim'], '|', failed[:6])
        sys.stdout.flush()
        if not s.get('dry'):
            open('/verif/seeded/LOG.jsonl', 'a').write(json.dumps(rec) + '\n')
        open(path, 'w').write(orig)


main()
