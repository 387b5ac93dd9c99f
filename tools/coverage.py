#!/usr/bin/env python3
"""Compare the line ranges cited in lean/Verif/Model with the functions of the repository.

usage: coverage.py /repo     prints, per source file, each function with the model definitions that cite lines inside it
"""
import ast, glob, os, re, sys

root = os.path.dirname(os.path.dirname(os.path.abspath(__file__)))
repo = sys.argv[1] if len(sys.argv) > 1 else '/repo'

cites = {}
for f in sorted(glob.glob(root + '/lean/Verif/Model/*.lean')):
    txt = open(f).read()
    for m in re.finditer(r'/--(.*?)-/\s*(?:@\[[^\]]*\]\s*)?(?:noncomputable |private )*(?:def|abbrev|structure|inductive)\s+(\S+)', txt, re.S):
        doc, name = m.group(1), m.group(2)
        if re.match('(src|prog)_', name):
            continue   # the import tables of Model/Imports.lean cite whole files
        if '/--' in doc:
            doc = doc[doc.rindex('/--'):]
        for c in re.finditer(r'([\w/]+\.py):((?:\d+(?:-\d+)?(?:, ?)?)+)', doc):
            for r in re.findall(r'\d+(?:-\d+)?', c.group(2)):
                lo, _, hi = r.partition('-')
                cites.setdefault(c.group(1), []).append((int(lo), int(hi or lo), name))

files = sorted(p for p in glob.glob(repo + '/**/*.py', recursive=True))
out = []
for p in files:
    rel = os.path.relpath(p, repo)
    if rel.startswith('scripts/') or rel.startswith('test/') or os.path.basename(rel) == '__init__.py' and rel != 'problems/__init__.py':
        continue
    try:
        tree = ast.parse(open(p).read())
    except SyntaxError:
        out.append((rel, '(syntax error)', 0, 0, [])); continue
    def walk(node, prefix, depth):
        for n in ast.iter_child_nodes(node):
            if isinstance(n, ast.ClassDef):
                walk(n, prefix + n.name + '.', depth)
            elif isinstance(n, (ast.FunctionDef,)):
                if depth == 0:
                    hit = sorted({d for lo, hi, d in cites.get(rel, []) if lo <= n.end_lineno and hi >= n.lineno})
                    out.append((rel, prefix + n.name, n.lineno, n.end_lineno, hit))
            else:
                walk(n, prefix, depth)
    walk(tree, '', 0)

cur = None
for rel, name, lo, hi, hit in out:
    if rel != cur:
        print(f'\n### {rel}\n\n| function | lines | model |\n|---|---|---|'); cur = rel
    print(f"| `{name}` | {lo}-{hi} | {', '.join('`'+h+'`' for h in hit) if hit else 'not modelled'} |")
