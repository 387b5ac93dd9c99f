"""Writes the per-property table of ../DESIGN.md between markers (plan per property)."""
import json, os, re
here = os.path.dirname(__file__)
plan = {}
for line in open(os.path.join(here, "plan.txt")):
    line = line.strip()
    if not line: continue
    i, t = line.split("|", 1)
    plan[i.strip()] = t.strip()
props = [json.loads(l) for l in open(os.path.join(here, "..", "properties.jsonl"))]
rows = ["| id | property | what is modelled and how it is proved |", "|---|---|---|"]
for q in props:
    rows.append("| %s | %s | %s |" % (q["id"], q["title"], plan[q["id"]]))
path = os.path.join(here, "..", "DESIGN.md")
s = open(path).read()
s = re.sub(r"<!-- plan:begin -->.*<!-- plan:end -->", lambda m: "<!-- plan:begin -->\n" + "\n".join(rows) + "\n<!-- plan:end -->", s, flags=re.S)
open(path, "w").write(s)
