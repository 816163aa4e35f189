#!/usr/bin/env python3
"""Regenerate MANIFEST.json from the theorem names in lean/Verif/Props/*.lean.
A theorem named C12_..., or C11_C14_..., belongs to those properties. Notes and non-default statuses come from
tools/notes.json."""
import json, re, glob, os
root = os.path.dirname(os.path.dirname(os.path.abspath(__file__)))
props = [json.loads(l)["id"] for l in open(root + "/properties.jsonl") if l.strip()]
notes = json.load(open(root + "/tools/notes.json"))
th = {p: [] for p in props}
for f in sorted(glob.glob(root + "/lean/Verif/Props/**/*.lean", recursive=True)):
    stack = []
    for l in open(f):
        m = re.match(r"(namespace|end) (\S+)\s*$", l)
        if m and m.group(1) == "namespace":
            stack.append(m.group(2))
        elif m and stack and stack[-1] == m.group(2):
            stack.pop()
        ns = ".".join(stack)
        m = re.match(r"\s*(?:protected )?theorem ((?:C\d+_)+\S*)", l)
        if m:
            for c in re.findall(r"C\d+(?=_)", re.match(r"(?:C\d+_)+", m.group(1)).group(0)):
                th[c].append(ns + "." + m.group(1))
claims = []
for p in props:
    n = notes.get(p, {})
    if not th[p] and n.get("status") != "not_applicable":
        continue
    st = n.get("status") or ("partial" if any(t.endswith("_partial") or t.endswith("_fails") for t in th[p]) else "proved")
    claims.append({"property": p, "status": st, "theorems": th[p], "note": n.get("note", "")})
json.dump({"claims": claims}, open(root + "/MANIFEST.json", "w"), indent=1, ensure_ascii=False)
print(len(claims), "claims;", "missing:", [p for p in props if p not in [c["property"] for c in claims]])
