#!/usr/bin/env python3
"""Mutation testing of the model.

Reads seeded/mutations.jsonl (one object per line: id, file, definition, old, new, edit, claim).  Each mutation not yet in
seeded/LOG.jsonl is applied to a scratch copy of lean/ (outside /verif), the project is rebuilt there (of an example's model, first the
theorems about that example, and only if they all pass the rest), and the theorems whose proofs fail are appended to seeded/LOG.jsonl.  Optional field `tightened` is copied to the log.
"""
import glob, json, os, re, shutil, subprocess, sys

ROOT = os.path.dirname(os.path.dirname(os.path.abspath(__file__)))
SCRATCH = "/tmp/mut"
LOG = os.path.join(ROOT, "seeded/LOG.jsonl")

def load(p):
    return [json.loads(l) for l in open(p) if l.strip()] if os.path.exists(p) else []

def enclosing(path, line):
    name = None
    for i, l in enumerate(open(path), 1):
        m = re.match(r"\s*(?:@\[[^\]]*\]\s*)?(?:private |protected |noncomputable )*(theorem|lemma|def|instance|example|abbrev)\s*([^\s:({\[]*)", l)
        if m and i <= line:
            name = (m.group(1), m.group(2), i)
        if i > line:
            break
    if name is None:
        return "?"
    kind, n, i = name
    return n if kind != "example" else f"example@{os.path.basename(path)}:{i}"

def near(file):
    """The property modules about the example that `file` models."""
    if "/Examples/" not in file:
        return []
    base = os.path.basename(file)[:-len(".lean")]
    names = {"Options": ["Options", "Lattice", "BlackScholes"], "Aobench": ["Ao"], "AoOcclusion": ["Ao"], "AoImage": ["Ao"]}.get(base, [base])
    return ["Verif.Props." + os.path.basename(p)[:-len(".lean")] for n in names for p in sorted(glob.glob(f"{ROOT}/lean/Verif/Props/{n}*.lean"))]

def main():
    only = set(sys.argv[1:])
    done = {e["id"] for e in load(LOG)}
    src = os.path.join(ROOT, "lean")
    subprocess.run(["rsync", "-a", "--delete", src + "/", SCRATCH + "/"], check=False) if shutil.which("rsync") else (
        shutil.rmtree(SCRATCH, ignore_errors=True), shutil.copytree(src, SCRATCH, symlinks=True))
    for m in load(os.path.join(ROOT, "seeded/mutations.jsonl")):
        if m["id"] in done or (only and m["id"] not in only):
            continue
        rel = "Verif/" + m["file"]
        orig = open(os.path.join(src, rel)).read()
        if orig.count(m["old"]) != 1:
            print(m["id"], "PATTERN COUNT", orig.count(m["old"])); continue
        tgt = os.path.join(SCRATCH, rel)
        open(tgt, "w").write(orig.replace(m["old"], m["new"]))
        first = near(m["file"])
        p = subprocess.run(["lake", "build"] + first, cwd=SCRATCH, capture_output=True, text=True)
        if first and p.returncode == 0:
            p = subprocess.run(["lake", "build"], cwd=SCRATCH, capture_output=True, text=True)
        out = p.stdout + p.stderr
        fails, invalid = [], False
        for mm in re.finditer(r"^error: (Verif/\S+?\.lean):(\d+):\d+", out, re.M):
            if mm.group(1).startswith("Verif/Model") or mm.group(1).startswith("Verif/Spec"):
                invalid = True
            nm = enclosing(os.path.join(SCRATCH, mm.group(1)), int(mm.group(2)))
            if nm not in fails:
                fails.append(nm)
        open(tgt, "w").write(orig)
        st = "invalid" if invalid else ("killed" if p.returncode else "SURVIVED")
        print(m["id"], st, fails[:8], flush=True)
        if invalid:
            print(out[:1500]); continue
        e = {"id": m["id"], "definition": m["definition"], "file": rel, "edit": m["edit"], "claim": m["claim"],
             "theorems_failed": fails, "theorems_tightened": m.get("tightened", []), "result": st.lower()}
        with open(LOG, "a") as f:
            f.write(json.dumps(e) + "\n")

main()
