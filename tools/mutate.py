#!/usr/bin/env python3
"""Applies seeded bugs to a scratch copy of the model and logs which theorems stop proving.

usage: mutate.py seeded/<file>.json [--only N] [--scratch DIR]

The file is a list of {"file", "def", "old", "new", "claim", "target"}; "file" is relative to lean/,
"target" is the module to build; "also" is a
list of further edits {"file", "old", "new"}, of a lemma that only describes the edited definition. One line per attempt is appended to seeded/LOG.jsonl."""
import json, os, re, shutil, subprocess, sys
ROOT = "/verif"
SCRATCH = sys.argv[sys.argv.index("--scratch") + 1] if "--scratch" in sys.argv else "/tmp/scratch"

def sync():
    os.makedirs(SCRATCH, exist_ok=True)
    subprocess.run(["rsync", "-a", "--delete", f"{ROOT}/lean/", f"{SCRATCH}/lean/"], check=False) \
        if shutil.which("rsync") else (shutil.rmtree(f"{SCRATCH}/lean", ignore_errors=True),
            subprocess.run(["cp", "-a", f"{ROOT}/lean", f"{SCRATCH}/lean"], check=True))

def enclosing(path, line):
    name = None
    with open(path) as f:
        for i, l in enumerate(f, 1):
            m = re.match(r"\s*(?:private |protected |noncomputable )*(theorem|lemma|example|def|instance|structure)\s*([^\s:({\[]*)", l)
            if m and i <= line:
                name = m.group(2) or f"example@{i}"
    return name

def main():
    muts = json.load(open(sys.argv[1]))
    only = None
    if "--only" in sys.argv:
        only = [int(x) for x in sys.argv[sys.argv.index("--only") + 1].split(",")]
    sync()
    for n, m in enumerate(muts):
        if only is not None and n not in only:
            continue
        path = f"{SCRATCH}/lean/{m['file']}"
        src = open(path).read()
        cnt = src.count(m["old"])
        if cnt != 1:
            print(n, "PATTERN COUNT", cnt, m["old"]); continue
        open(path, "w").write(src.replace(m["old"], m["new"]))
        saved = []
        for x in m.get("also", []):
            q = f"{SCRATCH}/lean/{x['file']}"
            t = open(q).read()
            saved.append((q, t))
            if t.count(x["old"]) != 1: print(n, "PATTERN COUNT", t.count(x["old"]), x["old"])
            open(q, "w").write(t.replace(x["old"], x["new"]))
        r = subprocess.run(["lake", "build"] + m["target"].split(), cwd=f"{SCRATCH}/lean", capture_output=True, text=True)
        out = r.stdout + r.stderr
        fails = []
        for f, l in re.findall(r"error: (\S+?\.lean):(\d+):\d+", out):
            e = enclosing(f"{SCRATCH}/lean/{f}", int(l))
            e = f"{f.replace('Verif/','').replace('.lean','')}:{e}"
            if e not in fails:
                fails.append(e)
        for q, t in reversed(saved):
            open(q, "w").write(t)
        open(path, "w").write(src)
        rec = {"definition": f"{m['file']}: {m['def']}", "edit": f"{m['old']}  =>  {m['new']}", "claim": m["claim"],
               "theorems_failed": fails, "theorems_tightened": m.get("tightened", [])}
        if not fails and r.returncode != 0:
            rec["theorems_failed"] = ["build failed: " + out[-300:]]
        print(n, m["def"], "->", rec["theorems_failed"] or "SURVIVED", flush=True)
        if m.get("note"): rec["note"] = m["note"]
        with open(f"{ROOT}/seeded/LOG.jsonl", "a") as f:
            f.write(json.dumps(rec, ensure_ascii=False) + "\n")
main()
