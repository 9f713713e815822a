#!/usr/bin/env python3
"""retry.py tight N,M,..   builds edits N, M of /tmp/survivors.jsonl against the present theorems; the theorems that fail now
                           were tightened because of the edit, and are logged as such
   retry.py again N,M,..   the same for edits that were tried against too few theorems; nothing was tightened
   retry.py note N,M TEXT  logs edits that change nothing a user can see, with the reason
   retry.py list           lists the edits not yet settled"""
import json, os, re, subprocess, sys
SUR, DONE = "/tmp/survivors.jsonl", "/tmp/settled.json"
sur = [json.loads(l) for l in open(SUR)]
settled = set(json.load(open(DONE))) if os.path.exists(DONE) else set()
def log(rec):
    with open("/verif/seeded/LOG.jsonl", "a") as f: f.write(json.dumps(rec, ensure_ascii=False) + "\n")
def settle(i):
    settled.update(json.load(open(DONE)) if os.path.exists(DONE) else []); settled.add(i); json.dump(sorted(settled), open(DONE, "w"))
cmd = sys.argv[1]
if cmd == "list":
    for i, r in enumerate(sur):
        if i not in settled: print(i, r["definition"], "|", r["edit"][:400])
elif cmd == "note":
    for i in map(int, sys.argv[2].split(",")):
        log(dict(sur[i], note=sys.argv[3])); settle(i)
else:
    S = "/tmp/scratch3"
    os.makedirs(S, exist_ok=True)
    subprocess.run(["rsync", "-a", "/verif/lean", S], check=False) if subprocess.run(["which", "rsync"], capture_output=True).returncode == 0 else subprocess.run(f"mkdir -p {S}/lean && cp -au /verif/lean/. {S}/lean/", shell=True, check=True)
    for i in map(int, sys.argv[2].split(",")):
        r = sur[i]; rel, name = r["definition"].split(": "); old, new = r["edit"].split("  =>  ")
        path = f"{S}/lean/{rel}"; src = open(f"/verif/lean/{rel}").read(); comp = rel.split("/")[1]
        d = re.search(r"^def " + re.escape(name) + r"(?![\w.'])", src, re.M).start()
        k = src.index(old, d)
        open(path, "w").write(src[:k] + new + src[k + len(old):])
        tg = [f"Verif.{comp}.{f[:-5]}" for f in os.listdir(f"{S}/lean/Verif/{comp}") if "Props" in f] + sys.argv[3:]
        out = subprocess.run(["lake", "build"] + tg, cwd=f"{S}/lean", capture_output=True, text=True)
        fails = []
        for f, l in re.findall(r"error: (\S+?\.lean):(\d+):\d+", out.stdout + out.stderr):
            nm = None
            for j, t in enumerate(open(f"{S}/lean/{f}").read().split("\n"), 1):
                m = re.match(r"\s*(?:theorem|example|def)\s*([^\s:({\[]*)", t)
                if m and j <= int(l): nm = m.group(1) or "example"
            x = f"{f.replace('Verif/', '').replace('.lean', '')}:{nm}"
            if x not in fails: fails.append(x)
        open(path, "w").write(src)
        print(i, name, fails or "STILL SURVIVES", flush=True)
        if fails: log(dict(r, theorems_failed=fails, theorems_tightened=fails if cmd == "tight" else [])); settle(i)
