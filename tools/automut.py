#!/usr/bin/env python3
"""Makes small edits to definitions of the model, builds the theorems of the component and logs the result.

usage: automut.py COMPONENT FILE[,FILE...] K [--scratch DIR] [--all] [--seed N] [--skip NAME,...]

For each definition of the files (relative to lean/Verif/COMPONENT) that has no entry in seeded/LOG.jsonl (all with
--all) up to K edits are tried. Edits that do not typecheck are dropped. Killed edits are appended to the log; edits that
survive are printed and written to /tmp/survivors.jsonl, to be looked at by hand."""
import json, os, random, re, shutil, subprocess, sys
ROOT = "/verif"
comp, files, K = sys.argv[1], sys.argv[2].split(","), int(sys.argv[3])
def opt(n, d=None): return sys.argv[sys.argv.index(n) + 1] if n in sys.argv else d
SCRATCH = opt("--scratch", "/tmp/scratch2")
rnd = random.Random(int(opt("--seed", "1")))
skip = opt("--skip", "").split(",")
log = [json.loads(l) for l in open(f"{ROOT}/seeded/LOG.jsonl")]
done = {(e["definition"].split(":")[0], w) for e in log for w in re.split(r"[\s/(),]+", e["definition"].split(":", 1)[1]) if w}
tried = {(e["definition"].split(":")[0], e["edit"]) for e in log}

def sync():
    """The sources as they are committed; compiled files are kept."""
    os.makedirs(SCRATCH, exist_ok=True)
    if not os.path.exists(f"{SCRATCH}/lean"):
        subprocess.run(["cp", "-a", f"{ROOT}/lean", f"{SCRATCH}/lean"], check=True)
    new = f"{SCRATCH}/head"
    shutil.rmtree(new, ignore_errors=True); os.makedirs(new)
    subprocess.run(f"git -C {ROOT} archive HEAD lean | tar x -C {new}", shell=True, check=True)
    for d, _, fs in os.walk(f"{new}/lean"):
        for f in fs:
            a = os.path.join(d, f); b = a.replace(f"{new}/lean", f"{SCRATCH}/lean")
            os.makedirs(os.path.dirname(b), exist_ok=True)
            if not os.path.exists(b) or open(a, "rb").read() != open(b, "rb").read(): shutil.copyfile(a, b)

def defs(src):
    """name, doc, start, end of the body of each definition"""
    heads = [m for m in re.finditer(r"^(/--|def |theorem |structure |inductive |instance |abbrev |example|end |namespace |open |section|/-!|private |@\[|set_option|attribute|mutual|variable|deriving|lemma |partial )", src, re.M)]
    for i, m in enumerate(heads):
        if src[m.start():].startswith("def "):
            name = re.match(r"def ([\w.'!?]+)", src[m.start():]).group(1)
            end = heads[i + 1].start() if i + 1 < len(heads) else len(src)
            doc = ""
            if i and src[heads[i - 1].start():].startswith("/--"):
                doc = src[heads[i - 1].start() + 3:m.start()].split("-/")[0].strip().replace("\n", " ")
            body = m.start() + len("def " + name)
            k = src.find(":=", body, end); b = re.search(r"\n  \|", src[body:end])
            if b and (k < 0 or body + b.start() < k): k = body + b.start()
            if k < 0: continue
            yield name, doc, m.start(), k, end

def edits(text):
    out = []
    def sub(rx, f, kind):
        for m in re.finditer(rx, text):
            n = f(m)
            if n is not None: out.append((kind, m.start(), m.end(), n))
    sub(r"(?<![\w.])0x([0-9a-fA-F]+)(?![\w])", lambda m: hex(int(m.group(1), 16) + 1), "number")
    sub(r"(?<![\w.⟨])(\d+)(?![\w])", lambda m: str(int(m.group(1)) + 1), "number")
    for a, b in (("≤", "<"), ("≥", ">"), ("≠", "="), ("&&", "||"), ("||", "&&"), ("∧", "∨"), ("∨", "∧"), ("==", "!="), ("!=", "==")):
        sub(r"(?<= )" + re.escape(a) + r"(?= )", lambda m, b=b: b, "operator")
    sub(r"(?<= )<(?= )", lambda m: "≤", "operator")
    sub(r"(?<= )>(?= )", lambda m: "≥", "operator")
    sub(r"(?<=if )([\w.' ]+) = ", lambda m: m.group(1) + " ≠ ", "test")
    sub(r"if ((?:(?!then|else|if ).)+) then", lambda m: f"if ¬({m.group(1)}) then" if not re.match(r"(h|let) ", m.group(1)) and " : " not in m.group(1) else None, "test")
    sub(r"\btrue\b", lambda m: "false", "bool")
    sub(r"\bfalse\b", lambda m: "true", "bool")
    sub(r"\.isSome\b", lambda m: ".isNone", "bool")
    sub(r"\.isNone\b", lambda m: ".isSome", "bool")
    sub(r"(?<= )\+(?= )", lambda m: "-", "operator")
    sub(r"(?<= )-(?= )", lambda m: "+", "operator")
    sub(r"(?<= )\+\+ [\w.]+", lambda m: "++ []", "drop")
    sub(r"\bmin\b", lambda m: "max", "operator")
    sub(r"\bmax\b", lambda m: "min", "operator")
    sub(r"\b(Status\.)(?!success\b)\w+", lambda m: "Status.success", "status")
    sub(r"with ([\w.]+ := (?:(?![,{}]).)+), ", lambda m: "with ", "drop")
    sub(r", ([\w.]+ := (?:(?![,{}]).)+)(?= ?\})", lambda m: "", "drop")
    sub(r", ([\w.]+ := (?:(?![,{}]).)+)(?=, )", lambda m: "", "drop")
    sub(r"\{ (\w+) with [\w.]+ := (?:(?![,{}]).)+ \}", lambda m: m.group(1), "drop")
    sub(r"\bnot\b|!(?=[\w(])", lambda m: "", "bool")
    sub(r"\.reverse\b", lambda m: "", "drop")
    sub(r"\.(fst|1)\b", lambda m: ".2", "swap")
    sub(r"\.(snd|2)\b", lambda m: ".1", "swap")
    sub(r"\.take\b", lambda m: ".drop", "swap")
    sub(r"\.drop\b", lambda m: ".take", "swap")
    sub(r"\bany\b", lambda m: "all", "swap")
    sub(r"\ball\b", lambda m: "any", "swap")
    sub(r"^(  (?:\| )?.* )(\w+) (\w+)$", lambda m: None, "swap")
    return out

def enclosing(src, line):
    name, kind, start = None, None, 0
    for i, l in enumerate(src.split("\n"), 1):
        m = re.match(r"\s*(?:private |protected |noncomputable )*(theorem|lemma|example|def|instance|structure|inductive)\s*([^\s:({\[]*)", l)
        if m and i <= line: name, kind = m.group(2) or f"example@{i}", m.group(1)
    return name, kind

def main():
    sync()
    props = sorted(f"Verif.{comp}.{f[:-5]}" for f in os.listdir(f"{SCRATCH}/lean/Verif/{comp}") if ("Props" in f or f == "Framed.lean") and f.endswith(".lean"))
    targets = opt("--targets").split(",") if opt("--targets") else props
    subprocess.run(["lake", "build"] + targets, cwd=f"{SCRATCH}/lean", capture_output=True)
    for fn in files:
        rel = f"Verif/{comp}/{fn}.lean"; path = f"{SCRATCH}/lean/{rel}"
        src = open(path).read()
        for name, doc, s0, s, e in list(defs(src)):
            if name in skip or (("--all" not in sys.argv) and (rel, name) in done): continue
            cands = edits(src[s:e]); rnd.shuffle(cands)
            kinds, n = set(), 0
            cands.sort(key=lambda c: 0)
            order = []
            seen = set()
            for c in cands:
                if c[0] not in seen: seen.add(c[0]); order.append(c)
            order += [c for c in cands if c not in order]
            fails_syntax = 0
            for kind, a, b, new in order:
                if n >= K or fails_syntax > 3: break
                l0 = src.rfind("\n", 0, s + a) + 1; l1 = src.find("\n", s + b)
                old_line = src[l0:l1]; new_line = src[l0:s + a] + new + src[s + b:l1]
                if (rel, f"{old_line.strip()}  =>  {new_line.strip()}") in tried: continue
                mutated = src[:l0] + new_line + src[l1:]
                open(path, "w").write(mutated)
                try:
                    r = subprocess.run(["lake", "build"] + targets, cwd=f"{SCRATCH}/lean", capture_output=True, text=True, timeout=2400)
                except subprocess.TimeoutExpired:
                    open(path, "w").write(src); fails_syntax += 1; continue
                out = r.stdout + r.stderr
                fails, bad = [], False
                for f, l in re.findall(r"error: (\S+?\.lean):(\d+):\d+", out):
                    fsrc = open(f"{SCRATCH}/lean/{f}").read()
                    nm, kd = enclosing(fsrc, int(l))
                    if kd in ("def", "instance", "structure", "inductive"): bad = True
                    x = f"{f.replace('Verif/', '').replace('.lean', '')}:{nm}"
                    if x not in fails: fails.append(x)
                open(path, "w").write(src)
                if bad or (r.returncode != 0 and not fails):
                    fails_syntax += 1; continue
                n += 1
                rec = {"definition": f"{rel}: {name}", "edit": f"{old_line.strip()}  =>  {new_line.strip()}", "claim": "that the program does this: " + doc[:300],
                       "theorems_failed": fails, "theorems_tightened": []}
                if fails:
                    with open(f"{ROOT}/seeded/LOG.jsonl", "a") as f: f.write(json.dumps(rec, ensure_ascii=False) + "\n")
                    print("killed", name, "|", rec["edit"][:160], "->", fails[:3], flush=True)
                else:
                    with open("/tmp/survivors.jsonl", "a") as f: f.write(json.dumps(rec, ensure_ascii=False) + "\n")
                    print("SURVIVED", name, "|", rec["edit"], flush=True)
main()
