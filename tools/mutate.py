#!/usr/bin/env python3
"""Seed bugs into a scratch copy of the model and record which theorems stop proving.

usage: mutate.py ROUND.json [name ...]
ROUND.json: list of {"name", "file", "definition", "old", "new", "claim", "edit", "expect"}.
"file" is relative to lean/Verif/.  "old" must occur exactly once (or give "nth").
Results are appended to /verif/seeded/LOG.jsonl.
"""
import json, os, re, subprocess, sys, shutil, time
ROOT = "/verif"
SCR = os.environ.get("MUT_SCRATCH", "/tmp/mut")
SRC = os.environ.get("MUT_SRC", ROOT + "/lean")  # a built copy of the project
LOG = os.path.join(ROOT, "seeded", "LOG.jsonl")
DECL = re.compile(r"^(?:@\[[^\]]*\]\s*)?(?:private\s+|protected\s+|noncomputable\s+)*(theorem|lemma|def|example|instance|abbrev|structure|inductive)\s*([^\s:({\[]*)")

def sync():
    os.makedirs(SCR, exist_ok=True)
    subprocess.run(["rsync", "-a", "--delete", SRC + "/", SCR + "/"], check=False) if shutil.which("rsync") else (
        shutil.rmtree(SCR), shutil.copytree(SRC, SCR, symlinks=True))

def decl_at(path, line):
    name = "?"
    with open(path) as f:
        for i, l in enumerate(f, 1):
            if i > line: break
            m = DECL.match(l)
            if m: name = m.group(2) or m.group(1) + "@%d" % i
    return name

def build():
    env = dict(os.environ)
    p = subprocess.run(["lake", "build"], cwd=SCR, capture_output=True, text=True, env=env)
    out = p.stdout + p.stderr
    failed = []
    for m in re.finditer(r"error: (Verif/\S+?\.lean):(\d+):\d+", out):
        path, line = os.path.join(SCR, m.group(1)), int(m.group(2))
        n = m.group(1)[6:-5].replace("/", ".") + ":" + decl_at(path, line)
        if n not in failed: failed.append(n)
    return p.returncode, failed, out

def main():
    muts = json.load(open(sys.argv[1])); only = set(sys.argv[2:])
    for m in muts:
        if only and m["name"] not in only: continue
        sync()
        path = os.path.join(SCR, "Verif", m["file"])
        src = open(path).read()
        cnt = src.count(m["old"])
        if cnt != 1 and "nth" not in m:
            print("SKIP", m["name"], "occurrences:", cnt, flush=True); continue
        if "nth" in m:
            parts = src.split(m["old"]); k = m["nth"]
            mut = m["old"].join(parts[:k + 1]) + m["new"] + m["old"].join(parts[k + 1:])
        else: mut = src.replace(m["old"], m["new"])
        open(path, "w").write(mut)
        t = time.time(); rc, failed, out = build()
        exp = m.get("expect", [])
        hit = [e for e in exp if any(f.split(":")[1] == e for f in failed)]
        status = "survived" if rc == 0 else ("killed" if hit or not exp else "killed (other theorem)")
        rec = {"name": m["name"], "definition": m["definition"], "edit": m["edit"], "claim": m["claim"],
               "result": status, "failed": failed, "tightened": m.get("tightened", [])}
        with open(LOG, "a") as f: f.write(json.dumps(rec) + "\n")
        print("%-9s %-28s %4.0fs %s" % (status, m["name"], time.time() - t, failed[:6]), flush=True)

main()
