#!/usr/bin/env python3
"""Run seeded wrong programs: mutate.py MUTANTS.json [LOG].  Each mutant: file, old, new, definition, edit, claim, [target].
Works in /tmp/mut/lean (a copy of /verif/lean), never in /verif."""
import json, os, re, subprocess, sys, shutil
SRC, DST = "/verif/lean", "/tmp/mut/lean"
muts = json.load(open(sys.argv[1])); log = sys.argv[2] if len(sys.argv) > 2 else "/tmp/mut/out.jsonl"
def sync():
    subprocess.run(["rsync", "-a", "--checksum", "--delete", "--exclude=.lake", SRC + "/", DST + "/"], check=True) if shutil.which("rsync") else None
def encl(path, line):
    ls = open(path).read().split("\n")
    ns = []
    for i in range(line - 1, -1, -1):
        m = re.match(r"(?:@\[[^\]]*\]\s*)?(?:private\s+)?(theorem|lemma|example|def|instance|structure|inductive)\b\s*([^\s:({\[]*)", ls[i])
        if m: return (m.group(1) + ("" if m.group(1) == "theorem" else "")) + " " + (m.group(2) or "@%d" % (i + 1))
    return "?"
if not os.path.exists(DST):
    os.makedirs("/tmp/mut", exist_ok=True); subprocess.run(["cp", "-a", SRC, DST], check=True)
for mu in muts:
    p = os.path.join(DST, "Verif", mu["file"])
    orig = open(os.path.join(SRC, "Verif", mu["file"])).read()
    if orig.count(mu["old"]) < 1:
        print("NOT FOUND", mu["old"]); continue
    k = mu.get("nth", 0); pos = -1
    for _ in range(k + 1): pos = orig.find(mu["old"], pos + 1)
    open(p, "w").write(orig[:pos] + mu["new"] + orig[pos + len(mu["old"]):])
    r = subprocess.run(["lake", "build"] + mu.get("target", []), cwd=DST, capture_output=True, text=True)
    out = r.stdout + r.stderr
    fails = []
    for m in re.finditer(r"^error: (Verif/[\w/]+\.lean):(\d+):\d+", out, re.M):
        e = m.group(1)[6:-5] + ": " + encl(os.path.join(DST, m.group(1)), int(m.group(2)))
        if e not in fails: fails.append(e)
    rec = dict(definition=mu["definition"], edit=mu["edit"], claim=mu["claim"], theorems_failed=fails, theorems_tightened=mu.get("tightened", []))
    if r.returncode == 0: rec["survived"] = True
    open(log, "a").write(json.dumps(rec, ensure_ascii=False) + "\n")
    print(("SURVIVED " if r.returncode == 0 else "killed ") + mu["edit"], [f for f in fails][:6], flush=True)
    open(p, "w").write(orig)
