#!/usr/bin/env python3
"""Seeded-bug runner.  Usage: mutate.py MUTATIONS.py SCRATCH_DIR LOG.jsonl

Copies /verif/lean (with build output) to SCRATCH_DIR, applies the mutations of MUTATIONS.py one at a time to the model,
runs `lake build`, and appends a JSON line per mutation to the log: the definition edited, the edit, the claim it breaks,
and the theorems that no longer check (by name, from the positions of the errors).  `result` is "caught" or "SURVIVED".
Already logged mutations (same file, old, new) are skipped."""
import json, os, re, shutil, subprocess, sys
muts_file, scratch, log = sys.argv[1:4]
SRC = os.path.join(os.path.dirname(os.path.abspath(__file__)), "..", "lean")
ns = {}
exec(open(muts_file).read(), ns)
muts = ns["M"]
if not os.path.exists(scratch):
    shutil.copytree(SRC, scratch, symlinks=True)
else:
    subprocess.run(["rsync", "-a", "--delete", "--exclude", ".lake", SRC + "/Verif/", scratch + "/Verif/"]) if shutil.which("rsync") else \
        (shutil.rmtree(scratch + "/Verif"), shutil.copytree(SRC + "/Verif", scratch + "/Verif"))
    shutil.copy(SRC + "/Verif.lean", scratch + "/Verif.lean")
subprocess.run(["lake", "build"], cwd=scratch, stdout=subprocess.DEVNULL, stderr=subprocess.DEVNULL)
done = set()
if os.path.exists(log):
    for l in open(log):
        d = json.loads(l)
        done.add((d["file"], d["old"], d["new"]))
decl = re.compile(r"^(?:@\[[^\]]*\]\s*)?(?:private |protected |noncomputable )*(?:theorem|lemma|def|abbrev|instance|example|structure|inductive)\b\s*([^\s:({\[]*)")
def enclosing(path, line):
    name = "?"
    for i, l in enumerate(open(path), 1):
        if i > line: break
        m = decl.match(l)
        if m: name = m.group(1) or "(example)"
    return name
for m in muts:
    f, old, new = m["file"], m["old"], m["new"]
    if (f, old, new) in done: continue
    path = os.path.join(scratch, "Verif", f)
    src = open(path).read()
    n = src.count(old)
    k = m.get("nth", 0)
    if n == 0 or (n > 1 and "nth" not in m):
        print("BAD MUTATION", f, repr(old), n, flush=True); continue
    pos = -1
    for _ in range(k + 1): pos = src.index(old, pos + 1)
    open(path, "w").write(src[:pos] + new + src[pos + len(old):])
    try:
        r = subprocess.run(["lake", "build"], cwd=scratch, capture_output=True, text=True, timeout=2400)
        out, rc = r.stdout + r.stderr, r.returncode
    except subprocess.TimeoutExpired:
        out, rc = "", 124
    failed = []
    for mm in re.finditer(r"^error: (?:\S*/)?(Verif/\S+?\.lean):(\d+):\d+", out, re.M):
        nm = enclosing(os.path.join(scratch, mm.group(1)), int(mm.group(2)))
        nm = mm.group(1)[6:-5].replace("/", ".") + ":" + nm
        if nm not in failed: failed.append(nm)
    open(path, "w").write(src)
    rec = dict(definition=m["definition"], file=f, old=old, new=new, edit=m.get("edit", old.strip() + "  ->  " + new.strip()),
               claim_broken=m["claim"], result="SURVIVED" if rc == 0 else "caught", theorems_failed=failed, theorems_tightened=[])
    open(log, "a").write(json.dumps(rec) + "\n")
    print(rec["result"], rc, m["definition"], failed[:4], flush=True)
