#!/usr/bin/env python3
"""Systematic seeded bugs.  Usage: automutate.py SCRATCH_DIR LOG.jsonl SEED COUNT [FILE...]

Generates one-token edits of the definitions in the model files (comparison operators, literals off by one, + and -, && and ||,
dropped statements, swapped arguments), shuffles them and runs `lake build` for COUNT of them in the scratch copy, stopping a
build at its first error.  An edit the elaborator rejects in the model file itself is not a program and is skipped.  Results are
appended to the log in the format of mutate.py."""
import json, os, random, re, shutil, signal, subprocess, sys, time
scratch, log, seed, count = sys.argv[1], sys.argv[2], int(sys.argv[3]), int(sys.argv[4])
SRC = os.path.abspath(os.path.join(os.path.dirname(os.path.abspath(__file__)), "..", "lean"))
files = sys.argv[5:] or sorted("Model/" + f for f in os.listdir(SRC + "/Verif/Model") if f.endswith(".lean"))
if not os.path.exists(scratch): shutil.copytree(SRC, scratch, symlinks=True)
shutil.rmtree(scratch + "/Verif"); shutil.copytree(SRC + "/Verif", scratch + "/Verif")
shutil.copy(SRC + "/Verif.lean", scratch + "/Verif.lean")
r = subprocess.run(["lake", "build"], cwd=scratch, capture_output=True, text=True)
assert r.returncode == 0, r.stdout[-2000:]
decl = re.compile(r"^(?:@\[[^\]]*\]\s*)?(?:private |protected |noncomputable )*(theorem|lemma|def|abbrev|instance|example|structure|inductive)\b\s*([^\s:({\[]*)")
RULES = [(r" < ", " ≤ "), (r" ≤ ", " < "), (r" > ", " ≥ "), (r" ≥ ", " > "), (r" = ", " ≠ "), (r" ≠ ", " = "),
         (r" \+ 1\b", ""), (r" - 1\b", ""), (r" \+ ", " - "), (r" - ", " + "), (r" \* ", " + "), (r" / ", " % "), (r" % ", " / "),
         (r" && ", " || "), (r" \|\| ", " && "), (r" \^\^\^ ", " ||| "), (r" &&& ", " ||| "), (r" ∧ ", " ∨ "), (r" ∨ ", " ∧ "),
         (r">>> ", "<<< "), (r"<<< ", ">>> "), (r"\btrue\b", "false"), (r"\bfalse\b", "true"), (r"\bin\b", "out")]
muts = []
for f in files:
    src = open(f"{SRC}/Verif/{f}").read()
    kind, name, depth, pos, head = None, "?", 0, 0, True
    for line in src.split("\n"):
        start = pos; pos += len(line) + 1
        opened = depth > 0
        depth += line.count("/-") - line.count("-/")
        if opened or "/-" in line: continue
        m = decl.match(line)
        if m: kind, name, head = m.group(1), m.group(2), True
        code = line.split("--")[0]
        if kind not in ("def", "abbrev"): continue
        body_from = 0
        if head:
            if ":=" in code: body_from = code.index(":=") + 2; head = False
            elif re.match(r"\s*\|", code): head = False
            else: continue
        if "termination_by" in code or "decreasing_by" in code: kind = None; continue
        for pat, rep in RULES:
            for mm in re.finditer(pat, code):
                if mm.start() < body_from: continue
                muts.append((f, name, start + mm.start(), mm.group(0), rep, line.strip()))
        for mm in re.finditer(r"(?<![\w.#])(\d+)\b(?!#)", code):
            if mm.start() < body_from: continue
            for d in (1, -1):
                v = int(mm.group(1)) + d
                if v >= 0: muts.append((f, name, start + mm.start(1), mm.group(1), str(v), line.strip()))
        for mm in re.finditer(r"\(?\b(\w+(?:\.\w+)*) (\w+) (\w+)\b", code):     # swap two simple arguments
            if mm.start() < body_from or mm.group(2) == mm.group(3): continue
            if {mm.group(1), mm.group(2), mm.group(3)} & {"if", "then", "else", "let", "fun", "do", "match", "with", "mut"}: continue
            muts.append((f, name, start + mm.start(2), mm.group(2) + " " + mm.group(3), mm.group(3) + " " + mm.group(2), line.strip()))
        s = code.strip()
        if re.match(r"let (\w+) ← (setIdx|set|put|copy|write|poke|store)", s) or (re.match(r"if .* then (err|panic)", s) and "else" not in s):
            muts.append((f, name, start, line + "\n", "", line.strip()))
done = set()
if os.path.exists(log):
    for l in open(log):
        d = json.loads(l); done.add((d["file"], d["old"], d["new"]))
random.Random(seed).shuffle(muts)
muts = sorted(muts[:3 * count], key=lambda m: m[0])      # grouped by file: fewer modules to rebuild
print(len(muts), "candidates", flush=True)
def enclosing(path, line):
    nm = "?"
    for i, l in enumerate(open(path), 1):
        if i > line: break
        m = decl.match(l)
        if m: nm = m.group(2) or "(example)"
    return nm
n = 0
for f, name, at, old, new, line in muts:
    if n >= count: break
    path = f"{scratch}/Verif/{f}"
    src = open(path).read()
    ls = src.rfind("\n", 0, at) + 1; le = src.index("\n", at)
    ctx_old = src[ls:le].strip(); mutated = src[:at] + new + src[at + len(old):]
    ctx_new = "" if old.endswith("\n") else mutated[ls:mutated.index("\n", ls)].strip()
    k = src[:ls].count(ctx_old)
    key = (f, f"{ctx_old} [{k}]", ctx_new)
    if key in done: continue
    done.add(key)
    open(path, "w").write(mutated)
    err, invalid, t0 = None, False, time.time()
    mod = "Verif." + f[:-5].replace("/", ".")
    r = subprocess.run(["lake", "build", mod], cwd=scratch, capture_output=True, text=True)
    if r.returncode != 0: invalid = True
    else:
        p = subprocess.Popen(["lake", "build"], cwd=scratch, stdout=subprocess.PIPE, stderr=subprocess.STDOUT, text=True, start_new_session=True)
        for out in p.stdout:
            mm = re.match(r"error: (?:\S*/)?(Verif/\S+?\.lean):(\d+):\d+", out)
            if mm:
                err = mm.group(1)[6:-5].replace("/", ".") + ":" + enclosing(f"{scratch}/{mm.group(1)}", int(mm.group(2)))
                os.killpg(p.pid, signal.SIGKILL); break
        p.stdout.close(); p.wait()
    open(path, "w").write(src)
    if invalid: continue
    n += 1
    res = "caught" if err else "SURVIVED"
    rec = dict(definition=name, file=f, old=key[1], new=key[2], edit=f"{old.strip()}  ->  {new.strip()}", claim_broken="(generated edit)",
               result=res, theorems_failed=[err] if err else [], theorems_tightened=[])
    open(log, "a").write(json.dumps(rec) + "\n")
    print(n, res, name, "|", ctx_old[:100], "=>", ctx_new[:100], "|", err, int(time.time() - t0), flush=True)
