#!/usr/bin/env python3
"""Generates lean/Verif/Tables/Asm.lean: the routines of /repo/galois/vector_{amd64,arm64}.s, instruction by instruction,
split into basic blocks.  Usage: gen_asm.py > lean/Verif/Tables/Asm.lean"""
import re, sys
GP = {"AX","BX","DX","SI","R9","R1","R2","R3","R5","R10","R11"}
def gp(x): assert x in GP, x; return ".%s" % x.lower()
def vec(x):
    m = re.fullmatch(r"[XYV](\d+)(?:\.B16|\.D2)?", x); assert m, x; return m.group(1)
def isx(x): return re.fullmatch(r"X\d+", x)
def isy(x): return re.fullmatch(r"Y\d+", x)
def imm(x): assert x[0] == "$", x; return str(int(x[1:], 0))
def mem(x):
    m = re.fullmatch(r"(\d*)\((\w+)\)", x); return m and m.group(2) in GP and (gp(m.group(2)), m.group(1) or "0")
def arg(x):
    m = re.fullmatch(r"\w+\+(\d+)\(FP\)", x); return m and m.group(1)
def split_ops(s):
    out, depth, cur = [], 0, ""
    for ch in s:
        if ch == "[": depth += 1
        if ch == "]": depth -= 1
        if ch == "," and depth == 0: out.append(cur.strip()); cur = ""
        else: cur += ch
    if cur.strip(): out.append(cur.strip())
    return out
def vlist(x): return "[" + ", ".join(vec(v.strip()) for v in x.strip("[]").split(",")) + "]"
def amd64(op, o):
    if op == "MOVQ":
        if arg(o[0]): return ".movArg %s %s" % (arg(o[0]), gp(o[1]))
        if o[0][0] == "$": return ".movImm %s %s" % (imm(o[0]), gp(o[1]))
        if isx(o[1]): return ".movqX %s %s" % (gp(o[0]), vec(o[1]))
        return ".movGp %s %s" % (gp(o[0]), gp(o[1]))
    if op in ("MOVOU", "MOVOA"):
        al = "true" if op == "MOVOA" else "false"
        if mem(o[0]): return ".loadX %s %s %s %s" % (al, *mem(o[0]), vec(o[1]))
        if mem(o[1]): return ".storeX %s %s %s %s" % (al, vec(o[0]), *mem(o[1]))
        return ".movX %s %s" % (vec(o[0]), vec(o[1]))
    if op in ("PXOR", "PAND", "PSHUFB"): return ".%s %s %s" % (op.lower(), vec(o[0]), vec(o[1]))
    if op == "PSRLQ": return ".psrlq %s %s" % (imm(o[0]), vec(o[1]))
    if op in ("SHRQ", "ANDQ", "ADDQ", "SUBQ"): return ".%s %s %s" % (op.lower(), imm(o[0]), gp(o[1]))
    if op == "ORQ": return ".orq %s %s" % (gp(o[0]), gp(o[1]))
    if op == "CMPQ": return ".cmpq %s %s" % (gp(o[0]), imm(o[1]))
    if op == "TESTQ": return ".testq %s %s" % (gp(o[0]), gp(o[1]))
    if op == "VINSERTI128": return ".vinserti128 %s %s %s %s" % (imm(o[0]), *map(vec, o[1:]))
    if op == "VPBROADCASTB": return ".vpbroadcastb %s %s" % (vec(o[0]), vec(o[1]))
    if op == "VMOVDQU":
        if mem(o[0]): return ".loadY %s %s %s" % (*mem(o[0]), vec(o[1]))
        return ".storeY %s %s %s" % (vec(o[0]), *mem(o[1]))
    if op == "VPSRLQ": return ".vpsrlq %s %s %s" % (imm(o[0]), vec(o[1]), vec(o[2]))
    if op in ("VPAND", "VPXOR", "VPSHUFB"): return ".%s %s %s %s" % (op.lower(), *map(vec, o))
    if op == "VZEROUPPER": return ".vzeroupper"
    raise Exception((op, o))
def arm64(op, o):
    if op == "MOVD":
        if arg(o[0]): return ".movArg %s %s" % (arg(o[0]), gp(o[1]))
        return ".movImm %s %s" % (imm(o[0]), gp(o[1]))
    if op == "SUBS": return ".subs %s %s" % (imm(o[0]), gp(o[1]))
    if op == "VLD1": return ".vld1 0 %s %s" % (mem(o[0])[0], vlist(o[1]))
    if op == "VLD1.P": return ".vld1 %s %s %s" % (mem(o[0])[1], mem(o[0])[0], vlist(o[1]))
    if op == "VST1.P": return ".vst1 %s %s %s" % (mem(o[1])[1], mem(o[1])[0], vlist(o[0]))
    if op == "VUSHR": return ".vushr %s %s %s" % (imm(o[0]), vec(o[1]), vec(o[2]))
    if op == "VAND": return ".vandN %s %s %s" % tuple(map(vec, o))
    if op == "VEOR": return ".veor %s %s %s" % tuple(map(vec, o))
    if op == "VTBL": return ".vtbl %s %s %s" % (vec(o[0]), vec(o[1].strip("[]")), vec(o[2]))
    if op == "VMOV": assert o[1].endswith(".B[0]"); return ".vmovB0 %s %s" % (gp(o[0]), vec(o[1][:-5]))
    if op == "VDUP": assert o[0].endswith(".B[0]"); return ".vdupB0 %s %s" % (vec(o[0][:-5]), vec(o[1]))
    raise Exception((op, o))
JCC = {"JEQ": ".zero", "JZ": ".zero", "JNZ": ".nonzero", "BMI": ".minus", "BPL": ".plus"}
def parse(path, fname, tr):
    lines = open(path).read().split("\n")
    macros, i, routines, cur = {}, 0, [], None
    while i < len(lines):
        l = lines[i]; n = i + 1
        if l.startswith("#define"):
            name, params = re.match(r"#define (\w+)\(([^)]*)\)", l).groups()
            body = []
            while l.rstrip().endswith("\\"):
                i += 1; l = re.sub(r"//.*", "", lines[i])
                t = l.rstrip().rstrip("\\").strip()
                if t and not t.startswith("\\"): body.append((t, i + 1))
            macros[name] = ([p.strip() for p in params.split(",")], body)
            i += 1; continue
        l = re.sub(r"//.*", "", l).strip(); i += 1
        if not l: continue
        m = re.match(r"TEXT ·(\w+)\(SB\)", l)
        if m: cur = dict(name=m.group(1), start=n, items=[]); routines.append(cur); continue
        m = re.fullmatch(r"(\w+):", l)
        if m: cur["items"].append(("label", m.group(1), n)); continue
        m = re.match(r"(\w+)\((.*)\)$", l)
        if m and m.group(1) in macros:
            ps, body = macros[m.group(1)]
            sub = dict(zip(ps, [a.strip() for a in m.group(2).split(",")]))
            for t, bn in body:
                for k, v in sub.items(): t = re.sub(r"\b%s\b" % k, v, t)
                cur["items"].append(("ins", t, n)); cur["items"][-1] += (bn,)
            continue
        cur["items"].append(("ins", l, n))
    for r in routines:
        r["end"] = max(x[2] for x in r["items"])
        blocks, labels, body = [], {}, []
        def close(term):
            blocks.append((list(body), term)); body.clear()
        for it in r["items"]:
            if it[0] == "label":
                if body: close(("fall",))
                labels[it[1]] = len(blocks); continue
            op, *rest = it[1].split(None, 1)
            o = split_ops(rest[0]) if rest else []
            if op in JCC: close(("jcc", JCC[op], o[0], it))
            elif op == "JMP": close(("jmp", o[0], it))
            elif op == "RET": close(("ret", it))
            else: body.append((tr(op, o), it))
        print("\n/-- %s:%d-%d `%s` -/" % (fname, r["start"], r["end"], r["name"]))
        print("def %s : Code := [" % r["name"])
        for bi, (b, term) in enumerate(blocks):
            labs = [k for k, v in labels.items() if v == bi]
            print("  -- block %d%s" % (bi, ": " + ", ".join(labs) if labs else ""))
            print("  ⟨[" + (""))
            for j, (t, it) in enumerate(b):
                src = re.sub(r"\s+", " ", it[1])
                where = ":%d" % it[2] + (" (:%d)" % it[3] if len(it) > 3 else "")
                print("    %s%s  -- %s  %s" % (t, "," if j + 1 < len(b) else "", where, src))
            if term[0] == "fall": tt = ".jmp %d" % (bi + 1); c = "falls through"
            elif term[0] == "jmp": tt = ".jmp %d" % labels[term[1]]; c = ":%d  JMP %s" % (term[2][2], term[1])
            elif term[0] == "jcc": tt = ".jcc %s %d %d" % (term[1], labels[term[2]], bi + 1); c = ":%d  %s" % (term[3][2], re.sub(r"\s+", " ", term[3][1]))
            else: tt = ".ret"; c = ":%d  RET" % term[1][2]
            print("   ], %s⟩%s  -- %s" % (tt, "," if bi + 1 < len(blocks) else "", c))
        print("  ]")
print("""import Verif.Model.Asm

/-! Generated by tools/gen_asm.py from /repo/galois/vector_amd64.s and vector_arm64.s; do not edit.
Every line shows the instruction of the source file it stands for. -/

namespace Verif.Asm.Routines
open Verif.Asm""")
parse("/repo/galois/vector_amd64.s", "galois/vector_amd64.s", amd64)
parse("/repo/galois/vector_arm64.s", "galois/vector_arm64.s", lambda op, o: arm64(op, o))
print("\nend Verif.Asm.Routines")
