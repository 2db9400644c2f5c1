#!/usr/bin/env python3
"""Writes COVERAGE.md: for every function of the Rust sources the definitions of the model whose comment cites its lines."""
import os, re, collections
ROOT = os.path.dirname(os.path.dirname(os.path.abspath(__file__)))
REPO = "/repo"
CRATES = ["poseidon377", "poseidon-parameters", "poseidon-permutation", "poseidon-paramgen", "poseidon-tests", "poseidon-consistency"]
files = []
for c in CRATES:
    for d, _, fs in os.walk(f"{REPO}/{c}"):
        for f in fs:
            if f.endswith(".rs") and "/params/" not in d + "/":
                files.append(os.path.relpath(f"{d}/{f}", REPO))
files.sort()

def functions(path):
    lines = open(f"{REPO}/{path}").read().split("\n")
    res = []
    ctx = []
    for i, l in enumerate(lines):
        m = re.match(r"\s*impl\b(.*?)(\{|where|$)", l)
        if m and not l.startswith("    "):
            t = re.sub(r"<[^<>]*>", "", re.sub(r"<[^<>]*>", "", " ".join(x.strip() for x in lines[i:i+3])))
            mm = re.search(r"impl\s*>?\s*(?:([\w:<>]+)\s+for\s+)?([\w:]+)", t)
            ctx = [mm.group(0).replace("impl", "").strip() if mm else ""]
        if re.match(r"(pub )?trait (\w+)", l):
            ctx = [re.match(r"(?:pub )?trait (\w+)", l).group(1)]
        if re.match(r"\}", l):
            ctx = []
        m = re.match(r"(\s*)(?:pub(?:\([^)]*\))? )?(?:const )?(?:unsafe )?fn (\w+)", l)
        if m:
            # end: matching braces
            depth = 0; j = i; seen = False
            while j < len(lines):
                for ch in re.sub(r'"(\\.|[^"\\])*"', '', lines[j].split("//")[0]):
                    if ch == "{": depth += 1; seen = True
                    elif ch == "}": depth -= 1
                if (seen and depth <= 0) or (not seen and lines[j].rstrip().endswith(";")):
                    break
                j += 1
            res.append((m.group(2), ctx[0] if ctx else "", i + 1, j + 1))
    return res

cites = []  # (definition, file, repo basename or path, lo, hi)
DECL = re.compile(r"^(?:@\[[^\]]*\]\s*)?(?:private |protected |noncomputable )*(def|structure|inductive|abbrev|instance|class)\b\s*([^\s:({\[]*)")
for f in sorted(os.listdir(f"{ROOT}/lean/Verif/Model")):
    text = open(f"{ROOT}/lean/Verif/Model/{f}").read()
    ns = []
    for m in re.finditer(r"/--((?:(?!-/).)*)-/[ \t]*\n(?=([^\n]*\n[^\n]*\n))", text, re.S):
        dm = None
        for l in m.group(2).split("\n"):
            dm = DECL.match(l)
            if dm: break
        if not dm: continue
        name = dm.group(2) or dm.group(1)
        com = " ".join(m.group(1).split())
        last = None
        for c in re.finditer(r"([\w/\-]+\.rs):((?:\d+(?:-\d+)?)(?:(?:,| and|, and) ?(?:\d+(?:-\d+)?))*)", com):
            for r in re.finditer(r"(\d+)(?:-(\d+))?", c.group(2)):
                cites.append((name, f, c.group(1), int(r.group(1)), int(r.group(2) or r.group(1)), "under" in com[max(0, c.start()-12):c.start()] or "Library" in com))

# which base names are ambiguous, and the default crate of each model file for those
names = collections.Counter(os.path.basename(f) for f in files)
def resolve(model, ref):
    hits = [f for f in files if f == ref or f.endswith("/" + ref)]
    if len(hits) <= 1: return hits
    pref = {"Gen": "poseidon-paramgen", "Calc": "poseidon-paramgen", "Hash": "poseidon377", "R1cs": "poseidon", "Symb": "poseidon"}
    if model.startswith("Gen") or model.startswith("Tab"):
        h = [f for f in hits if "paramgen" in f] or hits
        return h
    h = [f for f in hits if "paramgen" not in f]
    return h or hits

out = ["# Which definitions of the model cite which functions of the Rust sources", "",
       "Generated by `tools/coverage.py` from the comments of `lean/Verif/Model`. A definition is listed if the lines it cites meet those of the",
       "function. Base names that occur in two crates (`r1cs.rs`, `lib.rs`, `alpha.rs`, `v1.rs`, `v2.rs`) are listed for each crate they may mean.", ""]
missing = []
for f in files:
    fs = functions(f)
    if not fs: continue
    out += [f"## {f}", "", "| function | lines | definitions |", "|---|---|---|"]
    for name, ctx, lo, hi in fs:
        d = []
        for (n, mf, ref, a, b, lib) in cites:
            if f in resolve(mf, ref) and not (b < lo or hi < a) and not lib:
                x = f"`{mf[:-5]}.{n}`" if False else f"`{n}` ({mf[:-5]})"
                if x not in d: d.append(x)
        if not d: missing.append(f"{f}:{lo} {name}")
        out.append(f"| `{(ctx + '::') if ctx else ''}{name}` | {lo}-{hi} | {', '.join(d) or '-'} |")
    out.append("")
open(f"{ROOT}/COVERAGE.md", "w").write("\n".join(out))
print("\n".join(missing)); print(len(missing), "functions without a definition")
