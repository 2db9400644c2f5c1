#!/usr/bin/env python3
"""Systematic mutation of the model.

usage: mutate.py list | run

Every definition in lean/Verif/Model gets up to PER small edits (a numeral, a comparison, an operator, swapped arguments, a
dropped line, another branch).  For each: copy a built checkout, edit, build until the first error.  A mutant is
  stillborn  if the edited model file does not elaborate,
  killed     if some lemma or theorem no longer checks,
  survived   if everything still builds: either the edit does not change behaviour or a theorem is missing.
Results go to /tmp/mut/results.jsonl.
"""
import json, os, random, re, shutil, subprocess, sys, time
BASE = os.environ.get("MUT_BASE", "/tmp/mut/base")
W = os.environ.get("MUT_W", "/tmp/mut/w")
FILES = os.environ.get("MUT_FILES", "").split()  # only these, if any
OUT = "/tmp/mut/results.jsonl"
PER = int(os.environ.get("MUT_PER", "5"))
SKIP = {"Tables.lean", "Field.lean"}
DECL = re.compile(r"^(?:@\[[^\]]*\]\s*)?(?:private |protected |noncomputable )*(def|instance|abbrev|structure)\s+(\S+)")
STOP = re.compile(r"^(/--|/-!|theorem |lemma |def |noncomputable |@\[|section|end\b|namespace|variable|open |instance|example|set_option|abbrev |structure |inductive )")

def strip(line):
    i = line.find("--")
    return line if i < 0 else line[:i]

def ops(line):
    """yield (description, new line)"""
    code = strip(line)
    for m in re.finditer(r"(?<![\w.₀-₉'\"])(\d+)(?![\w.\"])", code):
        n = int(m.group(1))
        yield f"{n} -> {n+1}", line[:m.start()] + str(n + 1) + line[m.end():]
        if n > 0:
            yield f"{n} -> {n-1}", line[:m.start()] + str(n - 1) + line[m.end():]
    for a, bs in ((" < ", (" ≤ ",)), (" ≤ ", (" < ",)), (" ≠ ", (" = ",)), (" + ", (" - ", " * ")), (" - ", (" + ",)),
                  (" * ", (" + ",)), (" / ", (" * ",)), (" == ", (" != ",)), (" != ", (" == ",)), (" && ", (" || ",)),
                  (" ∧ ", (" ∨ ",)), (" ∨ ", (" ∧ ",)), ("true", ("false",)), ("false", ("true",)), (" % ", (" / ",))):
        for m in re.finditer(re.escape(a), code):
            for b in bs:
                yield f"{a.strip()} -> {b.strip()}", line[:m.start()] + b + line[m.end():]
    if re.search(r"\bif\b", code):
        for m in re.finditer(r" = ", code):
            yield "= -> ≠", line[:m.start()] + " ≠ " + line[m.end():]
    for m in re.finditer(r"\.(get|set) (\w+|\([^()]*\)) (\w+|\([^()]*\))", code):
        yield "swap indices", line[:m.start()] + f".{m.group(1)} {m.group(3)} {m.group(2)}" + line[m.end():]
    for m in re.finditer(r"(\w+|\[[^\[\]]*\]) \+\+ (\w+|\[[^\[\]]*\])", code):
        yield "swap ++", line[:m.start()] + f"{m.group(2)} ++ {m.group(1)}" + line[m.end():]
    for m in re.finditer(r"(forRange|forRangeRev) (\w+|\([^()]*\)) (\w+|\([^()]*\))", code):
        yield "lower bound + 1", line[:m.start()] + f"{m.group(1)} ({m.group(2)} + 1) {m.group(3)}" + line[m.end():]
        yield "upper bound - 1", line[:m.start()] + f"{m.group(1)} {m.group(2)} ({m.group(3)} - 1)" + line[m.end():]
    for m in re.finditer(r"\.error \.(\w+)", code):
        other = "divZero" if m.group(1) != "divZero" else "explicit"
        yield f"panic {m.group(1)} -> {other}", line[:m.start()] + f".error .{other}" + line[m.end():]
    if re.match(r"\s+let \S+ (←|:=)", code) or re.match(r"\s+let \(", code):
        yield "drop line", None

def mutants():
    res = []
    root = f"{BASE}/Verif/Model"
    for f in sorted(os.listdir(root)):
        if f in SKIP or FILES and f not in FILES:
            continue
        lines = open(f"{root}/{f}").read().split("\n")
        i = 0
        while i < len(lines):
            m = DECL.match(lines[i])
            if not m:
                i += 1; continue
            j = i + 1
            while j < len(lines) and not STOP.match(lines[j]):
                j += 1
            # start of the body
            b = i
            while b < j and ":=" not in lines[b] and " where" not in lines[b] and not lines[b].lstrip().startswith("|"):
                b += 1
            cand = []
            incomment = False
            for k in range(b, j):
                l = lines[k]
                if "/-" in l:
                    incomment = True
                if incomment:
                    if "-/" in l: incomment = False
                    continue
                start = l
                pre = ""
                if k == b and ":=" in l:
                    p = l.index(":=") + 2
                    pre, start = l[:p], l[p:]
                for d, new in ops(start):
                    cand.append((k, d, None if new is None else pre + new))
            rng = random.Random(f + m.group(2))
            rng.shuffle(cand)
            for k, d, new in cand[:PER]:
                res.append({"file": f, "definition": m.group(2), "line": k + 1, "edit": d, "old": lines[k], "new": new})
            i = j
    rng = random.Random(1)
    rng.shuffle(res)
    return res

def run(mu):
    t0 = time.time()
    shutil.rmtree(W, ignore_errors=True)
    subprocess.run(["cp", "-a", BASE, W], check=True)
    p = f"{W}/Verif/Model/{mu['file']}"
    lines = open(p).read().split("\n")
    assert lines[mu["line"] - 1] == mu["old"]
    if mu["new"] is None:
        del lines[mu["line"] - 1]
    else:
        lines[mu["line"] - 1] = mu["new"]
    open(p, "w").write("\n".join(lines))
    while subprocess.run(["pgrep", "-f", "/tmp/vgate-"], capture_output=True).returncode == 0:
        time.sleep(20)
    pr = subprocess.Popen(["lake", "build"], cwd=W, stdout=subprocess.PIPE, stderr=subprocess.STDOUT, text=True, start_new_session=True)
    status, first = "survived", None
    for line in pr.stdout:
        m = re.match(r"error: (Verif/[A-Za-z0-9/]+\.lean):(\d+)", line)
        if m:
            first = f"{m.group(1)}:{m.group(2)}"
            status = "stillborn" if m.group(1).startswith("Verif/Model/") else "killed"
            os.killpg(pr.pid, 9)
            break
        if time.time() - t0 > 2400:
            status = "timeout"
            os.killpg(pr.pid, 9)
            break
    pr.wait()
    if status == "survived" and pr.returncode != 0:
        status = "unclear"
    return dict(mu, status=status, first=first, seconds=round(time.time() - t0))

def main():
    ms = mutants()
    if sys.argv[1] == "list":
        print(len(ms))
        from collections import Counter
        print(Counter(m["file"] for m in ms))
        return
    done = set()
    if os.path.exists(OUT):
        for l in open(OUT):
            r = json.loads(l)
            done.add((r["file"], r["line"], r["old"], r["new"]))
    for mu in ms:
        if (mu["file"], mu["line"], mu["old"], mu["new"]) in done:
            continue
        r = run(mu)
        with open(OUT, "a") as f:
            f.write(json.dumps(r, ensure_ascii=False) + "\n")
        print(r["status"], r["file"], r["definition"], r["line"], r["edit"], r["first"], r["seconds"], flush=True)
main()
