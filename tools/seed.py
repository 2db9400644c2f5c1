#!/usr/bin/env python3
"""Runs seeded bugs against the theorems.

usage: seed.py BUGS.json [ID...]

Each bug is {"id", "file", "definition", "old", "new", "edit", "claims": [property ids], "tightened"?}.
For every bug: copy a built checkout, apply the edit to the model, rebuild.  A declaration that no longer
checks is replaced by `sorry` and the build is resumed, so that everything downstream is checked too.  At the end a
property theorem `Cnn_*` has failed iff it was replaced or depends on a replaced declaration.  The others
survived.  Results are appended to /tmp/seed/results.jsonl; tools/seed_log.py turns them into seeded/LOG.jsonl.
"""
import json, os, re, shutil, subprocess, sys, time
BASE = os.environ.get("SEED_BASE", "/tmp/seed/base")
W = os.environ.get("SEED_W", "/tmp/seed/w")
OUT = "/tmp/seed/results.jsonl"
TOP = re.compile(r"^(/--|/-!|theorem |lemma |def |noncomputable |private |protected |@\[|section|end\b|namespace|variable|open |instance|example|set_option|abbrev |structure |local |attribute|inductive |--|omit |class |macro|syntax|elab|#)")
DECL = re.compile(r"^(?:@\[[^\]]*\]\s*)?(?:private |protected |noncomputable |local )*(theorem|lemma|def|instance|example|abbrev|structure)\b\s*([^\s:({\[]*)")
CHECK = r'''
import Verif
open Lean
partial def visit (env : Environment) (n : Name) : StateM (Std.HashMap Name Bool) Bool := do
  if n == ``sorryAx then return true
  if let some b := (← get)[n]? then return b
  modify (·.insert n false)
  let some idx := env.getModuleIdxFor? n | return false
  unless (`Verif).isPrefixOf env.header.moduleNames[idx.toNat]! do return false
  let some ci := env.find? n | return false
  let mut r := false
  for m in ci.getUsedConstantsAsSet.toList do
    if ← visit env m then r := true; break
  modify (·.insert n r)
  return r
run_cmd Elab.Command.liftCoreM do
  let env ← getEnv
  let mut names : Array Name := #[]
  for (n, ci) in env.constants.map₁.toList do
    if ci.isTheorem && (`Poseidon).isPrefixOf n then
      match n with
      | .str _ s => if s.startsWith "C" && (s.toList.getD 1 'x').isDigit && (s.toList.getD 2 'x').isDigit then names := names.push n
      | _ => pure ()
  let mut st : Std.HashMap Name Bool := {}
  for n in names do
    let (b, st') := (visit env n).run st
    st := st'
    IO.println s!"{if b then "FAIL" else "OK"} {n}"
'''

def chunk(lines, ln):
    """start and end (exclusive) of the declaration containing line index ln"""
    i = ln
    if lines[i].startswith("/--"):  # the error is reported at the comment of the declaration
        while i < len(lines) - 1 and not DECL.match(lines[i]):
            i += 1
    while i >= 0 and not DECL.match(lines[i]):
        i -= 1
    if i < 0:
        return None
    j = i + 1
    while j < len(lines) and not TOP.match(lines[j]):
        j += 1
    return i, j

def patch(path, errlines, seen):
    lines = open(path).read().split("\n")
    done = []
    todo = {}
    for ln in errlines:
        c = chunk(lines, ln - 1)
        if c is None:
            return None
        todo[c] = True
    for (i, j) in sorted(todo, reverse=True):
        kind, name = DECL.match(lines[i]).groups()
        text = "\n".join(lines[i:j])
        key = (path, name or f"example@{i}")
        if kind == "example":
            new = "example : True := trivial"
            name = f"example:{i+1}"
        elif kind in ("theorem", "lemma") and key not in seen:
            depth = 0; k = 0; pos = None
            while k < len(text):
                ch = text[k]
                if ch in "([{⟨": depth += 1
                elif ch in ")]}⟩": depth -= 1
                elif text.startswith(":=", k) and depth == 0:
                    pos = k; break
                elif text.startswith("\n  | ", k) and depth == 0:
                    pos = k; break
                k += 1
            if pos is None:
                return None
            new = text[:pos] + " := by sorry"
        elif kind in ("theorem", "lemma"):
            # the statement itself does not elaborate: remove the declaration
            new = ""
            k = i
            while k > 0 and not lines[k-1].startswith("/--") and lines[k-1].strip() and not DECL.match(lines[k-1]):
                k -= 1
            if k > 0 and lines[k-1].startswith("/--"):
                i = k - 1
        else:
            return None
        seen.add(key)
        done.append(name)
        pad = (j - i) - 1 - new.count("\n")
        lines[i:j] = (new + "\n" * max(0, pad)).split("\n")
    open(path, "w").write("\n".join(lines))
    return done

def theorems(root):
    r = []
    for f in sorted(os.listdir(root + "/Verif/Props")):
        for m in re.finditer(r"^theorem (C\d\d\d?_[A-Za-z0-9_']+)", open(f"{root}/Verif/Props/{f}").read(), re.M):
            r.append(m.group(1))
    return r

def run(bug):
    t0 = time.time()
    shutil.rmtree(W, ignore_errors=True)
    subprocess.run(["cp", "-a", BASE, W], check=True)
    edits = bug.get("edits") or [{"file": bug["file"], "old": bug["old"], "new": bug["new"]}]
    for e in edits:
        p = f"{W}/Verif/{e['file']}"
        s = open(p).read()
        if s.count(e["old"]) != e.get("count", 1):
            return {"status": "bad edit", "occurrences": s.count(e["old"])}
        open(p, "w").write(s.replace(e["old"], e["new"]))
    models = {f"Verif/{e['file']}" for e in edits}
    alln = theorems(BASE)
    broken = []; seen = set(); why = None; log = ""
    for it in range(20):
        while subprocess.run(["pgrep", "-f", "/opt/vgate/"], capture_output=True).returncode == 0:
            time.sleep(20)  # leave the memory to the final check
        try:
            r = subprocess.run(["lake", "build"], cwd=W, capture_output=True, text=True, timeout=2400)
        except subprocess.TimeoutExpired:
            why = "timeout"; subprocess.run(["pkill", "-x", "lean"]); break
        log = r.stdout + r.stderr
        if r.returncode == 0:
            break
        errs = {}
        for m in re.finditer(r"^error: (Verif/[A-Za-z0-9/]+\.lean):(\d+):\d+", log, re.M):
            errs.setdefault(m.group(1), set()).add(int(m.group(2)))
        if not errs:
            why = "no located error"; break
        bad = [f for f in errs if f.startswith("Verif/Model") or f.startswith("Verif/Spec")]
        if bad:
            # a lemma inside a model file
            pass
        stop = False
        for f, ls in errs.items():
            d = patch(f"{W}/{f}", ls, seen)
            if d is None:
                why = f"cannot patch {f}:{sorted(ls)[:3]}"; stop = True; break
            broken += [f"{os.path.basename(f)[:-5]}.{x}" for x in d]
        if stop: break
    else:
        why = "too many iterations"
    res = {"status": why or "ok", "broken": broken}
    if why is None:
        open(f"{W}/Check.lean", "w").write(CHECK)
        r = subprocess.run(["lake", "env", "lean", "Check.lean"], cwd=W, capture_output=True, text=True)
        st = dict((l.split()[1].split(".")[-1], l.split()[0]) for l in r.stdout.splitlines() if l.startswith(("OK ", "FAIL ")))
        res["failed"] = [n for n in alln if st.get(n) != "OK"]
        res["survived"] = [n for n in alln if st.get(n) == "OK"]
        if not st:
            res["status"] = "check failed: " + (r.stdout + r.stderr)[:300]
    else:
        res["log"] = log[-1500:]
    res["seconds"] = round(time.time() - t0)
    return res

def main():
    bugs = json.load(open(sys.argv[1]))
    only = set(sys.argv[2:])
    done = set()
    if os.path.exists(OUT) and not only:
        done = {json.loads(l)["id"] for l in open(OUT)}
    for b in bugs:
        if (only and b["id"] not in only) or b["id"] in done:
            continue
        res = run(b)
        res["id"] = b["id"]
        if "failed" in res:
            hit = {n.split("_")[0] for n in res["failed"]}
            res["claims_missed"] = [c for c in b["claims"] if c not in hit]
        with open(OUT, "a") as f:
            f.write(json.dumps(res) + "\n")
        print(b["id"], res["status"], "failed", len(res.get("failed", [])), "survived", len(res.get("survived", [])),
              "missed", res.get("claims_missed"), "sec", res.get("seconds"), flush=True)
main()
