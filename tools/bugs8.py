#!/usr/bin/env python3
"""The eighth list of seeded bugs: hashing in place, threads (writes seeded/bugs8.json, the input of seed.py)."""
import json, pathlib
B = []
base = pathlib.Path(__file__).resolve().parent.parent / "lean" / "Verif"
M = "Model/InPlace.lean"
text = (base / M).read_text()
def bug(i, header, old, new, edit, claims):
    """an edit inside the definition that starts with `header`"""
    a = text.index(header)
    b = text.index("\n\n", a)
    if header in ("def permute ", "def unoptimizedPermute "):
        b = text.index("\n/--", a)
    block = text[a:b]
    assert block.count(old) >= 1, i
    block2 = block.replace(old, new, 1)
    B.append({"id": i, "file": M, "definition": header.split()[1].split("(")[0], "edits": [{"file": M, "old": block, "new": block2, "count": 1}], "edit": edit, "claims": claims.split()})

bug("ip-01", "def partialSubWords ", "write 0 y", "write 1 y", "S-box result of a partial round stored in word 1", "C94")
bug("ip-02", "def partialSubWords ", "read 0", "read 1", "S-box of a partial round applied to word 1", "C94")
bug("ip-03", "def fullSubWords ", "forRange 0 t", "forRange 1 t", "first word left out of the full S-box layer", "C94")
bug("ip-04", "def fullSubWords ", "write i y", "write 0 y", "results of the full S-box layer all stored in word 0", "C94")
bug("ip-05", "def fullSubWords ", "    let x ← read i\n    let y ← lift (sbox alpha x)\n    write i y", "    let x ← read i\n    write i 1\n    let y ← lift (sbox alpha x)\n    write i y", "word overwritten before the S-box is computed (shows only in the state a panic leaves)", "C94")
bug("ip-06", "def dot ", "read (off + j)", "read j", "offset of the slice forgotten in the inner product", "C94")
bug("ip-07", "def dot ", "acc + x * y", "acc + x + y", "sum instead of product", "C94")
bug("ip-08", "def assign ", "write i x", "write (i + 1) x", "new state stored one word too far", "C94")
bug("ip-09", "def mixLayer ", "dot t 0 row", "dot t 1 row", "row multiplied with the words from 1 on", "C94")
bug("ip-10", "def mixLayer ", "    lift (aset new i sum)\n  assign new", "    write i sum\n    lift (aset new i sum)\n  assign new", "matrix multiplied in place: later rows see new words", "C94")
bug("ip-11", "def addRow ", "x + k", "k", "constants stored instead of added", "C94")
bug("ip-12", "def addLinear ", "return counter + 1", "return counter", "counter not increased", "C94")
bug("ip-13", "def addLinear ", "write i (x + k)\n", "write i (k + k)\n", "constant doubled, word lost", "C94")
bug("ip-14", "def sparseMatMul ", "lift (aset acc i (x * s0 + si))", "lift (aset acc i (x * si + s0))", "words swapped in the sparse matrix", "C94")
bug("ip-15", "def sparseMatMul ", "write (i + 1) x", "write i x", "copy_from_slice to the start of the state", "C94")
bug("ip-16", "def sparseMatMul ", "dot t 1", "dot t 0", "row of the sparse matrix multiplied with the words from 0 on", "C94")
bug("ip-17", "def sparseMatMul ", "o.m00 * s0 + sum", "s0 + sum", "m00 forgotten", "C94")
bug("ip-18", "def permute ", "let counter := counter + 1\n    let x ← read 0", "let x ← read 0", "counter not increased in partial rounds", "C94")
bug("ip-19", "def permute ", "  partialSubWords p.alpha\n  sparseMatMul p.optimizedMds 0\n", "  sparseMatMul p.optimizedMds 0\n", "S-box of the last partial round forgotten", "C94")
bug("ip-20", "def permute ", "mixLayer p.optimizedMds.mI", "mixLayer p.mds", "MDS matrix instead of M_i", "C94")
bug("ip-21", "def unoptimizedPermute ", "partialSubWords p.alpha", "fullSubWords t p.alpha", "full S-box layer in partial rounds", "C94")
bug("ip-22", "def unoptimizedPermute ", "let counter ← forRange 0 rp counter", "let counter ← forRange 1 rp counter", "one partial round too few", "C94")
bug("ip-23", "def setState ", "input.toList.zipIdx", "input.toList.tail.zipIdx", "first input word dropped: old words survive", "C94")
bug("ip-24", "def nTo1FixedHash ", "  setState input\n", "", "input never stored", "C94")
bug("ip-25", "def nTo1FixedHash ", "  permute p\n  read 1", "  let d ← read 1\n  permute p\n  return d", "digest read before the permutation", "C94")
bug("ip-26", "def unoptimizedNTo1FixedHash ", "read 1", "read 0", "digest is word 0", "C94")
bug("ip-27", "def HashCall.prog ", "Prog.unoptimizedNTo1FixedHash p x", "Prog.nTo1FixedHash p x", "unoptimized entry point runs the optimized code", "C94")
bug("ip-28", "def step ", "if h : i < t then (k s[i], s)", "if h : i < t then (k s[i], s.set i s[0])", "a read disturbs the state", "C94")
bug("ip-29", "def step ", "(k, s.set i x h)", "(k, s)", "write lost", "C94")
bug("ip-30", "inductive Threads.Step ", "states := Function.update y.states r.inst (r.prog.step (y.states r.inst)).2", "states := fun _ => (r.prog.step (y.states r.inst)).2", "all instances share one state array", "C94")
bug("ip-31", "inductive Threads.Step ", "(idle : y.running th = none) (free : borrow → y.Free i)", "(idle : y.running th = none)", "calls on one instance may overlap", "C94")
bug("ip-32", "inductive Threads.Step ", ".observe i) { y with log := y.log ++ [.observed i (y.states i)] }", ".observe i) { y with states := Function.update y.states i (Vector.replicate t 0), log := y.log ++ [.observed i (y.states i)] }", "output_words clears the state", "C94")
bug("ip-33", "inductive Threads.Step ", "  | observe {i : Nat} (free : borrow → y.Free i) :", "  | observe {i : Nat} :", "output_words while a call runs", "C94")
bug("ip-34", "inductive Threads.Step ", "log := y.log ++ [.ended r.inst r.call (.error e)] }", "states := Function.update y.states r.inst (Vector.replicate t 0), log := y.log ++ [.ended r.inst r.call (.error e)] }", "a caught panic clears the state", "C94")
bug("ip-35", "inductive Threads.Step ", "(idle : y.running th = none) (free", "(free", "a thread in a call may start another and abandon the first", "C94")
json.dump(B, open(base.parent.parent / "seeded" / "bugs8.json", "w"), indent=1)
for b in B:
    for e in b["edits"]:
        n = (base / e["file"]).read_text().count(e["old"])
        if n != e["count"]:
            print("BAD", b["id"], n)
print(len(B))
