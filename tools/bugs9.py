#!/usr/bin/env python3
"""The ninth list of seeded bugs: circuits of users (writes seeded/bugs9.json, the input of seed.py)."""
import json, pathlib
B = []
base = pathlib.Path(__file__).resolve().parent.parent / "lean" / "Verif"
def bug(i, f, header, old, new, edit, claims):
    text = (base / f).read_text()
    a = text.index(header)
    b = text.index("\n\n", a)
    block = text[a:b]
    assert block.count(old) >= 1, i
    B.append({"id": i, "file": f, "definition": header.split()[1].split("(")[0], "edits": [{"file": f, "old": block, "new": block.replace(old, new, 1), "count": 1}], "edit": edit, "claims": claims.split()})
M = "Model/UserCircuit.lean"
P = "Model/Preimage.lean"
G = "def UserCircuit.generate "
bug("uc-01", M, "def callHash ", "hash1 w[0] w[1] cs", "hash1 w[1] w[0] cs", "domain separator and value swapped in the call of hash_1", "C95")
bug("uc-02", M, "def callHash ", "hash2 w[0] (w[1], w[2]) cs", "hash2 w[0] (w[1], w[1]) cs", "second value of hash_2 replaced by the first", "C95")
bug("uc-03", M, "def callHash ", "hash4 w[0] (w[1], w[2], w[3], w[4]) cs", "hash4 w[0] (w[1], w[3], w[2], w[4]) cs", "two values of hash_4 swapped", "C95")
bug("uc-04", M, "def callHash ", "hash7 w[0] (w[1], w[2], w[3], w[4], w[5], w[6], w[7]) cs", "hash6 w[0] (w[1], w[2], w[3], w[4], w[5], w[6]) cs", "hash_6 called for seven values, the last one ignored", "C95")
bug("uc-05", M, G, "next.generate (vars.push (.constant c)) cs", "next.generate (vars.push (.constant (c + 1))) cs", "another constant", "C95")
bug("uc-06", M, G, "    let (v, cs) ← newWitness (some x) cs\n", "    let (v, cs) ← newInput (some x) cs\n", "private value allocated as public input", "C95")
bug("uc-07", M, G, "    let (v, cs) ← newInput (some x) cs\n", "    let (v, cs) ← newWitness (some x) cs\n", "public value allocated as witness: not bound by the verifier", "C95")
bug("uc-08", M, G, "    let (d, cs) ← callHash i (words.map fun k => vars[k]) cs\n", "    let (d, _) ← callHash i (words.map fun k => vars[k]) cs\n", "constraints of the hash lost", "C95")
bug("uc-09", M, G, "next.generate vars (vars[a].enforceEqual vars[b] cs)", "next.generate vars cs", "equality not enforced", "C95")
bug("uc-10", M, G, "vars[a].enforceEqual vars[b] cs", "vars[a].enforceEqual vars[a] cs", "variable compared with itself", "C95")
bug("uc-11", M, G, "    let (d, cs) ← callHash i (words.map fun k => vars[k]) cs\n    next.generate (vars.push d) cs", "    let (_, cs) ← callHash i (words.map fun k => vars[k]) cs\n    next.generate (vars.push (words.map fun k => vars[k])[1]) cs", "result of the hash replaced by its first value", "C95")
bug("uc-12", M, G, "    let (v, cs) ← newWitness (some x) cs\n    next.generate (vars.push (.var v)) cs", "    let (_, cs) ← newWitness (some x) cs\n    next.generate (vars.push (.constant x)) cs", "witness used as a constant of the circuit: the system depends on the value", "C95")
bug("uc-13", M, G, "    let (v, cs) ← newInput (some x) cs\n    next.generate (vars.push (.var v)) cs", "    let (v, cs) ← newInput (some (x + 1)) cs\n    next.generate (vars.push (.var v)) cs", "prover assigns another public value", "C95")
bug("uc-14", P, "def FpVar.enforceEqual ", "  | .constant c, .var v => AllocatedFp.enforceEqual ⟨some c, [(c, .one)]⟩ v cs", "  | .constant _, .var _ => cs", "equality of a constant and a variable not enforced", "C95")
bug("uc-15", P, "def FpVar.enforceEqual ", "  | .var v, .constant c => AllocatedFp.enforceEqual ⟨some c, [(c, .one)]⟩ v cs", "  | .var v, .constant _ => AllocatedFp.enforceEqual ⟨some 0, []⟩ v cs", "variable compared with zero instead of the constant", "C95")
bug("uc-16", P, "def AllocatedFp.enforceEqual ", "(-k, v)", "(k, v)", "sum instead of difference: a = -b enforced", "C95")
bug("uc-17", P, "def newInput ", "some v, lc⟩,\n        { cs with numInstance := cs.numInstance + 1, instanceAssignment := cs.instanceAssignment ++ [v] }", "some v, lc⟩,\n        { cs with numInstance := cs.numInstance + 1, instanceAssignment := v :: cs.instanceAssignment }", "public inputs stored in the wrong order", "C95")
bug("uc-18", P, "def newInput ", "[(1, .input cs.numInstance)]", "[(1, .input 1)]", "every public variable is the first one", "C95")
bug("uc-19", P, "def CS.new ", "⟨setup, 1, 0, [1], [], []⟩", "⟨setup, 1, 0, [0], [], []⟩", "constant one assigned zero", "C95")
json.dump(B, open(base.parent.parent / "seeded" / "bugs9.json", "w"), indent=1)
for b in B:
    for e in b["edits"]:
        n = (base / e["file"]).read_text().count(e["old"])
        if n != e["count"]:
            print("BAD", b["id"], n)
print(len(B))
