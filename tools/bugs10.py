#!/usr/bin/env python3
"""The tenth list of seeded bugs: keys and proofs for circuits of users (writes seeded/bugs10.json, the input of seed.py)."""
import json, pathlib
B = []
base = pathlib.Path(__file__).resolve().parent.parent / "lean" / "Verif"
def bug(i, f, header, old, new, edit, claims):
    text = (base / f).read_text()
    a = text.index(header)
    b = text.index("\n\n", a)
    block = text[a:b]
    assert block.count(old) >= 1, i
    B.append({"id": i, "file": f, "definition": header.split()[1].split("(")[0], "edits": [{"file": f, "old": block, "new": block.replace(old, new, 1), "count": 1}], "edit": edit, "claims": claims.split()})
M = "Model/UserProof.lean"
G = "def R1cs.UserCircuit.synthesize "
K = "def setupUser "
V = "def proveUser "
bug("up-01", M, "def callHash ", "hash1 w[0] w[1] cs", "hash1 w[1] w[0] cs", "domain separator and value swapped in the call of hash_1", "C96")
bug("up-02", M, "def callHash ", "hash4 w[0] (w[1], w[2], w[3], w[4]) cs", "hash4 w[0] (w[1], w[2], w[4], w[3]) cs", "two values of hash_4 swapped", "C96")
bug("up-03", M, "def callHash ", "hash3 w[0] (w[1], w[2], w[3]) cs", "hash2 w[0] (w[1], w[2]) cs", "hash_2 called for three values, the last one ignored", "C96")
bug("up-04", M, G, "next.synthesize (vars.push (.constant c)) cs", "next.synthesize (vars.push (.constant 0)) cs", "constants replaced by zero", "C96")
bug("up-05", M, G, "    let (v, cs) ← Sym.newWitness (some x) cs\n", "    let (v, cs) ← Sym.newInput (some x) cs\n", "private value allocated as public input", "C96")
bug("up-06", M, G, "    let (v, cs) ← Sym.newInput (some x) cs\n", "    let (v, cs) ← Sym.newWitness (some x) cs\n", "public value allocated as witness: not bound by the verifier", "C96")
bug("up-07", M, G, "    let (d, cs) ← Sym.callHash i (words.map fun k => vars[k]) cs\n", "    let (d, _) ← Sym.callHash i (words.map fun k => vars[k]) cs\n", "constraints of the hash lost", "C96")
bug("up-08", M, G, "next.synthesize vars (vars[a].enforceEqual vars[b] cs)", "next.synthesize vars cs", "equality not enforced", "C96")
bug("up-09", M, G, "vars[a].enforceEqual vars[b] cs", "vars[b].enforceEqual vars[b] cs", "variable compared with itself", "C96")
bug("up-10", M, G, "    let (v, cs) ← Sym.newWitness (some x) cs\n", "    let (v, cs) ← Sym.newWitness (some 0) cs\n", "prover forgets the private values", "C96")
bug("up-11", M, G, "    let (v, cs) ← Sym.newInput (some x) cs\n", "    let (v, cs) ← Sym.newInput none cs\n", "prover has no value for public inputs", "C96")
bug("up-13", M, K, "generateParameters d g1 g2 w M cs.numInstance cs.numWitness", "generateParameters d g1 g2 w M cs.numWitness cs.numInstance", "numbers of public and private columns swapped", "C96")
bug("up-14", M, K, "generateParameters d g1 g2 w M cs.numInstance cs.numWitness", "generateParameters d g1 g2 w M (cs.numInstance - 1) (cs.numWitness + 1)", "last public input counted as private: the verifier does not bind it", "C96")
bug("up-15", M, V, "(Sym.CS.new Fq false)", "(Sym.CS.new Fq true)", "proof made in setup mode: no assignment", "C96")
bug("up-16", M, V, "  if debug && !ok then .error .assertFailed\n", "", "prover does not check the assignment in debug builds", "C96")
bug("up-17", M, V, "if debug && !ok", "if !ok", "prover checks the assignment in release builds too", "C96")
bug("up-18", M, V, "if debug && !ok", "if debug && ok", "check of the assignment inverted", "C96")
bug("up-19", M, V, "cs.instanceAssignment.drop 1", "cs.instanceAssignment", "constant one counted as a public input", "C96")
bug("up-20", M, V, "cs.instanceAssignment ++ cs.witnessAssignment", "cs.witnessAssignment ++ cs.instanceAssignment", "columns in the wrong order", "C96")
bug("up-21", M, V, "createProof pk r s h", "createProof pk 0 0 h", "proof not blinded: the randomness is ignored", "C96")
bug("up-22", M, V, "createProof pk r s h", "createProof pk r r h", "one random number used twice", "C96")
bug("up-23", M, V, "witnessMap d g M cs.numInstance z", "witnessMap d 1 M cs.numInstance z", "prover divides on the domain itself, where the divisor is zero", "C96")
json.dump(B, open(base.parent.parent / "seeded" / "bugs10.json", "w"), indent=1)
for b in B:
    for e in b["edits"]:
        n = (base / e["file"]).read_text().count(e["old"])
        if n != e["count"]:
            print("BAD", b["id"], n)
print(len(B))
