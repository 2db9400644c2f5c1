#!/usr/bin/env python3
"""The twelfth list of seeded bugs: arithmetic in circuits, calls of the circuit hashes (writes seeded/bugs12.json, the input of seed.py)."""
import json, pathlib
B = []
base = pathlib.Path(__file__).resolve().parent.parent / "lean" / "Verif"
def bug(i, f, header, old, new, edit, claims, sym=False):
    text = (base / f).read_text()
    ns = text.index('namespace Poseidon.Sym') if sym else 0
    a = text.index(header, ns)
    b = text.index("\n\n", a)
    block = text[a:b]
    assert block.count(old) >= 1, i
    B.append({"id": i, "file": f, "definition": header.split()[1].split("(")[0], "edits": [{"file": f, "old": block, "new": block.replace(old, new, 1), "count": 1}], "edit": edit, "claims": claims.split()})
A = "Model/Arith.lean"
U = "Model/UserCircuit.lean"
P = "Model/UserProof.lean"
ALL = "C95 C96 C101"
SYM = "C96 C101"
bug("ar-01", A, "def AllocatedFp.add ", "a.lc ++ b.lc", "a.lc", "second summand missing in the linear combination", ALL)
bug("ar-02", A, "def AllocatedFp.sub ", "(-k, v)", "(k, v)", "difference has the combination of the sum", ALL)
bug("ar-03", A, "def AllocatedFp.add ", "return x + y", "return x + x", "wrong value of a sum, right combination", ALL)
bug("ar-04", A, "def FpVar.add ", "| .constant c, .var v => .var (v.addConstant c)", "| .constant _, .var v => .var v", "constant first summand ignored", "C95 C96")
bug("ar-05", A, "def AllocatedFp.subConstant ", "(-c)", "c", "constant added instead of subtracted", "C95 C96")
bug("ar-06", A, "def FpVar.sub ", "(v.subConstant c).negate", "(v.subConstant c)", "constant minus variable has the wrong sign", "C95 C96")
bug("ar-07", A, "def FpVar.sub ", ".constant (x - y)", ".constant (y - x)", "difference of constants the wrong way round", "C95 C96")
bug("ar-08", U, "def UserCircuit.generate ", "op.run vars[a] vars[b] cs", "op.run vars[b] vars[a] cs", "operands swapped", ALL)
bug("ar-09", A, "def ArithOp.run ", "| .mul => a.mul b cs", "| .mul => .ok (a.add b, cs)", "sum instead of product", ALL)
bug("ar-10", U, "def UserCircuit.generate ", "let (d, cs) ← op.run vars[a] vars[b] cs", "let (_, cs) ← op.run vars[a] vars[b] cs\n    let d := vars[a]", "result of an operation dropped, first operand kept", ALL)
bug("ar-11", A, "def AllocatedFp.negate ", "a.value.map (- ·)", "a.value", "negation keeps the value", "C95 C96")
bug("ar-12", A, "def FpVar.sub ", "| .var v, .constant c => .var (v.subConstant c)", "| .var v, .constant c => .var (v.subConstant c).negate", "variable minus constant negated", "C95 C96")
bug("ar-13", A, "def AllocatedFp.sub ", "return x - y", "return y - x", "value of a difference the wrong way round", ALL)
bug("ar-21", A, "def AllocatedFp.add ", "(1, b.var)", "(1, a.var)", "first summand taken twice (symbolic)", SYM, True)
bug("ar-22", A, "def AllocatedFp.sub ", "(-1, b.var)", "(1, b.var)", "difference has the combination of the sum (symbolic)", SYM, True)
bug("ar-23", A, "def AllocatedFp.sub ", "(⟨do let x ← a.value; let y ← b.value; return x - y, v⟩, cs)", "(⟨a.value, v⟩, cs)", "value of the first operand kept (symbolic)", SYM, True)
bug("ar-24", A, "def AllocatedFp.negate ", "(-1, a.var)", "(1, a.var)", "combination not negated (symbolic)", "C96", True)
bug("ar-25", A, "def FpVar.sub ", "    let (v, cs) := v.negate cs\n", "", "constant minus variable not negated (symbolic)", "C96", True)
bug("ar-26", A, "def arith ", "| .add => .ok (a.add b cs)", "| .add => .ok ((a.add b cs).1, cs)", "new linear combination not recorded (symbolic)", SYM, True)
bug("ar-27", P, "def R1cs.UserCircuit.synthesize ", "Sym.arith op vars[a] vars[b] cs", "Sym.arith op vars[b] vars[a] cs", "operands swapped (symbolic)", SYM)
bug("ar-28", P, "def R1cs.UserCircuit.synthesize ", "let (d, cs) ← Sym.arith op vars[a] vars[b] cs\n    next.synthesize (vars.push d) cs", "let (d, _) ← Sym.arith op vars[a] vars[b] cs\n    next.synthesize (vars.push d) cs", "constraints of an operation dropped (symbolic)", SYM)
bug("ar-29", U, "def UserCircuit.generate ", "let (d, cs) ← op.run vars[a] vars[b] cs\n    next.generate (vars.push d) cs", "let (d, _) ← op.run vars[a] vars[b] cs\n    next.generate (vars.push d) cs", "constraints of an operation dropped", ALL)
json.dump(B, open(base.parent.parent / "seeded" / "bugs12.json", "w"), indent=1)
for b in B:
    for e in b["edits"]:
        n = (base / e["file"]).read_text().count(e["old"])
        if n != e["count"]:
            print("BAD", b["id"], n)
print(len(B))
