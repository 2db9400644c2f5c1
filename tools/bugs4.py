#!/usr/bin/env python3
"""The fourth list of seeded bugs: symbolic linear combinations, inlining, matrices (writes seeded/bugs4.json, the input of
seed.py)."""
import json, pathlib
B = []
def bug(i, file, definition, old, new, edit, claims, count=1):
    B.append({"id": i, "file": file, "definition": definition, "edits": [{"file": file, "old": old, "new": new, "count": count}], "edit": edit, "claims": claims.split()})

S = "Model/Symbolic.lean"
bug("sy-01", S, "newLc", "(.lc cs.lcMap.length, {", "(.lc (cs.lcMap.length + 1), {", "number of a new combination off by one", "C85")
bug("sy-02", S, "enforce", "[(n, n + 1, n + 2)]", "[(n, n, n + 2)]", "the left side used twice", "C85")
bug("sy-03", S, "enforce", "[(n, n + 1, n + 2)]", "[(n + 2, n + 1, n)]", "left side and product swapped", "C85")
bug("sy-04", S, "newWitness", "let v : Var := .witness cs.numWitness", "let v : Var := .witness (cs.numWitness + 1)", "number of a new witness off by one", "C85")
bug("sy-05", S, "newInput", "let v : Var := .input cs.numInstance", "let v : Var := .input (cs.numInstance - 1)", "number of a new public input off by one", "C85")
bug("sy-06", S, "AllocatedFp.mul", "enforce [(1, a.var)] [(1, b.var)] [(1, product.var)] cs)", "cs)", "product not constrained", "C85")
bug("sy-07", S, "AllocatedFp.mul", "enforce [(1, a.var)] [(1, b.var)] [(1, product.var)] cs)", "enforce [(1, a.var)] [(1, a.var)] [(1, product.var)] cs)", "square instead of product constrained", "C85")
bug("sy-08", S, "AllocatedFp.addConstant", "newLc [(1, a.var), (c, .one)] cs", "newLc [(1, a.var), (1, .one)] cs", "coefficient of the constant lost", "C85")
bug("sy-09", S, "AllocatedFp.addConstant", "  if c = 0 then (a, cs)\n", "  if c = 1 then (a, cs)\n", "adding one does nothing", "C85")
bug("sy-10", S, "AllocatedFp.mulConstant", "newLc [(c, a.var)] cs", "newLc [(c, .one)] cs", "multiple of one instead of the variable", "C85")
bug("sy-11", S, "AllocatedFp.addmany", "newLc (l.map fun x => (1, x.var)) cs", "newLc (l.tail.map fun x => (1, x.var)) cs", "first summand forgotten", "C85")
bug("sy-12", S, "FpVar.sum", "return FpVar.addConstant (.var v) sumConstants cs", "return (.var v, cs)", "constants forgotten in a sum", "C85")
bug("sy-13", S, "AllocatedFp.enforceEqual", "enforce [(1, a.var), (-1, b.var)] [(1, .one)] [] cs", "enforce [(1, a.var), (1, b.var)] [(1, .one)] [] cs", "sum instead of difference", "C85")
bug("sy-14", S, "mergeTerms", "mergeTerms ((c + d, v) :: acc) l else", "mergeTerms ((c, v) :: acc) l else", "second coefficient of a variable lost", "C85")
bug("sy-15", S, "mergeTerms", "| acc, [] => acc.reverse", "| acc, [] => acc", "terms in descending order", "C85")
bug("sy-16", S, "compactify", "mergeTerms [] (l.mergeSort fun a b => a.2.le b.2)", "mergeTerms [] l", "terms not sorted", "C85")
bug("sy-17", S, "numTimesUsed", "(m.map fun l => l.countP fun x => x.2 = .lc i).sum", "(m.map fun l => if l.any (fun x => x.2 = .lc i) then 1 else 0).sum", "several uses in one combination counted once: deleted too early", "C85")
bug("sy-18", S, "inlineTerm", "if n = 0 then R1cs.lset map i none", "if n = 1 then R1cs.lset map i none", "deleted before the last use", "C85")
bug("sy-19", S, "inlineTerm", "(out ++ e.map fun y => (y.1 * x.1, y.2), map, used)", "(out ++ e, map, used)", "coefficient lost when inlining", "C85")
bug("sy-20", S, "inlineAll", "(map ++ [some (compactify out)], used)", "(map ++ [some (compactify l)], used)", "the combination before inlining is stored", "C85")
bug("sy-21", S, "column", "| .witness i => .ok (numInstance + i)", "| .witness i => .ok i", "witness columns overlap public ones", "C85")
bug("sy-22", S, "column", "| .witness i => .ok (numInstance + i)", "| .witness i => .ok (numInstance + i + 1)", "witness columns shifted", "C85")
bug("sy-23", S, "makeRow", "if x.1 = 0 then return row else", "if x.1 = 1 then return row else", "coefficient one dropped", "C85")
bug("sy-24", S, "CS.toMatrices", "matrixRows cs.numInstance map (cs.constraints.map (·.2.2))", "matrixRows cs.numInstance map (cs.constraints.map (·.2.1))", "third matrix is the second", "C85")
bug("sy-25", S, "mixRow", "(row.zip s) ([], cs)", "(row.zip s.reverse) ([], cs)", "state reversed in the matrix product", "C85")
bug("sy-26", S, "permute", "forRange 0 rp st fun _ st => round p false st", "forRange 0 rp st fun _ st => round p true st", "all rounds full", "C85")
bug("sy-27", S, "nTo1FixedHash", "let out ← lget s 1", "let out ← lget s 0", "word 0 returned", "C85")
bug("sy-28", S, "generateConstraints", "let cs := (← lget hv 4).enforceEqual o cs", "let cs := (← lget hv 3).enforceEqual o cs", "fifth hash compared with the fourth output", "C85")
bug("sy-29", S, "Var.le", "| .input i, .input j => i ≤ j", "| .input i, .input j => j ≤ i", "public inputs sorted downwards", "C85")
bug("sy-30", S, "makeRow", "if x.1 = 0 then return row else do\n", "do\n", "zero coefficients kept in the rows", "C85")

p = pathlib.Path(__file__).resolve().parent.parent / "seeded" / "bugs4.json"
p.write_text("[\n" + ",\n".join(json.dumps(b, ensure_ascii=False) for b in B) + "\n]\n")
print(len(B))
root = p.parent.parent / "lean" / "Verif"
for b in B:
    for e in b["edits"]:
        n = (root / e["file"]).read_text().count(e["old"])
        if n != e["count"]:
            print(b["id"], "found", n)
