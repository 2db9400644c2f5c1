#!/usr/bin/env python3
"""The seventh list of seeded bugs: the matrix types behind the trait, the random tests (writes seeded/bugs7.json, the input of seed.py)."""
import json, pathlib
B = []
def bug(i, file, definition, old, new, edit, claims, count=1):
    B.append({"id": i, "file": file, "definition": definition, "edits": [{"file": file, "old": old, "new": new, "count": count}], "edit": edit, "claims": claims.split()})

base = pathlib.Path(__file__).resolve().parent.parent / "lean" / "Verif"
W = "Model/Wrappers.lean"
text = (base / W).read_text()
def inst(i, header, old, new, edit, claims):
    """an edit inside the instance that starts with `header`"""
    a = text.index(header); b = text.index("\n\n", a)
    block = text[a:b]
    assert block.count(old) == 1, (i, block.count(old))
    bug(i, W, header.split(":")[1].strip().split(" where")[0], block, block.replace(old, new), edit, claims)
MAT = "instance {r c n : Nat} : MatrixOperations F (Mat F r c n) where"
SQ = "instance {k n : Nat} : MatrixOperations F (SquareMatrix F k n) where"
MDS = "instance {t tm1 n nhat : Nat} : MatrixOperations F (MdsMatrix F t tm1 n nhat) where"
ARC = "instance {r c n : Nat} : MatrixOperations F (ArcMatrix F r c n) where"
OPT = "instance {r c n : Nat} : MatrixOperations F (OptimizedArcMatrix F r c n) where"

inst("wr-01", MAT, "nRows _ := r", "nRows _ := c", "n_rows returns the number of columns", "C93")
inst("wr-02", MAT, "nCols _ := c", "nCols _ := r", "n_cols returns the number of rows", "C93")
inst("wr-03", MAT, "setElement m := m.set", "setElement m i j x := m.set j i x", "indices swapped in set_element", "C93")
inst("wr-04", MAT, "getElement m := m.get", "getElement m i j := m.get j i", "indices swapped in get_element", "C93")
inst("wr-05", MAT, "let x ← m.hadamard rhs\n    return .ok x", "let x ← m.hadamard m\n    return .ok x", "matrix multiplied with itself", "C93")
inst("wr-06", MAT, "let x ← m.hadamard rhs\n    return .ok x", "if r ≠ c then return .error .invalidMatrixDimensions\n    let x ← m.hadamard rhs\n    return .ok x", "element-wise product refused for matrices that are not square", "C93")
inst("wr-07", SQ, "nCols _ := k", "nCols _ := n", "n_cols of a square matrix returns the number of elements", "C93")
inst("wr-08", SQ, "getElement m.inner i j", "getElement m.inner j i", "square matrices read transposed", "C93")
inst("wr-09", SQ, "setElement m.inner i j x", "setElement m.inner j i x", "square matrices written transposed", "C93")
inst("wr-10", SQ, "| .error e => return .error e", "| .error _ => return .ok m", "error swallowed (there is none to swallow)", "")
inst("wr-11", SQ, "hadamardProduct m.inner rhs.inner", "hadamardProduct rhs.inner m.inner", "arguments of the element-wise product swapped (it commutes)", "")
inst("wr-12", SQ, "hadamardProduct m.inner rhs.inner", "hadamardProduct m.inner m.inner", "square matrix multiplied with itself", "C93")
inst("wr-13", MDS, "if t ≠ tm1 + 1 then .error .assertFailed\n    else if t * t ≠ n", "if t * t ≠ n", "first assert forgotten", "C93")
inst("wr-14", MDS, "else if tm1 * tm1 ≠ nhat then .error .assertFailed\n", "", "third assert forgotten", "C93")
inst("wr-15", MDS, "tm1 * tm1 ≠ nhat", "t * tm1 ≠ nhat", "third assert compares with t(t-1)", "C93")
inst("wr-16", MDS, "else if t * t ≠ n then .error .assertFailed\n", "", "second assert forgotten: another panic instead", "C93")
inst("wr-17", MDS, "return ⟨m'⟩", "return m", "write to an MDS matrix dropped", "C93")
inst("wr-18", MDS, "nRows m := MatrixOperations.nRows m.inner", "nRows _ := tm1", "n_rows returns t-1", "C93")
inst("wr-19", ARC, "return ⟨m'⟩", "return m", "write to the round constants dropped", "C93")
inst("wr-20", ARC, "nRows m := MatrixOperations.nRows m.inner\n  nCols m := MatrixOperations.nCols m.inner", "nRows m := MatrixOperations.nCols m.inner\n  nCols m := MatrixOperations.nRows m.inner", "rows and columns swapped", "C93")
inst("wr-21", ARC, "elements m := MatrixOperations.elements m.inner", "elements m := (MatrixOperations.elements m.inner).reverse", "elements in reverse order", "C93")
inst("wr-22", ARC, "getElement m.inner i j", "getElement m.inner i (j % c)", "column index reduced modulo the number of columns", "C93")
inst("wr-23", OPT, "| .ok x => return .ok ⟨x⟩", "| .ok _ => return .ok m", "product dropped", "C93")
inst("wr-24", OPT, "setElement m.inner i j x", "setElement m.inner i j (x + 1)", "another value written", "C93")
inst("wr-25", OPT, "let m ← MatrixOperations.new els", "let m ← MatrixOperations.new (els.take n)", "extra elements ignored instead of refused", "C93")
bug("wr-26", W, "MatrixOperations.iterRows", "chunks (nCols m) (elements m)", "chunks (nRows m) (elements m)", "rows of the wrong length", "C93")
bug("wr-27", W, "MdsMatrix.transpose", "(m : MdsMatrix F t tm1 n nhat) : R (MdsMatrix F t tm1 n nhat) := do\n  let x ← m.inner.transpose\n  return ⟨x⟩", "(m : MdsMatrix F t tm1 n nhat) : R (MdsMatrix F t tm1 n nhat) := do\n  return m", "transpose of an MDS matrix forgotten", "C93")
bug("wr-28", W, "SquareMatrix.transpose", "let x ← m.inner.transpose\n  return ⟨x⟩\n\n/-- `MdsMatrix::transpose`", "let x ← m.inner.transpose\n  let x ← x.transpose\n  return ⟨x⟩\n\n/-- `MdsMatrix::transpose`", "transposed twice", "C93")
bug("wr-29", W, "MdsMatrix.newFromKnown", "let x ← SquareMatrix.newFromKnown elements\n  return ⟨x⟩", "let x ← SquareMatrix.newFromKnown elements\n  let x ← x.transpose\n  return ⟨x⟩", "new_from_known reads columns", "C93")
bug("wr-30", W, "MdsMatrix.fromElements", "let x ← MatrixOperations.new elements\n  return ⟨x⟩", "let x ← MatrixOperations.new elements.reverse\n  return ⟨x⟩", "from_elements reads backwards", "C93")
bug("wr-31", W, "ArcMatrix.innerElements", "Vector F n := m.inner.elements", "Vector F n := m.inner.elements.reverse", "inner_elements backwards", "C93")
bug("wr-32", W, "RoundNumbers.write", "| .full v => { x with rF := v }\n  | .partialRounds v => { x with rP := v }", "| .full v => { x with rP := v }\n  | .partialRounds v => { x with rF := v }", "full_mut and partial_mut swapped", "C93")
bug("wr-33", W, "RoundNumbers.write", "| .partialRounds v => { x with rP := v }", "| .partialRounds v => { x with rF := v }", "partial_mut returns the number of full rounds (as its comment says)", "C93")
bug("wr-34", W, "RoundNumbers.totalMachine", "A.add x.rP x.rF", "A.add x.rF x.rF", "total adds the full rounds twice", "C93")
bug("wr-35", W, "ParamError.display", '"No matrix inverse"', '"Invalid matrix dimensions"', "both errors print the same text", "C93")
T = "Model/RandomTests.lean"
bug("rt-01", T, "fromLeBytesModOrder", "(Groth16.leNat bytes : Nat)", "(Groth16.leNat bytes.reverse : Nat)", "bytes read in the other order (a bijection again: no claim about tests changes)", "")
bug("rt-02", T, "fqStrategy", "fromLeBytesModOrder bytes.toList", "fromLeBytesModOrder (bytes.toList.take 16)", "only half of the bytes used", "C92")
bug("rt-03", T, "fqStrategy", "fromLeBytesModOrder bytes.toList", "fromLeBytesModOrder (bytes.toList.take 31)", "the last byte ignored", "C92")
bug("rt-04", T, "assertEq", "if x = y then .ok () else .error .assertFailed", "if x = y then .error .assertFailed else .ok ()", "assert_ne", "C92")
bug("rt-05", T, "consistentTest", "unoptimizedNTo1FixedHash #v[elem1, elem2, elem3, elem4, elem5]", "unoptimizedNTo1FixedHash #v[elem2, elem1, elem3, elem4, elem5]", "the two hashes get different inputs", "C92")
bug("rt-06", T, "unwrap", "| .error _ => .error .unwrapNone", "| .error _ => .error .assertFailed", "another panic for a singular matrix", "C92")
bug("rt-07", T, "inverseTest", "let matrix ← Mat.new 2 2 4 [a, b, c, d]", "let matrix ← Mat.new 2 2 4 [a, c, b, d]", "matrix transposed (the determinant is the same)", "")
bug("rt-08", T, "inverseTest", "let matrix ← Mat.new 2 2 4 [a, b, c, d]", "let matrix ← Mat.new 2 2 4 [a, b, d, c]", "other matrix", "C92")
bug("rt-09", T, "inverseTest", "let product ← matMul 4 matrix res", "let product ← matMul 4 res res", "inverse multiplied with itself", "C92")
bug("rt-10", T, "inverseTest", "let product ← matMul 4 matrix res", "let product ← matMul 4 res matrix", "inverse on the other side (both hold)", "")
bug("rt-11", T, "inverseTest", "let identity ← Mat.identity Fq 2 4", "let identity ← Mat.new 2 2 4 [0, 1, 1, 0]", "compared with another matrix", "C92")

out = pathlib.Path(__file__).resolve().parent.parent / "seeded" / "bugs7.json"
out.write_text(json.dumps(B, indent=1, ensure_ascii=False) + "\n")
for b in B:
    for e in b["edits"]:
        n = (base / e["file"]).read_text().count(e["old"])
        if n != e["count"]:
            print("BAD", b["id"], n)
print(len(B))
