#!/usr/bin/env python3
"""The third list of seeded bugs: generate_mds.sage, SHA-256, the whole round number script, and definitions the first two lists
left out (writes seeded/bugs3.json, the input of seed.py)."""
import json, pathlib
B = []
def bug(i, file, definition, old, new, edit, claims, count=1):
    B.append({"id": i, "file": file, "definition": definition, "edits": [{"file": file, "old": old, "new": new, "count": count}], "edit": edit, "claims": claims.split()})

S = "Model/StarkMds.lean"
bug("st-01", S, "proto", "1 / (x i - y j)", "1 / (x i + y j)", "sum instead of difference in the Cauchy matrix", "C83")
bug("st-02", S, "expectedDet", "if m % 4 < 2 then 1 else -1", "if m % 4 < 2 then -1 else 1", "sign of the expected determinant wrong: the assertion always fails", "C83")
bug("st-03", S, "attempts", "roundConstant F h (name ++ ['x']) (attempt * m + i)", "roundConstant F h (name ++ ['x']) (attempt + i)", "attempts reuse elements of the previous one", "C83")
bug("st-04", S, "attempts", "roundConstant F h (name ++ ['y'])", "roundConstant F h (name ++ ['x'])", "the same name for rows and columns", "C83")
bug("st-05", S, "attempts", "else if mds.charpoly.roots = 0 then .ok mds", "else if mds.charpoly.roots ≠ 0 then .ok mds", "matrices with eigenvectors are the ones returned", "C83")
bug("st-06", S, "attempts", "      else attempts h name m optimize n (attempt + 1)", "      else attempts h name m optimize n attempt", "the same attempt again", "C83")
bug("st-07", S, "generateMdsMatrix", "attempts h name m optimize 100 0", "attempts h name m optimize 99 0", "one attempt fewer", "C83")
bug("st-08", S, "generateMdsMatrix", "attempts h name m optimize 100 0", "attempts h name m optimize 100 1", "the first attempt is skipped", "C83")
bug("st-09", S, "near4", "if x ≠ y then 1 else 0", "if x = y then 1 else 0", "identity instead of its complement", "C83")
bug("st-10", S, "near3", "(2, 1), (2, 2)]", "(2, 0), (2, 2)]", "one entry of the matrix for three words moved", "C83")
bug("st-11", S, "ark", "(stateSize * i + j)", "(i + j)", "constants repeat from round to round", "C83")
bug("st-12", S, "minNumRounds", "Real.logb stateSize p", "Real.logb 2 p", "logarithm of the field size to the right base", "C83")
bug("st-13", S, "numRounds", "rne 1.075)⌉", "rne 1)⌉", "no margin on the partial rounds", "C83")
bug("st-14", S, "numRounds", "fullRounds + 2", "fullRounds", "no margin on the full rounds", "C83")
bug("st-15", S, "label", "Nat.toDigits 10 idx", "Nat.toDigits 16 idx", "index in hexadecimal", "C83")
bug("st-16", S, "label", "(name ++ Nat.toDigits 10 idx)", "(name ++ Nat.toDigits 10 (idx / 2))", "two indices share a label", "C83")
H = "Model/Sha256.lean"
bug("sh-01", H, "rotr", "(x <<< (32 - n)) % 2 ^ 32", "(x <<< (31 - n)) % 2 ^ 32", "rotation off by one", "C83")
bug("sh-02", H, "pad", "(119 - len % 64) % 64", "(120 - len % 64) % 64", "padding one byte too long", "C83")
bug("sh-03", H, "nextWord", "(b >>> 3)", "(b >>> 4)", "shift of the message schedule", "C83")
bug("sh-04", H, "rounds", "((a &&& b) ^^^ (a &&& c) ^^^ (b &&& c))", "((a &&& b) ^^^ (a &&& c))", "majority function without its third term", "C83")

K = "Model/CalcRoundsFull.lean"
bug("cf-01", K, "satInequivInverse", "if (M : ℤ) ≤ (⌊lp⌋ - 2) * ((t : ℤ) + 1) then 6 else 10", "if (M : ℤ) ≤ (⌊lp⌋ - 2) * ((t : ℤ) + 1) then 10 else 6", "statistical bound reversed", "C84")
bug("cf-02", K, "satInequivInverse", "let rP1 : ℤ := 1 + ⌈rne (0.5 * min (M : ℝ) lp)⌉ + ⌈L.log t 2⌉ - ⌊rne (rF * L.log t 2)⌋\n  let rP2 : ℤ := 1 + ⌈", "let rP1 : ℤ := ⌈rne (0.5 * min (M : ℝ) lp)⌉ + ⌈L.log t 2⌉ - ⌊rne (rF * L.log t 2)⌋\n  let rP2 : ℤ := ⌈", "the added round is missing for the inverse", "C84")
bug("cf-03", K, "satInequivInverse", "⌈L.log t 2⌉ - ⌊rne (rF * L.log t 2)⌋", "⌈L.log t 2⌉ - ⌈rne (rF * L.log t 2)⌉", "ceiling for floor in the inverse bounds", "C84", 2)
bug("cf-04", K, "satInequivInverse", "min ⌈rne ((M : ℝ) / ((t : ℝ) + 1))⌉ ⌈rne (0.5 * lp)⌉", "max ⌈rne ((M : ℝ) / ((t : ℝ) + 1))⌉ ⌈rne (0.5 * lp)⌉", "maximum for minimum in the second Groebner bound", "C84")
bug("cf-05", K, "satInequiv", "if alpha = 1 then none else some", "if alpha = 0 then none else some", "exponent 1 accepted", "C84")
bug("cf-06", K, "satInequiv", "else if alpha = -1 then some (satInequivInverse L p t rF rP M)", "else if alpha ≤ -1 then some (satInequivInverse L p t rF rP M)", "all negative exponents treated as the inverse", "C84")
bug("cf-07", K, "sizeCostFn", "N * rF + n * rP", "N * rF + N * rP", "a partial round counted as a full one in the size", "C84")
bug("cf-08", K, "permutationSize", "asUsize ⌈L.log p 2⌉ * t", "asUsize ⌊L.log p 2⌋ * t", "bits of the modulus rounded down", "C84")
bug("cf-09", K, "fdStep", "let rFt' := if marginOn then rFt + 2 else rFt", "let rFt' := rFt + 2", "two rounds added without the margin, too", "C84")
bug("cf-10", K, "fdStep", "let rPt' := if marginOn then margin st.2 else st.2", "let rPt' := st.2", "partial rounds without the margin", "C84")
bug("cf-11", K, "fdLoops", "(List.range' 1 499)", "(List.range' 1 100)", "at most 100 partial rounds are tried", "C84")
bug("cf-12", K, "fdLoops", "(List.range' 4 96)", "(List.range' 8 96)", "fewer than 8 full rounds are not tried", "C84")
bug("cf-13", K, "findRoundNumbers", "pure (s.rF, s.rP)", "pure (s.rP, s.rF)", "full and partial rounds swapped", "C84")
bug("cf-14", K, "calcFinalNumbers", "pure (rF, rP, sboxCostFn rF rP (permutationSize L p t) t,", "pure (rF, rP, depthCostFn rF rP (permutationSize L p t) t,", "rounds reported for S-boxes", "C84")

R = "Model/R1cs.lean"
bug("rc-01", R, "AllocatedFp.mul", "enforce a.lc b.lc product.lc cs)", "cs)", "the product is not constrained", "C11 C12")
bug("rc-02", R, "AllocatedFp.mul", "enforce a.lc b.lc product.lc cs)", "enforce a.lc a.lc product.lc cs)", "the constraint squares the left factor", "C11")
bug("rc-03", R, "AllocatedFp.addConstant", "a.lc ++ [(c, .one)]", "a.lc", "round constants added to the value but not to the constraint", "C11")
bug("rc-04", R, "AllocatedFp.mulConstant", "a.lc.map fun (k, v) => (k * c, v)", "a.lc", "matrix entries multiply the value but not the linear combination", "C11")
bug("rc-05", R, "FpVar.powByConstant", "if bit then res.mul a cs else return (res, cs)", "if bit then return (res, cs) else res.mul a cs", "multiplications at the wrong bits", "C11")
bug("rc-06", R, "FpVar.sum", "return FpVar.addConstant (.var v) sumConstants", "return .var v", "constants among the summands are lost", "C11")
bug("rc-07", R, "partialSubWords", "    let x ← lget s 0\n    let (y, cs) ← x.powByConstant exp cs\n    let s ← lset s 0 y", "    let x ← lget s 1\n    let (y, cs) ← x.powByConstant exp cs\n    let s ← lset s 1 y", "partial S-box on word 1", "C11")
bug("rc-08", R, "mixLayer", "    let (x, cs) ← mixRow row s cs\n    return (new ++ [x], cs)", "    let (x, cs) ← mixRow row s cs\n    return (x :: new, cs)", "mixed words in reverse order", "C11")
bug("rc-09", R, "round", "if full then fullSubWords t p.alpha s cs else partialSubWords p.alpha s cs", "fullSubWords t p.alpha s cs", "all rounds are full", "C11 C12")
bug("rc-10", R, "hash4", "nTo1FixedHash rate4Params #v[ds, v.1, v.2.1, v.2.2.1, v.2.2.2]", "nTo1FixedHash rate4Params #v[ds, v.1, v.2.2.1, v.2.1, v.2.2.2]", "inputs 2 and 3 swapped in the circuit of hash_4", "C11")
bug("rc-11", R, "hash7", "#v[ds, v.1, v.2.1, v.2.2.1, v.2.2.2.1, v.2.2.2.2.1, v.2.2.2.2.2.1, v.2.2.2.2.2.2]", "#v[ds, v.1, v.2.1, v.2.2.1, v.2.2.2.1, v.2.2.2.2.1, v.2.2.2.2.2.1, v.2.2.2.2.2.1]", "input 6 used twice in the circuit of hash_7", "C11")
bug("rc-12", R, "newWitness", "witnessAssignment := cs.witnessAssignment ++ [v] })", "witnessAssignment := v :: cs.witnessAssignment })", "witnesses stored in reverse order", "C11")
bug("rc-13", R, "FpVar.square", "let (p, cs) ← v.mul v cs\n    return (.var p, cs)\n\n/-- The constants", "let (p, cs) ← newWitness (do let x ← v.value; return x * x) cs\n    return (.var p, cs)\n\n/-- The constants", "squares are not constrained", "C11 C12")
bug("rc-14", R, "bitsBE", "(List.range 64)", "(List.range 4)", "only four bits of the exponent", "C11")

T = "Model/Trace.lean"
bug("tc-01", T, "fullSubWords", "  forRange 0 t s fun i s => do\n    let x ← get .state s i\n    let y ← sbox alpha x", "  forRange 0 t s fun i s => do\n    let x ← get .state s i\n    let y ← if x = 0 then pure x else sbox alpha x", "the S-box is skipped for zero words", "C80")
bug("tc-02", T, "sparseMatMul", "    let xs ← fmul x s0\n    let si", "    let xs ← if s0 = 0 then pure 0 else fmul x s0\n    let si", "no multiplication if word 0 is zero", "C80")
bug("tc-03", T, "dot", "    emit (.read .state (off' + j))\n", "    emit (.read .state (off' + j))\n    emit (.read .state (off' + j))\n", "the state is read twice in a product", "C80")
bug("tc-04", T, "addRow", "get .optimizedArc arc.elements (row * cols + i)", "get .arc arc.elements (row * cols + i)", "the access is recorded at the wrong array", "C80")
bug("tc-05", T, "Event.price", "  | .mul => m\n", "  | .mul => a\n", "multiplications at the price of additions", "C80")
bug("tc-06", T, "sbox", "| .exponent e => ⟨.ok (x ^ e), [.pow e]⟩", "| .exponent e => ⟨.ok (x ^ e), if x = 1 then [] else [.pow e]⟩", "no power for the word 1", "C80")

M = "Model/GenMachine.lean"
bug("gmm-01", M, "add", "| inf a, inf b => if a = b then inf a else nan", "| inf a, inf b => inf a", "infinity minus infinity is infinity", "C76")

U = "Model/GenBuild.lean"
bug("gb-01", U, "pushElement", 'decimal x.val ++ "\\").map_err', 'decimal (x.val + 1) ++ "\\").map_err', "every number written is one too large", "C44 C55", 2)
bug("gb-02", U, "displaySquareMatrix", "serializeSliceF m.elements.toList ++ \")\".toList\n\n/-- `serialize_slice_matrix_f`", "serializeSliceF m.elements.toList.reverse ++ \")\".toList\n\n/-- `serialize_slice_matrix_f`", "square matrices written from the end", "C55")
bug("gb-03", U, "displayOptimizedMds", "displaySquareMatrix o.mPrime", "displaySquareMatrix o.mDoublePrime", "M_doubleprime written for M_prime", "C55")
bug("gb-04", U, "displayOptimizedMds", "serializeSliceMatrixF o.vCollection.toList", "serializeSliceMatrixF o.vCollection.toList.reverse", "sparse matrices in reverse order", "C55")
bug("gb-05", U, "displayParams", "decimal P.rounds.partialRounds", "decimal P.rounds.full", "full rounds written for partial rounds", "C55")
bug("gb-06", U, "digitChar", "('0'.toNat + d)", "('1'.toNat + d)", "digits shifted", "C44 C55")
bug("gb-07", U, "displayMds", "serializeSliceF m.elements.toList ++ [')']", "serializeSliceF (m.elements.toList.drop 1) ++ [')']", "first element of the MDS matrix missing", "C55")
bug("gb-08", U, "serializeSliceMatrixF", 's ++ displayMatrix m ++ ", ".toList', 's ++ displayMatrix m', "no separator between matrices", "C55")

Q = "Model/Matrix.lean"
bug("mx-01", Q, "Mat.minors", "| d + 3 => if 8 < d + 3 then .error .unimplemented", "| d + 3 => if 9 < d + 3 then .error .unimplemented", "minors computed for size 9, too", "C28")
bug("mx-02", Q, "Mat.minors", "Mat.new _ _ n [d, c, b, a]", "Mat.new _ _ n [d, b, c, a]", "off-diagonal minors swapped for size 2", "C28")
bug("mx-03", Q, "determinant", "| _, 0, _ => .error .noElements", "| _, 0, _ => .ok 1", "determinant of the empty matrix is 1", "C26")

p = pathlib.Path(__file__).resolve().parent.parent / "seeded" / "bugs3.json"
p.write_text("[\n" + ",\n".join(json.dumps(b, ensure_ascii=False) for b in B) + "\n]\n")
print(len(B))
root = p.parent.parent / "lean" / "Verif"
for b in B:
    for e in b["edits"]:
        n = (root / e["file"]).read_text().count(e["old"])
        if n != e["count"]:
            print(b["id"], "found", n)
