#!/usr/bin/env python3
"""The second list of seeded bugs, for the newer models (writes seeded/bugs2.json, the input of seed.py)."""
import json, pathlib
B = []
def bug(i, file, definition, old, new, edit, claims, count=1):
    B.append({"id": i, "file": file, "definition": definition, "edits": [{"file": file, "old": old, "new": new, "count": count}], "edit": edit, "claims": claims.split()})

G = "Model/Grain.lean"
bug("gr-01", G, "shift", "(← b[51]?)", "(← b[52]?)", "feedback tap at 52 instead of 51", "C82")
bug("gr-02", G, "shift", "b.tail ++ [newBit]", "b ++ [newBit]", "the register grows: nothing is shifted out", "C82")
bug("gr-03", G, "skip", "      let (_, b) ← shift b\n      let (newBit, b) ← shift b\n", "      let (newBit, b) ← shift b\n", "the second bit of a pair that does not count is tested, not dropped", "C82")
bug("gr-04", G, "intOfBits", "l.foldl (fun a b => 2 * a + b.toNat) 0", "l.foldr (fun b a => 2 * a + b.toNat) 0", "numbers read with the least significant bit first", "C82")
bug("gr-05", G, "binZfill", "(Nat.digits 2 x).reverse.map (· == 1)", "(Nat.digits 2 x).map (· == 1)", "arguments written with the least significant bit first", "C82")
bug("gr-06", G, "initSequence", "binZfill 12 a.fieldSize ++ binZfill 12 a.numCells", "binZfill 12 a.numCells ++ binZfill 12 a.fieldSize", "field size and width swapped in the start", "C82")
bug("gr-07", G, "initSequence", "binZfill 10 a.rF ++ binZfill 10 a.rP", "binZfill 10 a.rF ++ binZfill 10 a.rF", "the start does not depend on the number of partial rounds", "C82")
bug("gr-08", G, "drawBelow", "if prime ≤ x then", "if prime < x then", "the prime itself is accepted as a constant", "C82")
bug("gr-09", G, "drawBelow", "if prime ≤ x then drawBelow fuel n prime i b else return (x, b)", "if i = 0 then none else return (x % prime, b)", "constants reduced modulo the prime instead of drawn again", "C82")
bug("gr-10", G, "createMds", "    else if ∃ i j, xs i + ys j = 0 then createMds fuel n t i b\n    else", "    else", "a zero sum is not detected", "C82")
bug("gr-11", G, "createMds", "⟨t + j, by omega⟩", "⟨j, by omega⟩", "the columns use the elements of the rows", "C82")
bug("gr-12", G, "createMds", "    if ¬ Function.Injective randList then createMds fuel n t i b\n    else if", "    if", "duplicates are not detected", "C82")
bug("gr-13", G, "generateMatrix", "(algorithm1 M).1 = false ∨ algorithm2 M = false ∨ algorithm3 M = false", "(algorithm1 M).1 = false ∨ algorithm2 M = false", "test 3 is not run", "C82")
bug("gr-14", G, "generateMatrix", "(algorithm1 M).1 = false ∨ algorithm2 M = false ∨ algorithm3 M = false", "(algorithm1 M).1 = false ∧ algorithm2 M = false ∧ algorithm3 M = false", "a matrix is rejected only if it fails all tests", "C82")
bug("gr-15", G, "script", "warmUp 160", "warmUp 159", "159 steps of warm-up", "C82")
bug("gr-16", G, "collect", "    return (Fin.cons x l, b)", "    return (Fin.snoc l x, b)", "the first draw is put last", "C82")
bug("gr-17", G, "script", "  let M ← generateMatrix p fuel fieldSize k fuel b\n", "  let b ← warmUp 160 (initSequence a)\n  let M ← generateMatrix p fuel fieldSize k fuel b\n", "the generator is restarted for the matrix", "C82")

A = "Model/SageAuthors.lean"
bug("sa-01", A, "addConstants", "    let s ← aset s i (x + c)\n", "    let s ← aset s i (x * c)\n", "constants multiplied", "C81")
bug("sa-02", A, "fullRound", "    aset s i (x ^ g.alpha)\n  return (Vector.ofFn (g.mds *ᵥ fun i => s[i]), counter)", "    aset s i (x ^ g.alpha)\n  return (Vector.ofFn (g.mdsᵀ *ᵥ fun i => s[i]), counter)", "full rounds multiply by the transpose", "C81")
bug("sa-03", A, "perm", "  let rf := g.rF / 2\n", "  let rf := g.rF\n", "twice as many full rounds", "C81")
bug("sa-04", A, "partialRound", "  let x ← aget s 0\n  let s ← aset s 0 (x ^ g.alpha)", "  let x ← aget s (t - 1)\n  let s ← aset s (t - 1) (x ^ g.alpha)", "partial S-box on the last word", "C81")
bug("sa-05", A, "literalMatrix", "l.getD (i.val * t + j.val) 0", "l.getD (j.val * t + i.val) 0", "literals read by columns", "C81 C82")
bug("sa-06", A, "script3", "  rP := 42\n", "  rP := 41\n", "one partial round too few in the script with exponent 3", "C81")

W = "Model/GenWord.lean"
bug("gw-01", W, "domainSepMessagesW", 'leBytes wordBytes input.t', 'leBytes 8 input.t', "the width is always written with 8 bytes", "C75")
bug("gw-02", W, "domainSepMessagesW", 'leBytes wordBytes input.security', 'leBytes wordBytes input.t', "the security level is not absorbed", "C75")
bug("gw-03", W, "arcElementsW", "return (st.1 ++ [c.1], c.2)", "return (c.1 :: st.1, c.2)", "constants in reverse order", "C75")

M = "Model/GenMachine.lean"
bug("gx-01", M, "F64.round", "(-1074)", "(-1022)", "no subnormal numbers", "")
bug("gx-02", M, "asUsize", "min ⌊x⌋₊ (m.W - 1)", "min ⌈x⌉₊ (m.W - 1)", "casts round up", "C76")
bug("gx-03", M, "algebraicAttackInterpolation", "((L.log2 (F64.ofNat input.t)).ceil.add ((F64.round 0.5).mul minArg).ceil)", "((L.log2 (F64.ofNat input.t)).floor.add ((F64.round 0.5).mul minArg).ceil)", "floor for ceil in the interpolation bound", "C76")
bug("gx-04", M, "applySecurityMargin", "m.arith.add r.full 2", "m.arith.add r.full 1", "margin of one full round", "C76")
bug("gx-05", M, "roundSearch", "forRange 4 100 st", "forRange 4 99 st", "search range one short", "")
bug("gx-06", M, "log2Loop", "m.i32Add boundaries 48", "m.i32Add boundaries 47", "47 bits counted for a shift of 48", "C76")
bug("gx-07", M, "log2Big", "List.replicate (8 - bytes.length) 0", "List.replicate (7 - bytes.length) 0", "bytes padded to seven", "C76")
bug("gx-08", M, "binomialLoop", "if security ≤ m.asUsize", "if security < m.asUsize", "strict comparison in the Groebner test of version 2", "C76")
bug("gx-09", M, "minBy", "  | some .gt => .ok b\n  | some _ => .ok a\n\n/-- `[a, b].iter().max_by", "  | some .gt => .ok a\n  | some _ => .ok b\n\n/-- `[a, b].iter().max_by", "minimum returns the maximum", "C76")

R = "Model/GenArg.lean"
bug("ga-01", R, "v1GenerateArg", "  let alpha ← alphaGenerateArg m p allowInverse", "  let alpha ← alphaGenerateArg m m allowInverse", "the exponent is chosen for the modulus of the field", "C77")
bug("ga-02", R, "alphaCoprimeArg", "  let pMinusOne ← usub p one", "  let pMinusOne := p", "the exponent is compared with p", "C77")
bug("ga-03", R, "alphaLoopArg", "      if c then return some candidate else alphaLoopArg m p rest", "      if c then alphaLoopArg m p rest else return some candidate", "the first exponent that is not coprime", "C77")
bug("ga-04", R, "v1GenerateArg", "  let arc ← arcV1GenerateArg F m nlimbs rows nround input rounds alpha\n", "  let arc ← arcV1GenerateArg F p nlimbs rows nround input rounds alpha\n", "challenge length from the argument", "")
bug("ga-05", R, "v1GenerateArg", "  let optimizedArc ← arcGenerateOptimized debug arc mds rounds\n", "  let optimizedArc := arc\n", "optimized constants not computed", "C77")

S = "Model/SageSecurity.lean"
bug("ss-01", S, "Setting.D", "2 * rIn * s.rf + s.rP", "rIn * s.rf + s.rP", "half the full rounds in the degree", "C79")
bug("ss-02", S, "resistEigenpolynomial", "+ 2 * Real.logb 2 (s.D rIn)", "+ 0 * Real.logb 2 (s.D rIn)", "the degree does not count", "C79")
bug("ss-03", S, "resistRootExtraction", "let q := Real.logb 2 s.prime", "let q : ℝ := s.prime", "the prime itself, as was intended", "C79")
bug("ss-04", S, "setting", "rP := 31", "rP := 3", "3 partial rounds", "C79")

T = "Model/Trace.lean"
bug("tr2-01", T, "sbox", "  | .exponent e => ⟨.ok (x ^ e), [.pow e]⟩", "  | .exponent e => ⟨.ok (x ^ e), if x = 0 then [] else [.pow e]⟩", "the S-box takes a short cut for zero", "C80")
bug("tr2-02", T, "fmul", "⟨.ok (a * b), [.mul]⟩", "⟨.ok (a * b), if b = 1 then [] else [.mul]⟩", "multiplication by one is skipped", "C80")
bug("tr2-03", T, "unoptimizedPermute", "    let s ← partialSubWords p.alpha s\n    let s ← mixLayer .mds p.mds s\n    return (s, counter)\n  -- Final", "    let s ← fullSubWords p.alpha s\n    let s ← mixLayer .mds p.mds s\n    return (s, counter)\n  -- Final", "full S-box layer in the partial rounds", "C80")
bug("tr2-04", T, "sparseMatMul", "    let xs ← fmul x s0\n", "    let xs ← fmul x s0\n    let _ ← fmul x s0\n", "a product computed twice", "C80")
bug("tr2-05", T, "setState", "    emit (.read .input i)\n    set .state s i x", "    emit (.read .input i)\n    set .state s i 0", "inputs read and not used", "C80")
bug("tr2-06", T, "permute", "    let s ← mixLayer .mds p.mds s\n    return (s, counter + 1)\n  return s", "    let s ← mixLayer .mI p.optimizedMds.mI s\n    return (s, counter + 1)\n  return s", "M_i in the final rounds", "C80")
bug("tr2-07", T, "unoptimizedNTo1FixedHash", "  let s ← unoptimizedPermute self.parameters s\n  let out ← get .state s 1\n  return", "  let s ← unoptimizedPermute self.parameters s\n  let s ← unoptimizedPermute self.parameters s\n  let out ← get .state s 1\n  return", "permuted twice", "C80")

root = pathlib.Path(__file__).resolve().parent.parent
import random
random.Random(2).shuffle(B)
json.dump(B, open(root / "seeded/bugs2.json", "w"), indent=1, ensure_ascii=False)
for b in B:
    for e in b["edits"]:
        s = (root / "lean/Verif" / e["file"]).read_text()
        if s.count(e["old"]) != e["count"]:
            print("BAD", b["id"], s.count(e["old"]))
print(len(B))
