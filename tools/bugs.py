#!/usr/bin/env python3
"""The seeded bugs (writes seeded/bugs.json, the input of seed.py)."""
import json, pathlib
B = []
def bug(i, file, definition, old, new, edit, claims, count=1):
    B.append({"id": i, "file": file, "definition": definition, "edits": [{"file": file, "old": old, "new": new, "count": count}], "edit": edit, "claims": claims.split()})

P = "Model/Permutation.lean"
bug("perm-01", P, "permute", "  let rf := p.rounds.full / 2\n  -- First chunk of full rounds", "  let rf := p.rounds.full / 2 - 1\n  -- First chunk of full rounds", "one full round too few on each side of the optimized permutation", "C01 C02 C13 C51")
bug("perm-02", P, "permute", "    let idx ← usub p.rounds.partialRounds r\n    let idx ← usub idx 1\n    let s ← sparseMatMul p.optimizedMds idx s", "    let idx ← usub p.rounds.partialRounds r\n    let idx ← usub idx 2\n    let s ← sparseMatMul p.optimizedMds idx s", "sparse factors indexed one too low", "C01 C02 C51")
bug("perm-03", P, "permute", "    let k ← p.optimizedArc.get counter 0\n    let s ← aset s 0 (x + k)", "    let k ← p.optimizedArc.get counter 0\n    let s ← aset s 0 x", "optimized partial rounds forget the round constant (k unused)", "C01 C02 C13")
bug("perm-04", P, "permute", "  -- Last partial round\n  let s ← partialSubWords p.alpha s\n", "  -- Last partial round\n", "last partial round without S-box", "C01 C02 C51")
bug("perm-05", P, "sparseMatMul", "    aset acc i (x * s0 + si)", "    aset acc i (x * si + s0)", "sparse multiplication with swapped roles of word 0 and word i", "C01 C02")
bug("perm-06", P, "sparseMatMul", "aset s 0 (o.m00 * s0 + fsum", "aset s 0 (s0 + fsum", "sparse multiplication drops M_00", "C01 C02")
bug("perm-07", P, "mixLayer", "    aset new i (fsum (List.zipWith (· * ·) row s.toList))", "    aset new i (fsum (List.zipWith (· * ·) row s.toList.reverse))", "mix layer reads the state in reverse order", "C01 C02")
bug("perm-08", P, "fullSubWords", "def fullSubWords (alpha : Alpha) (s : Vector F t) : R (Vector F t) :=\n  forRange 0 t s", "def fullSubWords (alpha : Alpha) (s : Vector F t) : R (Vector F t) :=\n  forRange 1 t s", "full S-box layer skips word 0", "C02 C13 C51")
bug("perm-09", P, "partialSubWords", "  let x ← aget s 0\n  let y ← sbox alpha x\n  aset s 0 y", "  let x ← aget s 1\n  let y ← sbox alpha x\n  aset s 1 y", "partial S-box applied to word 1", "C01 C02 C51")
bug("perm-10", P, "sbox", "  | .exponent e => .ok (x ^ e)", "  | .exponent e => .ok (x ^ (e - 1))", "S-box exponent off by one", "C02 C04 C05 C13 C51")
bug("perm-11", P, "addLinear", "    let s ← aset s i (x + k)\n    return (s, counter + 1)", "    let s ← aset s i (x + k)\n    return (s, counter)", "unoptimized permutation reuses one constant for the whole state", "C01")
bug("perm-12", P, "nTo1FixedHash", "  let s ← permute self.parameters s\n  let out ← aget s 1", "  let s ← permute self.parameters s\n  let out ← aget s 0", "digest is word 0 instead of word 1", "C01 C02 C07 C13")
bug("perm-13", P, "nTo1FixedHash", "  let s ← setState self.stateWords input\n  let s ← permute self.parameters s", "  let s ← permute self.parameters (Vector.zipWith (· + ·) self.stateWords input)", "input added to the previous state instead of replacing it", "C06")
bug("perm-14", P, "unoptimizedNTo1FixedHash", "  let s ← unoptimizedPermute self.parameters s\n  let out ← aget s 1\n  return (out, { self with stateWords := s })", "  let s' ← unoptimizedPermute self.parameters s\n  let out ← aget s' 1\n  return (out, { self with stateWords := s })", "unoptimized hash does not store the permuted state", "C07")
bug("perm-15", P, "setState", "  forList input.toList.zipIdx state fun (x, i) s => aset s i x", "  forList (input.toList.zipIdx.drop 1) state fun (x, i) s => aset s i x", "word 0 (the domain separator) of the previous call is kept", "C06 C08")
bug("perm-16", P, "unoptimizedPermute", "  -- Final full rounds\n  let st ← forRange 0 rf st fun _ st => do\n    let (s, counter) ← addLinear p.arc st\n    let s ← fullSubWords p.alpha s", "  -- Final full rounds\n  let st ← forRange 0 rf st fun _ st => do\n    let (s, counter) ← addLinear p.arc st\n    let s ← partialSubWords p.alpha s", "unoptimized permutation uses partial S-boxes in the final rounds", "C01")
bug("perm-17", P, "Instance.new", "stateWords := Vector.replicate t 0 }", "stateWords := Vector.replicate t 1 }", "fresh instance starts with ones", "C07")
bug("perm-18", P, "permute", "  let s ← mixLayer p.optimizedMds.mI s\n", "  let s ← mixLayer p.optimizedMds.mPrime s\n", "M_prime used instead of M_i before the partial rounds", "C01 C02 C51")
bug("perm-19", P, "permute", "  let lim ← usub p.rounds.partialRounds 1\n", "  let lim := p.rounds.partialRounds - 1\n", "saturating subtraction: zero partial rounds no longer panic", "C46")
bug("perm-20", P, "addRow", "    let k ← arc.get row i\n", "    let k ← arc.get i row\n", "row and column of the optimized constants swapped", "C01 C02 C03")

H = "Model/Hash.lean"
bug("hash-01", H, "hash2", "#v[domainSeparator, value.1, value.2]", "#v[domainSeparator, value.2, value.1]", "hash_2 swaps its two values", "C08 C02")
bug("hash-02", H, "hash4", "#v[domainSeparator, value.1, value.2.1, value.2.2.1, value.2.2.2]", "#v[domainSeparator, value.1, value.2.1, value.2.1, value.2.2.2]", "hash_4 uses value 2 twice and drops value 3", "C08 C02")
bug("hash-03", H, "hash7", "#v[domainSeparator, value.1, value.2.1, value.2.2.1, value.2.2.2.1, value.2.2.2.2.1, value.2.2.2.2.2.1, value.2.2.2.2.2.2]", "#v[value.1, domainSeparator, value.2.1, value.2.2.1, value.2.2.2.1, value.2.2.2.2.1, value.2.2.2.2.2.1, value.2.2.2.2.2.2]", "hash_7 puts the domain separator second", "C08 C02")
bug("hash-04", H, "hash1", "(Instance.new rate1Params).nTo1FixedHash #v[domainSeparator, value]\n", "(Instance.new rate1Params).nTo1FixedHash #v[domainSeparator, domainSeparator]\n", "hash_1 ignores its value", "C08 C02")

M = "Model/Matrix.lean"
bug("mat-01", M, "Mat.get", "R F := aget m.elements (i * c + j)", "R F := aget m.elements (i * r + j)", "row stride is the number of rows", "C22 C23")
bug("mat-02", M, "Mat.set", "  let els ← aset m.elements (i * c + j) val", "  let els ← aset m.elements (j * c + i) val", "set_element swaps row and column", "C22")
bug("mat-03", M, "Mat.transpose", "      let x ← m.get i j\n      let els ← aset els index x\n      return (els, index + 1)\n  Mat.new c r n els.toList", "      let x ← m.get (r - 1 - i) j\n      let els ← aset els index x\n      return (els, index + 1)\n  Mat.new c r n els.toList", "transpose rotates instead", "C23 C24")
bug("mat-04", M, "matMul", "      let d ← dotProduct row column\n", "      let d ← dotProduct row row\n", "product multiplies each row with itself", "C24")
bug("mat-05", M, "Mat.hadamard", "      let y ← rhs.get i j\n      let els ← aset els index (x * y)", "      let y ← rhs.get i j\n      let els ← aset els index (x + y)", "hadamard adds", "C25 C27")
bug("mat-06", M, "determinant", "        return (det, !leviCivita)", "        return (det, leviCivita)", "determinant without alternating signs (permanent)", "C26 C27")
bug("mat-07", M, "determinant", "    if 8 < k + 2 then .error .unimplemented\n", "    if 7 < k + 2 then .error .unimplemented\n", "determinant refuses 8 x 8", "C26 C27")
bug("mat-08", M, "Mat.minors", "    Mat.new _ _ n [d, c, b, a]", "    Mat.new _ _ n [d, b, c, a]", "2 x 2 minors transposed", "C28 C27")
bug("mat-09", M, "Mat.cofactors", "((-1 : F) ^ (i + j))", "((-1 : F) ^ (i + j + 1))", "cofactor signs inverted", "C28 C27")
bug("mat-10", M, "Mat.inverse", "      let adj ← signedMinors.transpose\n", "      let adj := signedMinors\n", "adjugate not transposed", "C27")
bug("mat-11", M, "Mat.inverse", "    if det = 0 then return .error .noMatrixInverse\n", "    if det = 1 then return .error .noMatrixInverse\n", "inverse refuses determinant 1 instead of 0", "C27")
bug("mat-12", M, "Mat.inverse", "    let y ← if x = 0 then .error .divZero else .ok x⁻¹\n", "    let y ← if x = 0 then .error .divZero else .ok x\n", "inverse of a 1 x 1 matrix is the matrix", "C27")
bug("mat-13", M, "Mat.identity", "m.set i i 1", "m.set i 0 1", "identity puts ones in column 0", "C25")
bug("mat-14", M, "Mat.scale", "aset els i (element * rhs)", "aset els i (if i = 0 then element else element * rhs)", "scalar product skips the first entry", "C25 C27")
bug("mat-15", M, "Mat.new", "  else if h : elements.length = n then .ok ⟨⟨elements.toArray, by simpa using h⟩⟩\n  else .error .sliceLen", "  else if h : elements.length = n then .ok ⟨⟨elements.toArray.reverse, by simpa using h⟩⟩\n  else .error .sliceLen", "new stores the elements in reverse", "C21")
bug("mat-16", M, "Mat.newFromKnown", "def Mat.newFromKnown {F : Type _} (r c n : Nat) (elements : Vector F n) : R (Mat F r c n) :=\n  if n ≠ r * c then .error .badDims else .ok ⟨elements⟩", "def Mat.newFromKnown {F : Type _} (r c n : Nat) (elements : Vector F n) : R (Mat F r c n) :=\n  if n < r * c then .error .badDims else .ok ⟨elements⟩", "new_from_known accepts too many elements", "C21")
bug("mat-17", M, "minorMatrix", "      let s ← forRange 0 i (Vector.replicate (d * d) (0 : F), 0) copyRow\n      let (els, _) ← forRange (i + 1) k s copyRow", "      let s ← forRange 0 j (Vector.replicate (d * d) (0 : F), 0) copyRow\n      let (els, _) ← forRange (j + 1) k s copyRow", "minor (i, j) removes row j", "C28 C27")
bug("mat-18", M, "dotProduct", "  if a.length ≠ b.length then .error .vecLen\n  else .ok", "  if a.length < b.length then .error .vecLen\n  else .ok", "dot product silently truncates a longer left operand", "C24")
bug("mat-19", M, "Mat.rowVector", "    let x ← m.get i j\n    aset els j x\n  Mat.new 1 c n rowElements.toList", "    let x ← m.get j i\n    aset els j x\n  Mat.new 1 c n rowElements.toList", "row_vector returns a column", "C29")
bug("mat-20", M, "Mat.inverse", "      let matrixInverse ← adj.scale s\n", "      let matrixInverse ← adj.scale det\n", "adjugate multiplied by the determinant", "C27")
bug("mat-21", M, "determinant", "  | _, 1, m => m.get 0 0\n", "  | _, 1, _ => pure 1\n", "1 x 1 determinant is 1", "C26")

Q = "Model/Params.lean"
bug("par-01", Q, "Alpha.toBytesLe", "  | .inverse => [255, 255, 255, 255]", "  | .inverse => [17, 0, 0, 0]", "inverse S-box encoded like exponent 17", "C33 C34")
bug("par-02", Q, "u32le", "[x % 256, x / 256 % 256, x / 65536 % 256, x / 16777216 % 256]", "[x / 16777216 % 256, x / 65536 % 256, x / 256 % 256, x % 256]", "big-endian exponent bytes", "C33 C19")
bug("par-03", Q, "mdsNew", "  if t ≠ tm1 + 1 then .error .assertFailed\n  else if t * t ≠ n", "  if t * t ≠ n", "MdsMatrix::new does not compare STATE_SIZE and STATE_SIZE_MINUS_1", "C21")
bug("par-04", Q, "mdsV", "((m.elements.toList.take t).drop 1)", "((m.elements.toList.take (t + 1)).drop 2)", "v() off by one", "C30 C36")
bug("par-05", Q, "mdsW", "    let x ← m.get i 0\n", "    let x ← m.get 0 i\n", "w() reads the first row", "C30 C36")
bug("par-06", Q, "mdsHat", "    forRange 1 t s fun j (els, index) => do\n      let x ← m.get i j", "    forRange 1 t s fun j (els, index) => do\n      let x ← m.get j i", "hat() transposed", "C30 C36")
bug("par-07", Q, "RoundNumbers.total", "Nat := x.rP + x.rF", "Nat := x.rP + x.rF / 2", "total counts half of the full rounds", "C50 C37")
bug("par-08", Q, "mdsInverse", "  match ← m.inverse debug with\n  | .ok x => return x", "  match ← m.inverse debug with\n  | .ok _ => return m", "MdsMatrix::inverse returns the matrix itself", "C36 C01")

R = "Model/R1cs.lean"
bug("cs-01", R, "AllocatedFp.mul", "  return (product, enforce a.lc b.lc product.lc cs)", "  return (product, cs)", "multiplication emits no constraint (underconstrained)", "C09 C12 C13")
bug("cs-02", R, "AllocatedFp.mul", "enforce a.lc b.lc product.lc cs)", "enforce a.lc a.lc product.lc cs)", "constraint a*a=c instead of a*b=c", "C09 C10 C13")
bug("cs-03", R, "AllocatedFp.addConstant", "⟨a.value.map (· + c), a.lc ++ [(c, .one)]⟩", "⟨a.value.map (· + c), a.lc⟩", "adding a constant changes the value but not the linear combination", "C09 C10")
bug("cs-04", R, "AllocatedFp.mulConstant", "⟨a.value.map (· * c), a.lc.map fun (k, v) => (k * c, v)⟩", "⟨a.value, a.lc.map fun (k, v) => (k * c, v)⟩", "scaling does not scale the value", "C10")
bug("cs-05", R, "FpVar.sum", "  return FpVar.addConstant (.var v) sumConstants", "  return .var v", "constants dropped from sums", "C09 C10")
bug("cs-06", R, "FpVar.powByConstant", "    if bit then res.mul a cs else return (res, cs)", "    if bit then return (res, cs) else res.mul a cs", "square and multiply with inverted bits", "C09 C10 C12 C13")
bug("cs-07", R, "bitsBE", "((List.range 64).reverse.map", "((List.range 4).reverse.map", "only the low four bits of the exponent", "C09 C12 C13")
bug("cs-08", R, "fullSubWords", "  | .exponent exp => forRange 0 t (s, cs) fun i (s, cs) => do", "  | .exponent exp => forRange 0 (t - 1) (s, cs) fun i (s, cs) => do", "circuit full S-box layer skips the last word", "C09 C12 C13")
bug("cs-09", R, "permute", "  let st ← forRange 0 rp st fun _ st => round p false st\n", "  let st ← forRange 0 rp st fun _ st => round p true st\n", "circuit uses full S-boxes in partial rounds", "C09 C12 C13")
bug("cs-10", R, "nTo1FixedHash", "  let out ← lget s 1\n  return (out, cs)", "  let out ← lget s 0\n  return (out, cs)", "circuit returns word 0", "C09 C10 C13")
bug("cs-11", R, "hash3", "nTo1FixedHash rate3Params #v[ds, v.1, v.2.1, v.2.2] cs", "nTo1FixedHash rate3Params #v[ds, v.2.1, v.1, v.2.2] cs", "circuit hash_3 swaps two inputs", "C13")
bug("cs-12", R, "newWitness", "  if cs.setup then .ok (⟨none, lc⟩, { cs with numWitness := cs.numWitness + 1 })", "  if cs.setup then .ok (⟨none, lc⟩, cs)", "setup mode does not count the witness", "C11")
bug("cs-13", R, "FpVar.mul", "  | .constant c, .var v => .ok (.var (v.mulConstant c), cs)\n", "  | .constant c, .var v => if v.value = some 0 then .ok (.constant 0, cs) else .ok (.var (v.mulConstant c), cs)\n", "value-dependent shortcut: a variable with value 0 becomes a constant", "C11")
bug("cs-14", R, "addRoundConstants", "    let s ← lset s i (x.addConstant k)\n    return (s, counter + 1)", "    let s ← lset s i (x.addConstant k)\n    return (s, counter)", "circuit reuses one constant for the whole state", "C09 C13")
bug("cs-15", R, "AllocatedFp.addmany", "  if l.isEmpty then .error .assertFailed\n  else .ok", "  .ok", "sum of no variables allowed", "C47")
bug("cs-16", R, "mixRow", "    return (terms ++ [p], cs)\n  let r ← FpVar.sum terms", "    return ([p], cs)\n  let r ← FpVar.sum terms", "mix row keeps only the last product", "C09 C10")
bug("cs-17", R, "newWitness", "witnessAssignment := cs.witnessAssignment ++ [v] })", "witnessAssignment := cs.witnessAssignment })", "prover does not store the witness value", "C10")

G = "Model/GenMds.lean"
bug("gm-01", G, "fixedCauchyMatrix", "          let e ← fdiv 1 (xi + yj)\n", "          let e ← fdiv 1 (xi + yi)\n", "Cauchy matrix with constant rows", "C35 C50")
bug("gm-02", G, "fixedCauchyMatrix", "(List.range' input.t input.t).map (Nat.cast)", "(List.range' 0 input.t).map (Nat.cast)", "xs and ys overlap", "C35 C20")
bug("gm-03", G, "fixedCauchyMatrix", "  if numBits input.p < 128 then", "  if numBits input.p < 256 then", "refuses fields below 256 bits", "C50 C20")
bug("gm-04", G, "mdsGenerate", "  if input.p < 2 * input.t then .error .explicit else ", "  if 2 * input.t < input.p then .error .explicit else ", "size check inverted", "C35 C50")
bug("gm-05", G, "prime", "      if i = 0 ∧ j = 0 then return els ++ [1]\n", "      if i = 0 ∧ j = 0 then return els ++ [0]\n", "M_prime has 0 in the corner", "C36")
bug("gm-06", G, "doublePrime", "        let x ← wHat.get (i - 1) 0\n", "        let x ← w.get (i - 1) 0\n", "M_doubleprime uses w instead of w_hat", "C36")
bug("gm-07", G, "calcEquivalentMatrices", "    let mMul ← matMul nmds mT mI\n", "    let mMul ← matMul nmds mI mT\n", "accumulated product in the wrong order", "C36 C01")
bug("gm-08", G, "calcEquivalentMatrices", "    let mI ← mI.transpose\n    return (mI,", "    return (mI,", "M_i not transposed back", "C36 C01")
bug("gm-09", G, "calcEquivalentMatrices", "  let mT ← mds.transpose\n", "  let mT := mds\n", "initial transpose forgotten", "C36 C01")
bug("gm-10", G, "calcEquivalentMatrices", "st.vCollection ++ [v], st.wHatCollection ++ [wHat]⟩", "v :: st.vCollection, wHat :: st.wHatCollection⟩", "sparse factors stored in reverse order", "C36 C01")
bug("gm-11", G, "arcGenerateOptimized", "  forRangeRev rf hi arc (arcStep mdsInv)", "  forRangeRev (rf + 1) hi arc (arcStep mdsInv)", "constant push-back stops one round early", "C01 C20")
bug("gm-12", G, "arcGenerateOptimized", "  let mdsT ← mds.transpose\n  let mdsInv ← mdsInverse debug mdsT", "  let mdsInv ← mdsInverse debug mds", "inverse of mds instead of its transpose (equal for symmetric matrices)", "C01")
bug("gm-13", G, "arcStep", "  setConstantsByRound constants (r + 1) (x :: List.replicate k 0)", "  setConstantsByRound constants (r + 1) (0 :: List.replicate k 0)", "word-0 constant lost when pushing back", "C01 C20")
bug("gm-14", G, "arcStep", "    constants.set r j (curr + d)", "    constants.set r j d", "pushed-back constants overwrite instead of add", "C01 C20")
bug("gm-15", G, "arcGenerateOptimized", "  let hi ← usub rT 1\n", "  let hi ← usub rT 0\n", "starts one round too late", "C01 C20")

A = "Model/GenAlpha.lean"
bug("al-01", A, "alphaCoprimeToPMinusOne", "  let pMinusOne ← usub p one\n", "  let pMinusOne := p\n", "gcd with p instead of p - 1", "C31 C20")
bug("al-02", A, "alphaLoop", "    if candidate % 2 != 0 then do", "    if true then do", "even candidates not skipped (never coprime to p - 1 for odd p)", "")
bug("al-03", A, "depthsInOrder", "  (depths ++ depths45) ++ depths67", "  (depths45 ++ depths) ++ depths67", "deeper candidates tried first", "C32")
bug("al-04", A, "depth5", "[32, 24, 20, 18, 17, 15, 14, 13, 11]", "[32, 24, 20, 18, 15, 14, 13, 11]", "17 missing from the table", "C32 C20")
bug("al-05", A, "depth4", "[16, 12, 10, 9, 7]", "[16, 12, 10, 7, 9]", "depth-4 candidates out of order", "C32")
bug("al-06", A, "alphaGenerate", "  | none => if allowInverse then return .inverse else .error .explicit", "  | none => return .inverse", "inverse S-box chosen although not allowed", "C31 C50")
bug("al-07", A, "alphaCoprimeToPMinusOne", "  return g % p == 1 % p", "  return g % p != 1 % p", "coprimality test inverted", "C31 C32")
bug("al-08", A, "depth7", "  37, 35, 31, 29]", "  37, 35, 31]", "29 missing at depth 7", "C32 C50")

T = "Model/GenTranscript.lean"
bug("tr-01", T, "domainSepMessages", '  (asciiBytes "M", leBytes 8 input.security),\n', '', "security level not absorbed", "C34 C19")
bug("tr-02", T, "domainSepMessages", "[rounds.full % 256]),", "[rounds.partialRounds % 256]),", "r_P absorbed twice, r_F never", "C34 C19")
bug("tr-03", T, "roundConstant", "(numBits p + 135) / 8", "(numBits p + 7) / 8", "constants drawn from too few bytes (biased)", "C19")
bug("tr-04", T, "arcV1Generate", "(rounds.total * input.t)", "(rounds.total * input.t + 1)", "one constant too many", "C19 C48 C20")
bug("tr-05", T, "arcElements", "    return (st.1 ++ [c.1], c.2)", "    return (st.1 ++ [c.1], st.2)", "transcript not advanced: all constants equal", "C19")
bug("tr-06", T, "arcV2Generate", "(rounds.full * input.t + rounds.partialRounds)", "(rounds.full * input.t + rounds.partialRounds * input.t)", "Poseidon2 draws as many constants as Poseidon", "C48 C54")
bug("tr-07", T, "arcElements", "    return (st.1 ++ [c.1], c.2)", "    return (c.1 :: st.1, c.2)", "constants stored in reverse order", "C19 C48")
bug("tr-08", T, "domainSepMessages", '(asciiBytes "t", leBytes 8 input.t)', '(asciiBytes "t", leBytes 1 input.t)', "width truncated to one byte", "C34 C19")
K = "Model/Merlin.lean"
bug("me-01", K, "Strobe.beginOp", "{ s with posBegin := s.pos + 1, curFlags := flags }", "{ s with posBegin := s.pos, curFlags := flags }", "STROBE begin position off by one", "C19")
bug("me-02", K, "appendMessage", "  let s ← s.metaAd dataLen true\n  s.ad message false", "  s.ad message false", "message length not absorbed", "C19")
bug("me-03", K, "rhoOffset", "  | 4 => fun | 0 => 27 | 1 => 20", "  | 4 => fun | 0 => 27 | 1 => 21", "wrong Keccak rotation", "C19")
bug("me-04", K, "challengeBytes", "  let dataLen ← encodeUsizeAsU32 n\n  let s ← s.metaAd label false\n", "  let dataLen ← encodeUsizeAsU32 n\n  let s ← s.metaAd [] false\n", "challenge label ignored", "C19")

F = "Model/GenRounds.lean"
bug("ro-01", F, "roundSearch", "    forRange 4 100 st fun rF st => do", "    forRange 4 7 st fun rF st => do", "search stops at 6 full rounds", "C37")
bug("ro-02", F, "roundSearch", "(candidateCost = st.cost ∧ rF < st.costRf)", "(candidateCost = st.cost ∧ st.costRf < rF)", "ties broken towards more full rounds", "C37")
bug("ro-03", F, "roundSearch", "        if candidateCost < st.cost ∨", "        if st.cost < candidateCost ∨", "keeps the most expensive choice", "C37")
bug("ro-04", F, "applySecurityMargin", "{ rF := r.full + 2,", "{ rF := r.full + 1,", "margin of one full round", "C38 C39 C49")
bug("ro-05", F, "applySecurityMargin", "asUsize ⌈rne (rne 1.075 * rne r.partialRounds)⌉", "asUsize ⌊rne (rne 1.075 * rne r.partialRounds)⌋", "margin rounded down", "C38 C39")
bug("ro-06", F, "statisticalAttackFullRounds", "then 6 else 10", "then 4 else 10", "statistical attack bound 4", "C39 C49")
bug("ro-07", F, "isSecureV1", "  if r.full < statisticalAttackFullRounds L input lp alpha then return false\n  else match alpha with\n    | .exponent _ =>\n      if r.total ≤ algebraicAttackInterpolation L input lp alpha then return false\n      else do\n        let g ← algebraicAttackGrobnerBasisV1 L input lp alpha\n        if r.total ≤ g then return false else return true", "  if r.full < statisticalAttackFullRounds L input lp alpha then return false\n  else match alpha with\n    | .exponent _ =>\n      if r.total < algebraicAttackInterpolation L input lp alpha then return false\n      else do\n        let g ← algebraicAttackGrobnerBasisV1 L input lp alpha\n        if r.total ≤ g then return false else return true", "interpolation bound not strict", "C39")
bug("ro-08", F, "binomialLoop", "    let acc := acc * u / (i + 1)\n", "    let acc := acc * (u / (i + 1))\n", "division before multiplication truncates", "C40")
bug("ro-09", F, "binomialLoop", "if security ≤ 2 * numBits acc", "if security < 2 * numBits acc", "boundary of the Groebner check", "C40")
bug("ro-10", F, "log2Loop", "log2Loop (p >>> 48) (boundaries + 48)", "log2Loop (p >>> 48) (boundaries + 47)", "one bit lost per block", "C43 C39")
bug("ro-11", F, "isSecureV2", "          if possible then return false else return true", "          if possible then return true else return false", "Poseidon2 test inverted", "C54")
bug("ro-12", F, "isSecureV2", "        if r.total ≤ g then return false\n        else do", "        if false then return false\n        else do", "Poseidon2 test forgets the first Groebner bound", "C54")
bug("ro-13", F, "roundsV1Generate", "  if 256 < input.security then", "  if 256 ≤ input.security then", "M = 256 refused", "C50")
bug("ro-14", F, "sboxCount", "t * r.full + r.partialRounds", "r.full + t * r.partialRounds", "S-box count swaps full and partial rounds", "C37 C39")
bug("ro-15", F, "inverseRounds", "  asUsize ⌊rne (rne r.full * L.log2 (rne input.t))⌋ + r.partialRounds", "  asUsize ⌊rne (rne r.full * L.log2 (rne input.t))⌋", "inverse S-box: partial rounds not counted", "C50")
bug("ro-16", F, "algebraicAttackGrobnerBasisV1", "    let grobner2 : ℝ := rne (rne t1 + minArg)\n    return asUsize ⌊max grobner1 grobner2⌋", "    let grobner2 : ℝ := rne (rne t1 + minArg)\n    return asUsize ⌊min grobner1 grobner2⌋", "minimum of the Groebner bounds", "C39")
bug("fl-01", "Model/GenFloat.lean", "ulpExp", "Int.log 2 |x| - 52", "Int.log 2 |x| - 3", "four-bit floats", "C38 C39")
bug("fl-02", "Model/GenFloat.lean", "roundEven", "  else if ⌊y⌋ % 2 = 0 then ⌊y⌋ else ⌊y⌋ + 1", "  else ⌊y⌋", "ties rounded down", "")

V = "Model/GenV1.lean"
bug("v1-01", V, "v1Generate", "  let optimizedArc ← arcGenerateOptimized debug arc mds rounds\n", "  let optimizedArc := arc\n", "optimized constants are the plain ones", "C01 C20 C51")
bug("v1-02", V, "v1Generate", "  let arc ← arcV1Generate F nlimbs rows nround input rounds alpha\n", "  let arc ← arcV1Generate F nlimbs rows nround input rounds (.exponent 5)\n", "constants bound to exponent 5", "C20")
bug("v1-03", V, "v1Generate", "  return { security := input.security, alpha, rounds, mds, arc, optimizedMds, optimizedArc }", "  return { security := 80, alpha, rounds, mds, arc, optimizedMds, optimizedArc }", "security level not recorded", "C20")
bug("v1-04", V, "v1Generate", "  let alpha ← alphaGenerate p allowInverse\n", "  let alpha ← alphaGenerate p true\n", "allow_inverse ignored", "C50")
W = "Model/GenV2.lean"
bug("v2-01", W, "internalGenerate", "[2, 1, 1, 3]", "[2, 1, 1, 2]", "width-2 matrix wrong", "C41 C53 C54")
bug("v2-02", W, "internalGenerate", "[2, 1, 1, 1, 2, 1, 1, 1, 3]", "[2, 1, 1, 1, 2, 1, 1, 1, 1]", "width-3 matrix wrong", "C41 C54")
bug("v2-03", W, "externalGenerate", "              matrix.set (i * 4 + row) (j * 4 + col) (2 * x)", "              matrix.set (i * 4 + row) (j * 4 + col) x", "diagonal blocks not doubled", "C42 C52")
bug("v2-04", W, "externalGenerate", "  else if t % 4 ≠ 0 then .error .explicit\n", "", "widths not divisible by 4 accepted", "C42")
bug("v2-05", W, "m4Elements", "[5, 7, 1, 3, 4, 6, 1, 1, 1, 3, 5, 7, 1, 1, 4, 6]", "[5, 7, 1, 3, 4, 6, 1, 1, 1, 3, 5, 7, 1, 1, 6, 4]", "M4 with swapped entries", "C42 C52")
bug("v2-06", W, "v2Generate", "  let rounds ← roundsV2Generate L input logP alpha\n", "  let rounds ← roundsV1Generate L input logP alpha\n", "v1 round numbers in v2 (equal for the curve's field)", "")
bug("v2-07", W, "v2Generate", "internal := mi, external := mi }", "internal := mi, external := ⟨Vector.replicate _ 1⟩ }", "wrong external matrix for small widths", "C54")
bug("v2-08", W, "externalGenerate", "              matrix.set (i * 4 + row) (j * 4 + col) x", "              matrix.set (i * 4 + col) (j * 4 + row) x", "off-diagonal blocks transposed", "C42")
bug("v2-09", W, "internalGenerate", "  match ← m.inverse debug with\n  | .ok _ => return m", "  match ← m.inverse debug with\n  | .ok i => return i", "returns the inverse", "C41")
X = "Model/GenBuild.lean"
bug("bu-01", X, "decimal", "decimal (n / 10) ++ [digitChar (n % 10)]", "[digitChar (n % 10)] ++ decimal (n / 10)", "digits reversed", "C44")
bug("bu-02", X, "serializeSliceF", "  (elements.foldl pushElement \"vec![\".toList).dropLast.dropLast ++ [']']", "  (elements.foldl pushElement \"vec![\".toList).dropLast.dropLast.dropLast ++ [']']", "one character too many removed", "C44")
bug("bu-03", X, "displayOptimizedMds", '",\\n                v: ".toList ++ displayMatrix o.v', '",\\n                v: ".toList ++ displayMatrix o.w', "w printed as v", "C44")
bug("bu-04", X, "displayMatrix", 'decimal r ++ ", ".toList ++ decimal c ++ ", ".toList ++\n    serializeSliceF m.elements.toList ++ ")".toList\n\n/-- `DisplayableSquareMatrix`', 'decimal c ++ ", ".toList ++ decimal r ++ ", ".toList ++\n    serializeSliceF m.elements.toList ++ ")".toList\n\n/-- `DisplayableSquareMatrix`', "dimensions swapped", "C44")
bug("bu-05", X, "displayParams", 'decimal P.rounds.partialRounds ++ ", r_F: ".toList ++\n    decimal P.rounds.full', 'decimal P.rounds.full ++ ", r_F: ".toList ++\n    decimal P.rounds.partialRounds', "round numbers swapped", "C44")
bug("bu-06", X, "displayAlpha", '  | .inverse => "Alpha::Inverse".toList', '  | .inverse => "Alpha::Exponent(0)".toList', "inverse printed as exponent 0", "C44")
bug("bu-07", X, "arcRows", "      let x ← m.get i j\n      return row ++ [x]", "      let x ← m.get i j\n      return x :: row", "rows of constants reversed", "C44")
bug("bu-08", X, "v1Compile", "      return code ++ text\n", "      return text\n", "only the last width is written", "C44")
bug("bu-09", X, "serializeF", "def serializeF (x : ZMod p) : List Char :=\n  \"F::from_str(\\\"\".toList ++ decimal x.val", "def serializeF (x : ZMod p) : List Char :=\n  \"F::from_str(\\\"\".toList ++ decimal (x.val % 2 ^ 64)", "M_00 truncated to 64 bits", "C44")
bug("bu-10", X, "displayParams", "  let oarc ← displayOptimizedArc P.optimizedArc\n", "  let oarc ← displayOptimizedArc P.arc\n", "plain constants printed as optimized ones", "C44")
bug("bu-11", X, "v2Compile", "    fun t _ => do\n      let _ ← gen t\n      .error .unimplemented", "    fun t code => do\n      let _ ← gen t\n      return code", "v2_compile silently writes nothing", "C55")

S = "Model/Basic.lean"
bug("ba-01", S, "loopN", "  | n + 1, i, s => body i s >>= loopN body n (i + 1)", "  | n + 1, i, s => body i s >>= loopN body n i", "loop index not advanced", "C01 C02 C23")
bug("ba-02", S, "usub", "if b ≤ a then .ok (a - b) else .error .underflow", ".ok (a - b)", "subtraction saturates", "C46")
bug("ba-03", S, "fdiv", "if b = 0 then .error .divZero else .ok (a * b⁻¹)", ".ok (a * b⁻¹)", "division by zero gives zero", "C51")
bug("ba-04", S, "aget", "  if h : i < n then .ok v[i] else .error .indexOOB", "  if h : n - 1 - i < n then .ok v[n - 1 - i] else .error .indexOOB", "arrays read backwards", "C22 C02")
Z = "Model/Tables.lean"
bug("ta-01", Z, "Limbs.toFq", "(l.raw : Fq) * ((2 ^ 256 : Nat) : Fq)⁻¹", "(l.raw : Fq)", "Montgomery factor forgotten", "C14 C17 C19 C20")
bug("ta-02", Z, "toParams", "    rounds := { rP := 31, rF := 8 }", "    rounds := { rP := 30, rF := 8 }", "30 partial rounds shipped", "C02 C12 C20")
bug("ta-03", Z, "toParams", "    alpha := .exponent 17", "    alpha := .exponent 5", "exponent 5 shipped (not a permutation)", "C04 C05 C20")
bug("ta-04", Z, "toParams", "        mI := ⟨vecOf _ r.mI hw.2.2.2.2.2.2.2.2.2.1⟩", "        mI := ⟨vecOf _ r.mPrime hw.2.2.2.2.2.1⟩", "M_prime shipped as M_i", "C17 C20 C02")
# single table entries
def table(i, rate, name, nth, edit, claims):
    f = f"Params/Rate{rate}.lean"
    txt = (pathlib.Path(__file__).resolve().parent.parent / "lean/Verif" / f).read_text()
    part = txt[txt.index(f"def rate{rate}_{name} "):]
    rows = [l for l in part.split("\n")[1:nth + 2] if l.strip().startswith("⟨")]
    old = rows[nth]
    l0 = old.strip().strip("⟨⟩,").split(",")[0]
    assert txt.count(old) >= 1, (i, old)
    B.append({"id": i, "file": f, "definition": f"rate{rate}_{name}", "edits": [{"file": f, "old": old, "new": old.replace(l0, str(int(l0) ^ 1)), "count": txt.count(old)}], "edit": edit, "claims": claims.split()})
table("tb-01", 3, "arc", 77, "lowest bit of one round constant flipped", "C19 C20 C02")
table("tb-02", 5, "mds", 7, "lowest bit of one MDS entry flipped", "C14 C17 C20")
table("tb-03", 2, "optimizedArc", 40, "lowest bit of one optimized constant flipped", "C02 C20")
table("tb-04", 7, "mInverse", 10, "lowest bit of one entry of M_inverse flipped", "C17 C20")
root = pathlib.Path(__file__).resolve().parent.parent
import random
random.Random(1).shuffle(B)
json.dump(B, open(root / "seeded/bugs.json", "w"), indent=1, ensure_ascii=False)
for b in B:
    for e in b["edits"]:
        s = (root / "lean/Verif" / e["file"]).read_text()
        if s.count(e["old"]) != e["count"]:
            print("BAD", b["id"], s.count(e["old"]))
print(len(B))
