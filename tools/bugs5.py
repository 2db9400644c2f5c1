#!/usr/bin/env python3
"""The fifth list of seeded bugs: evaluation domain, key generator, prover, verifier, the shipped key (writes seeded/bugs5.json, the
input of seed.py)."""
import json, pathlib
B = []
def bug(i, file, definition, old, new, edit, claims, count=1):
    B.append({"id": i, "file": file, "definition": definition, "edits": [{"file": file, "old": old, "new": new, "count": count}], "edit": edit, "claims": claims.split()})

G = "Model/Groth16.lean"
bug("gp-01", G, "Domain.vanishing", "x ^ d.size - d.offset ^ d.size", "x ^ d.size - 1", "vanishing polynomial of the coset is that of the domain (agrees for offset 1: harmless)", "")
bug("gp-02", G, "Domain.fft", "(d.offset * d.gen ^ i) ^ k", "(d.gen ^ i) ^ k", "coset offset forgotten in the transform", "C87")
bug("gp-03", G, "Domain.ifft", "((d.size : F)⁻¹ * (d.offset⁻¹) ^ k)", "((d.offset⁻¹) ^ k)", "no division by the size", "C87")
bug("gp-04", G, "Domain.ifft", "((d.size : F)⁻¹ * (d.offset⁻¹) ^ k)", "((d.size : F)⁻¹)", "offset not divided out", "C87")
bug("gp-05", G, "Domain.ifft", "x.getD i 0 * (d.gen⁻¹) ^ (i * k)", "x.getD i 0 * d.gen ^ (i * k)", "inverse transform with the generator instead of its inverse", "C87")
bug("gp-06", G, "Domain.lagrange", "if d.offset * d.gen ^ i = t then 1 else 0", "if d.offset * d.gen ^ i = t then 0 else 1", "Lagrange values on the domain inverted", "C87")
bug("gp-07", G, "Domain.lagrange", "(l * (d.gen⁻¹) ^ i * (t - d.offset * d.gen ^ i))⁻¹", "(l * d.gen ^ i * (t - d.offset * d.gen ^ i))⁻¹", "Lagrange coefficients with the wrong power", "C86 C87")
bug("gp-08", G, "Domain.lagrange", "if z = 0 then (List.range d.size)", "if z = 1 then (List.range d.size)", "secret point on the domain not treated apart", "C87")
bug("gp-09", G, "addRow", "(y + u * x.1)", "(u * x.1)", "column entries overwritten instead of added", "C86 C87")
bug("gp-10", G, "addRow", "(y + u * x.1)", "(y + u)", "coefficients ignored", "C87")
bug("gp-11", G, "instanceMap", "let x ← lget u (i + numConstraints)", "let x ← lget u i", "rows of the public variables collide with constraints", "C86 C87")
bug("gp-12", G, "instanceMap", "let b ← addRows u M.b zeros", "let b ← addRows u M.a zeros", "first matrix used twice", "C86 C87")
bug("gp-13", G, "instanceMap", "let c ← addRows u M.c zeros", "let c ← addRows u M.b zeros", "second matrix used for the third", "C87")
bug("gp-14", G, "instanceMap", "return ⟨a, b, c, d.vanishing t⟩", "return ⟨a, b, c, t ^ d.size⟩", "vanishing polynomial without the one", "C87")
bug("gp-15", G, "evaluateConstraint", "return acc + y * x.1", "return acc + y", "coefficients ignored by the prover", "C87")
bug("gp-16", G, "rowValues", "return acc ++ [y]", "return y :: acc", "rows evaluated in reverse", "C87")
bug("gp-17", G, "witnessMap", "let a := a ++ z.take numInstance", "let a := a", "prover forgets the rows of the public variables", "C87")
bug("gp-18", G, "witnessMap", "let ab := List.zipWith (· * ·) a b\n", "let ab := List.zipWith (· * ·) a a\n", "product of the first matrix with itself", "C87")
bug("gp-19", G, "witnessMap", "let inv := (d.vanishing g)⁻¹", "let inv := d.vanishing g", "multiplied instead of divided", "C87")
bug("gp-20", G, "witnessMap", "return coset.ifft ab", "return d.ifft ab", "interpolated on the domain, not the coset", "C87")
bug("gp-21", G, "combine", "(w.beta * x.1 + w.alpha * x.2 + y) * inverse", "(w.alpha * x.1 + w.beta * x.2 + y) * inverse", "alpha and beta swapped", "C87")
bug("gp-22", G, "generateParameters", "combine w w.gamma⁻¹ (qap.a.take", "combine w w.delta⁻¹ (qap.a.take", "delta for gamma", "C87")
bug("gp-23", G, "generateParameters", "(List.range (d.size - 1)).map fun i => qap.zt", "(List.range (d.size - 2)).map fun i => qap.zt", "one power of the secret point missing", "C86 C87")
bug("gp-24", G, "generateParameters", "(List.range (d.size - 1)).map fun i => qap.zt", "(List.range d.size).map fun i => qap.zt", "one power of the secret point too many", "C86")
bug("gp-25", G, "generateParameters", "w.delta⁻¹ * w.tau ^ i", "w.delta⁻¹ * w.tau ^ (i + 1)", "powers of the secret point shifted", "C87")
bug("gp-26", G, "generateParameters", "  if w.delta = 0 then .error .unwrapNone\n  let gammaAbc", "  let gammaAbc", "zero delta accepted", "C87")
bug("gp-27", G, "generateParameters", "bG2Query := qap.b.map (· • g2)", "bG2Query := qap.a.map (· • g2)", "wrong columns in the second group", "C86 C87")
bug("gp-28", G, "setup", "let cs ← Sym.generateConstraints c (Sym.CS.new Fq true)", "let cs ← Sym.generateConstraints c (Sym.CS.new Fq false)", "key made in prover mode (the matrices are the same: harmless)", "")
bug("gp-29", G, "calculateCoeff", "return initial + el + msm (query.drop 1) z + vkParam", "return initial + msm (query.drop 1) z + vkParam", "constant column forgotten", "C87")
bug("gp-30", G, "calculateCoeff", "msm (query.drop 1) z", "msm query z", "assignment shifted by one", "C87")
bug("gp-31", G, "createProof", "let assignment := input ++ aux", "let assignment := aux ++ input", "public and private values swapped", "C87")
bug("gp-32", G, "createProof", "calculateCoeff (r • pk.deltaG1) pk.aQuery", "calculateCoeff (s • pk.deltaG1) pk.aQuery", "same randomness in both parts", "C87")
bug("gp-33", G, "createProof", "- (r * s) • pk.deltaG1 + lAuxAcc + hAcc", "+ lAuxAcc + hAcc", "cross term of the randomness not removed", "C87")
bug("gp-34", G, "createProof", "+ lAuxAcc + hAcc", "+ lAuxAcc", "quotient forgotten", "C87")
bug("gp-35", G, "createProof", "if r = 0 then .ok 0 else", "if s = 0 then .ok 0 else", "shortcut on the wrong randomness", "C87")
bug("gp-36", G, "isSatisfied", "return List.zipWith (· * ·) a b = c", "return List.zipWith (· + ·) a b = c", "sum checked instead of product", "C87")
bug("gp-37", G, "prove", "if debug && !ok then", "if debug && ok then", "assertion inverted", "C87")
bug("gp-38", G, "prove", "if debug && !ok then", "if !ok then", "checked in release builds too", "C87")
bug("gp-39", G, "prove", "createProof pk r s h (cs.instanceAssignment.drop 1) cs.witnessAssignment", "createProof pk r s h cs.instanceAssignment cs.witnessAssignment", "the constant passed as a public input", "C87")
bug("gp-40", G, "prepareInputs", "  if inputs.length + 1 ≠ vk.gammaAbcG1.length then .error .unwrapNone\n", "", "number of public inputs not checked", "C87")
bug("gp-41", G, "prepareInputs", "return g + msm (vk.gammaAbcG1.drop 1) inputs", "return msm (vk.gammaAbcG1.drop 1) inputs", "constant forgotten by the verifier", "C87")
bug("gp-42", G, "verify", "e prepared (-vk.gammaG2)", "e prepared (-vk.deltaG2)", "public inputs paired with delta", "C87")
bug("gp-43", G, "verify", "e p.a p.b + e prepared (-vk.gammaG2) + e p.c (-vk.deltaG2) = e vk.alphaG1 vk.betaG2", "e p.a p.b + e p.c (-vk.deltaG2) = e vk.alphaG1 vk.betaG2 ∨ 0 = 0", "verifier accepts everything", "C87")
bug("gp-44", G, "testOutputs", "let y2 ← Poseidon.hash3 R1cs.testDomainSep (v[0], v[1], v[2])", "let y2 ← Poseidon.hash3 R1cs.testDomainSep (v[0], v[2], v[1])", "arguments swapped in the test's outputs", "C87")
bug("gp-45", G, "testOutputs", "return #v[y0, y1, y2, y3, y4, y5, y6]", "return #v[y0, y1, y2, y3, y4, y6, y5]", "two claimed outputs swapped", "C87")
bug("gp-46", G, "happyPath", "let proofResult ← verify e vk y.toList proof\n", "let proofResult ← verify e vk v.toList proof\n", "verified against the preimages", "C87")
bug("gp-47", G, "unhappyPath", "(Vector.replicate 7 (y[0] + 1)).toList", "(Vector.replicate 7 y[0]).toList", "wrong outputs no longer surely wrong", "C87")
bug("gp-48", G, "instanceMap and witnessMap", "    R1cs.lset a i x\n  let a ← addRows u M.a a", "    R1cs.lset a i 0\n  let a ← addRows u M.a a", "no rows for the public variables: proofs fit other public inputs", "C87")
B[-1]["edits"].append({"file": G, "old": "let a := a ++ z.take numInstance", "new": "let a := a", "count": 1})
K = "Model/KeyShape.lean"
bug("ks-01", K, "shippedKey", "hQuery := 4095", "hQuery := 4096", "one point more", "C86")
bug("ks-02", K, "shippedKey", "lQuery := 2457", "lQuery := 2456", "one private column fewer", "C86")
bug("ks-03", K, "shippedKey", "aZero := 0x0", "aZero := 0x1", "constant column not used", "C86")
bug("ks-04", K, "shippedKey", "bG1Zero := 0x18c6", "bG1Zero := 0x08c6", "one column less without right factor", "C86")
bug("ks-05", K, "shippedKey", "same := 0x739c", "same := 0x739d", "one more equal pair", "C86")
bug("zk-01", G, "createProof", "calculateCoeff (r • pk.deltaG1) pk.aQuery", "calculateCoeff 0 pk.aQuery", "first randomness left out everywhere: proofs still accepted", "C88")
B[-1]["edits"].append({"file": G, "old": "s • gA + r • g1B - (r * s) • pk.deltaG1 +", "new": "s • gA +", "count": 1})
bug("zk-02", G, "createProof", "calculateCoeff (s • pk.vk.deltaG2) pk.bG2Query", "calculateCoeff 0 pk.bG2Query", "second randomness left out everywhere: proofs still accepted", "C88")
B[-1]["edits"].append({"file": G, "old": "s • gA + r • g1B - (r * s) • pk.deltaG1 +", "new": "r • g1B +", "count": 1})
B[-1]["edits"].append({"file": G, "old": "calculateCoeff (s • pk.deltaG1) pk.bG1Query", "new": "calculateCoeff 0 pk.bG1Query", "count": 1})
bug("zk-03", G, "prove", "createProof pk r s h", "createProof pk r r h", "same random number twice: proofs still accepted", "C88")
bug("sd-01", G, "generateParameters", "combine w w.gamma⁻¹ (qap.a.take", "combine w w.delta⁻¹ (qap.a.take", "gamma equal to delta in the key: proofs accepted, but anyone can forge", "C89")
B[-1]["edits"].append({"file": G, "old": "w.gamma • g2, w.delta • g2", "new": "w.delta • g2, w.delta • g2", "count": 1})
bug("sd-02", G, "combine", "(w.beta * x.1 + w.alpha * x.2 + y) * inverse", "(w.beta * x.1 + w.beta * x.2 + y) * inverse", "alpha equal to beta in the key: the two factors can be exchanged", "C89")
B[-1]["edits"].append({"file": G, "old": "⟨w.alpha • g1, w.beta • g2,", "new": "⟨w.beta • g1, w.beta • g2,", "count": 1})
json.dump(B, open(pathlib.Path(__file__).resolve().parent.parent / "seeded" / "bugs5.json", "w"), indent=0, ensure_ascii=False)
print(len(B))
