import Verif.Model.Symbolic
import Verif.Model.Hash

/-!
# Model of the proof system used by the tests

`poseidon-tests` generates a key for `PreimageCircuit`, proves and verifies with `Groth16<Bls12_377, LibsnarkReduction>` of
`ark-groth16` 0.4.  This file models key generation, prover and verifier, from the published source of that library.

Simplifications.  The pairing groups are modules over the scalar field with a bilinear map, all written additively.  The fast
Fourier transforms are the sums they compute.  Running products of a loop are written as powers.  Errors of type `SynthesisError`
are panics: the tests unwrap them.
-/

namespace Poseidon.Groth16

open Poseidon.Sym (Matrices)

variable {F : Type} [Field F] [DecidableEq F]

/-! ## Evaluation domains (`ark-poly`) -/

/-- `Radix2EvaluationDomain`: the points `offset * gen ^ i`, `i < size`.  Library type, used under poseidon377_r1cs.rs:167, 199. -/
structure Domain (F : Type) where
  size : Nat
  gen : F
  offset : F

/-- `EvaluationDomain::get_coset`.  Library code under poseidon377_r1cs.rs:199. -/
def Domain.coset (d : Domain F) (g : F) : Domain F := { d with offset := g }

/-- `EvaluationDomain::evaluate_vanishing_polynomial`.  Library code under poseidon377_r1cs.rs:167, 199. -/
def Domain.vanishing (d : Domain F) (x : F) : F := x ^ d.size - d.offset ^ d.size

/-- `EvaluationDomain::fft_in_place`: the values of the polynomial with coefficients `c`.
Simplified: the sums, not the butterflies.  Library code under poseidon377_r1cs.rs:199. -/
def Domain.fft (d : Domain F) (c : List F) : List F :=
  (List.range d.size).map fun i => ((List.range d.size).map fun k => c.getD k 0 * (d.offset * d.gen ^ i) ^ k).sum

/-- `EvaluationDomain::ifft_in_place`: the coefficients of the polynomial with values `x`.
Simplified: the sums, not the butterflies.  Library code under poseidon377_r1cs.rs:199. -/
def Domain.ifft (d : Domain F) (x : List F) : List F :=
  (List.range d.size).map fun k =>
    ((d.size : F)⁻¹ * (d.offset⁻¹) ^ k) * ((List.range d.size).map fun i => x.getD i 0 * (d.gen⁻¹) ^ (i * k)).sum

/-- `EvaluationDomain::evaluate_all_lagrange_coefficients`.  Library code under poseidon377_r1cs.rs:167. -/
def Domain.lagrange (d : Domain F) (t : F) : List F :=
  let z := d.vanishing t
  if z = 0 then (List.range d.size).map fun i => if d.offset * d.gen ^ i = t then 1 else 0
  else
    let l := z⁻¹ * ((d.size : F) * d.offset ^ (d.size - 1))
    (List.range d.size).map fun i => (l * (d.gen⁻¹) ^ i * (t - d.offset * d.gen ^ i))⁻¹

/-! ## `LibsnarkReduction` -/

/-- `for (coeff, index) in row { column[index] += u * coeff }`, one row of `instance_map_with_evaluation`.
Library code under poseidon377_r1cs.rs:167. -/
def addRow (u : F) (row : List (F × Nat)) (col : List F) : R (List F) :=
  forList row col fun x col => do
    let y ← lget col x.2
    R1cs.lset col x.2 (y + u * x.1)

/-- The loop over the rows for one of the three matrices.  Library code under poseidon377_r1cs.rs:167. -/
def addRows (u : List F) (rows : List (List (F × Nat))) (col : List F) : R (List F) :=
  forList (rows.zip u) col fun x col => addRow x.2 x.1 col

/-- What `instance_map_with_evaluation` returns: the polynomials of the variables at the point `t`, and `t ^ size - 1`.
Library type, used under poseidon377_r1cs.rs:167. -/
structure Qap (F : Type) where
  a : List F
  b : List F
  c : List F
  zt : F

/-- `LibsnarkReduction::instance_map_with_evaluation`.  Library code under poseidon377_r1cs.rs:167. -/
def instanceMap (d : Domain F) (M : Matrices F) (numInstance numWitness : Nat) (t : F) : R (Qap F) := do
  let numConstraints := M.a.length
  let u := d.lagrange t
  let zeros : List F := List.replicate (numInstance + numWitness) 0
  let a ← forRange 0 numInstance zeros fun i a => do
    let x ← lget u (i + numConstraints)
    R1cs.lset a i x
  let a ← addRows u M.a a
  let b ← addRows u M.b zeros
  let c ← addRows u M.c zeros
  return ⟨a, b, c, d.vanishing t⟩

/-- `evaluate_constraint`.  Library code under poseidon377_r1cs.rs:199. -/
def evaluateConstraint (row : List (F × Nat)) (z : List F) : R F :=
  forList row 0 fun x acc => do
    let y ← lget z x.2
    return acc + y * x.1

/-- The values of the rows of one matrix, `vec![zero; domain_size]` with its first `num_constraints` entries replaced.
Library code under poseidon377_r1cs.rs:199. -/
def rowValues (rows : List (List (F × Nat))) (z : List F) : R (List F) :=
  forList rows [] fun row acc => do
    let y ← evaluateConstraint row z
    return acc ++ [y]

/-- `LibsnarkReduction::witness_map_from_matrices`; `g` is `F::GENERATOR`, `z` the full assignment.
Vectors are shorter than the domain where the library fills them with zeros: `ifft` does the same.
Library code under poseidon377_r1cs.rs:199. -/
def witnessMap (d : Domain F) (g : F) (M : Matrices F) (numInstance : Nat) (z : List F) : R (List F) := do
  let a ← rowValues M.a z
  let b ← rowValues M.b z
  let a := a ++ z.take numInstance
  let coset := d.coset g
  let a := coset.fft (d.ifft a)
  let b := coset.fft (d.ifft b)
  let ab := List.zipWith (· * ·) a b
  let c ← rowValues M.c z
  let c := coset.fft (d.ifft c)
  if d.vanishing g = 0 then .error .unwrapNone
  let inv := (d.vanishing g)⁻¹
  let ab := List.zipWith (fun x y => (x - y) * inv) ab c
  return coset.ifft ab

/-! ## Keys -/

variable {G1 G2 GT : Type} [AddCommGroup G1] [Module F G1] [AddCommGroup G2] [Module F G2] [AddCommGroup GT] [Module F GT]

/-- `VerifyingKey`, the type of poseidon377_r1cs.rs:33-37 -/
structure VerifyingKey (G1 G2 : Type) where
  alphaG1 : G1
  betaG2 : G2
  gammaG2 : G2
  deltaG2 : G2
  gammaAbcG1 : List G1

/-- `ProvingKey`, the type of poseidon377_r1cs.rs:27-31 -/
structure ProvingKey (G1 G2 : Type) where
  vk : VerifyingKey G1 G2
  betaG1 : G1
  deltaG1 : G1
  aQuery : List G1
  bG1Query : List G1
  bG2Query : List G2
  hQuery : List G1
  lQuery : List G1

/-- The secrets drawn by the key generator.  Library code under poseidon377_r1cs.rs:167. -/
structure Secrets (F : Type) where
  alpha : F
  beta : F
  gamma : F
  delta : F
  tau : F

/-- `(beta * a + alpha * b + c) * inverse` for each variable.  Library code under poseidon377_r1cs.rs:167. -/
def combine (w : Secrets F) (inverse : F) (a b c : List F) : List F :=
  List.zipWith (fun (x : F × F) y => (w.beta * x.1 + w.alpha * x.2 + y) * inverse) (a.zip b) c

/-- `generate_parameters_with_qap` from `instance_map_with_evaluation` on.  Library code under poseidon377_r1cs.rs:167. -/
def generateParameters (d : Domain F) (g1 : G1) (g2 : G2) (w : Secrets F) (M : Matrices F) (numInstance numWitness : Nat) :
    R (ProvingKey G1 G2) := do
  let qap ← instanceMap d M numInstance numWitness w.tau
  if w.gamma = 0 then .error .unwrapNone
  if w.delta = 0 then .error .unwrapNone
  let gammaAbc := combine w w.gamma⁻¹ (qap.a.take numInstance) (qap.b.take numInstance) (qap.c.take numInstance)
  let l := combine w w.delta⁻¹ (qap.a.drop numInstance) (qap.b.drop numInstance) (qap.c.drop numInstance)
  let h := (List.range (d.size - 1)).map fun i => qap.zt * w.delta⁻¹ * w.tau ^ i
  return {
    vk := ⟨w.alpha • g1, w.beta • g2, w.gamma • g2, w.delta • g2, gammaAbc.map (· • g1)⟩
    betaG1 := w.beta • g1
    deltaG1 := w.delta • g1
    aQuery := qap.a.map (· • g1)
    bG1Query := qap.b.map (· • g1)
    bG2Query := qap.b.map (· • g2)
    hQuery := h.map (· • g1)
    lQuery := l.map (· • g1) }

/-- `Groth16::circuit_specific_setup` for the circuit of the tests, poseidon-tests/tests/poseidon377_r1cs.rs:161-170 -/
def setup (d : Domain Fq) [Module Fq G1] [Module Fq G2] (g1 : G1) (g2 : G2) (w : Secrets Fq) (c : R1cs.PreimageCircuit) :
    R (ProvingKey G1 G2) := do
  let cs ← Sym.generateConstraints c (Sym.CS.new Fq true)
  let M ← cs.toMatrices
  generateParameters d g1 g2 w M cs.numInstance cs.numWitness

/-! ## Prover -/

/-- `Proof`.  Library type, used in poseidon377_r1cs.rs:199-207. -/
structure Proof (G1 G2 : Type) where
  a : G1
  b : G2
  c : G1

/-- `VariableBaseMSM::msm_bigint`: the shorter of the two lists decides.  Library code under poseidon377_r1cs.rs:199. -/
def msm {G : Type} [AddCommGroup G] [Module F G] (bases : List G) (scalars : List F) : G :=
  (List.zipWith (fun b x => x • b) bases scalars).sum

/-- `calculate_coeff`.  Library code under poseidon377_r1cs.rs:199. -/
def calculateCoeff {G : Type} [AddCommGroup G] [Module F G] (initial : G) (query : List G) (vkParam : G) (z : List F) : R G := do
  let el ← lget query 0
  return initial + el + msm (query.drop 1) z + vkParam

/-- `create_proof_with_assignment`; `input` is the assignment of the public variables without the constant, `aux` that of the
private ones.  Library code under poseidon377_r1cs.rs:199. -/
def createProof (pk : ProvingKey G1 G2) (r s : F) (h input aux : List F) : R (Proof G1 G2) := do
  let hAcc := msm pk.hQuery h
  let lAuxAcc := msm pk.lQuery aux
  let assignment := input ++ aux
  let gA ← calculateCoeff (r • pk.deltaG1) pk.aQuery pk.vk.alphaG1 assignment
  let g1B ← if r = 0 then .ok 0 else calculateCoeff (s • pk.deltaG1) pk.bG1Query pk.betaG1 assignment
  let g2B ← calculateCoeff (s • pk.vk.deltaG2) pk.bG2Query pk.vk.betaG2 assignment
  return ⟨gA, g2B, s • gA + r • g1B - (r * s) • pk.deltaG1 + lAuxAcc + hAcc⟩

/-- `ConstraintSystem::is_satisfied`.  Simplified: on the matrices instead of the symbolic combinations.
Library code under poseidon377_r1cs.rs:199. -/
def isSatisfied (M : Matrices F) (z : List F) : R Bool := do
  let a ← rowValues M.a z
  let b ← rowValues M.b z
  let c ← rowValues M.c z
  return List.zipWith (· * ·) a b = c

/-- `Groth16::prove` for the circuit of the tests, poseidon-tests/tests/poseidon377_r1cs.rs:199.  `debug` says whether the library
is compiled with `debug_assert!(cs.is_satisfied().unwrap())`, as in `cargo test`; `r` and `s` are drawn by the prover. -/
def prove (debug : Bool) (d : Domain Fq) (g : Fq) [Module Fq G1] [Module Fq G2] (pk : ProvingKey G1 G2) (r s : Fq)
    (c : R1cs.PreimageCircuit) : R (Proof G1 G2) := do
  let cs ← Sym.generateConstraints c (Sym.CS.new Fq false)
  let M ← cs.toMatrices
  let z := cs.instanceAssignment ++ cs.witnessAssignment
  let ok ← isSatisfied M z
  if debug && !ok then .error .assertFailed
  let h ← witnessMap d g M cs.numInstance z
  createProof pk r s h (cs.instanceAssignment.drop 1) cs.witnessAssignment

/-! ## Verifier -/

/-- `prepare_inputs`.  Library code under poseidon377_r1cs.rs:207. -/
def prepareInputs (vk : VerifyingKey G1 G2) (inputs : List F) : R G1 := do
  if inputs.length + 1 ≠ vk.gammaAbcG1.length then .error .unwrapNone
  let g ← lget vk.gammaAbcG1 0
  return g + msm (vk.gammaAbcG1.drop 1) inputs

/-- `process_vk` and `verify_with_processed_vk`, poseidon-tests/tests/poseidon377_r1cs.rs:204-207 and 238-241; `e` is the
pairing, `GT` written additively. -/
def verify [DecidableEq GT] (e : G1 →ₗ[F] G2 →ₗ[F] GT) (vk : VerifyingKey G1 G2) (inputs : List F) (p : Proof G1 G2) : R Bool := do
  let prepared ← prepareInputs vk inputs
  return e p.a p.b + e prepared (-vk.gammaG2) + e p.c (-vk.deltaG2) = e vk.alphaG1 vk.betaG2

/-! ## The tests -/

/-- The claimed outputs of the tests, poseidon-tests/tests/poseidon377_r1cs.rs:187-195 and 221-229 -/
def testOutputs (v : Vector Fq 7) : R (Vector Fq 7) := do
  let y0 ← Poseidon.hash1 R1cs.testDomainSep v[0]
  let y1 ← Poseidon.hash2 R1cs.testDomainSep (v[0], v[1])
  let y2 ← Poseidon.hash3 R1cs.testDomainSep (v[0], v[1], v[2])
  let y3 ← Poseidon.hash4 R1cs.testDomainSep (v[0], v[1], v[2], v[3])
  let y4 ← Poseidon.hash5 R1cs.testDomainSep (v[0], v[1], v[2], v[3], v[4])
  let y5 ← Poseidon.hash6 R1cs.testDomainSep (v[0], v[1], v[2], v[3], v[4], v[5])
  let y6 ← Poseidon.hash7 R1cs.testDomainSep (v[0], v[1], v[2], v[3], v[4], v[5], v[6])
  return #v[y0, y1, y2, y3, y4, y5, y6]

/-- `groth16_hash_proof_happy_path`, poseidon-tests/tests/poseidon377_r1cs.rs:182-210; keys and randomness are arguments, the test
vector is `v`. -/
def happyPath [Module Fq G1] [Module Fq G2] [Module Fq GT] [DecidableEq GT] (debug : Bool) (e : G1 →ₗ[Fq] G2 →ₗ[Fq] GT) (d : Domain Fq)
    (g : Fq) (pk : ProvingKey G1 G2) (vk : VerifyingKey G1 G2) (r s : Fq) (v : Vector Fq 7) : R Unit := do
  let y ← testOutputs v
  let proof ← prove debug d g pk r s ⟨v, y⟩
  let proofResult ← verify e vk y.toList proof
  if !proofResult then .error .assertFailed

/-- `groth16_hash_proof_unhappy_path`, poseidon-tests/tests/poseidon377_r1cs.rs:216-244 -/
def unhappyPath [Module Fq G1] [Module Fq G2] [Module Fq GT] [DecidableEq GT] (debug : Bool) (e : G1 →ₗ[Fq] G2 →ₗ[Fq] GT) (d : Domain Fq)
    (g : Fq) (pk : ProvingKey G1 G2) (vk : VerifyingKey G1 G2) (r s : Fq) (v : Vector Fq 7) : R Unit := do
  let y ← testOutputs v
  let proof ← prove debug d g pk r s ⟨v, y⟩
  let proofResult ← verify e vk (Vector.replicate 7 (y[0] + 1)).toList proof
  if proofResult then .error .assertFailed

end Poseidon.Groth16
