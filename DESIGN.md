# Formal model of penumbra-zone/poseidon377 in Lean 4

The first version of this file was committed before the proofs. It is kept current as the model grows.

## Layers

* `lean/Verif/Model/*`: the model. One Lean definition per Rust function, each citing file and lines.
  `[Fq; N]` is `Vector F N`; `&mut self` methods return the new value; every panic (index out of bounds,
  `expect`, `assert!`, `unimplemented!`, `todo!`, usize underflow, division by zero) is a value of the
  `Except Panic` monad (`R`); `for` loops are `forRange`/`forList` with the same mutable variables as loop state.
* `lean/Verif/Params/Rate{1..7}.lean`: the shipped tables, generated from the Rust text by `tools/gen_params.py`
  (limb by limb). `Params/Krylov.lean` and `Proofs/ArcCheck/*` hold certificates; they are checked by the kernel
  and nothing is assumed about how they were found.
* `lean/Verif/Spec/*`: small independent specifications: textbook Poseidon on `Fin t → F`, Mathlib matrices,
  the MDS property, R1CS satisfaction, addition chains, best round numbers, the Poseidon2 matrices, reading of Rust text.
* `lean/Verif/Proofs/*`: helper lemmas.
* `lean/Verif/Props/*`: the property theorems `Cnn_*`, each with a non-vacuity `example`.

`properties.jsonl` is written by `tools/gen_properties.py`, `MANIFEST.json` by `tools/gen_manifest.py` (it collects
the theorem names `Cnn_*` from `Props/*`), `seeded/LOG.jsonl` by `tools/seed_log.py` from the runs of `tools/seed.py`
on `seeded/bugs.json`.

## Plan per property

| id | what is modelled | how it is proved |
|---|---|---|
| C01 | both permutations and the two optimizing generator functions | both programs refine the textbook permutation: induction on rounds in the panic monad, over any field |
| C02 | the shipped tables, `hash_1..hash_7` | kernel computation checks the finite tables; C01's refinement lifts to every input |
| C03 | same | the result of the model is `ok` |
| C04 | same | the textbook permutation is bijective: Lucas certificate for q, gcd(17, q-1) = 1, invertible MDS |
| C05 | same | counting corollary of C04 |
| C06, C07 | `Instance` as a state machine | induction over the history of calls |
| C08 | `hash_1..hash_7` | symbolic unfolding against the specification on an explicit list |
| C09-C13, C47 | `FpVar`, constraint system, `pow_by_constant`, both r1cs files | simulation between circuit state and native state for every satisfying assignment |
| C14 | shipped MDS | equal to a Cauchy matrix (kernel computation over the tables), then C35's argument |
| C15 | shipped MDS | branch number from C14 |
| C16 | shipped MDS; generated MDS | Krylov matrix determinant (kernel computation), linear algebra; for every field an integer certificate of the Cauchy matrix whose determinant divides a power of 19! |
| C17, C18 | shipped tables | kernel computation over the whole finite tables, lifted by lemmas |
| C19 | Merlin/STROBE/Keccak | kernel computation of every constant |
| C20 | `v1::generate` | C17 + C19 + C31/C32 + C36 + C39 |
| C21-C30 | `matrix.rs`, `matrix_ops.rs`, `mds_matrix.rs`, `arc_matrix.rs` | loop invariants; determinant against Mathlib's `Matrix.det` |
| C31, C32 | `alpha.rs` | units of `ZMod`; enumeration of addition chains with a completeness lemma |
| C33, C34 | `transcript.rs`, `alpha.rs` | byte encodings |
| C35 | `fixed_cauchy_matrix` | root-counting argument |
| C36 | `OptimizedMdsMatrices::generate`, `OptimizedArcMatrix` | block-matrix algebra, induction over rounds |
| C37 | `v1_generate`, `v2_generate` of `rounds.rs` | loop invariant of the two nested loops, any security test |
| C38 | security margin | IEEE-754 multiplication; whole table 1..399 |
| C39, C49 | the security test | IEEE-754 rounding after every operation; any `ln`/`log2` of relative error at most 2^-40 |
| C40 | running binomial coefficient | `Nat.choose` recurrence |
| C41, C42, C52, C53 | Poseidon2 matrices | determinants, minors, invariant subspaces |
| C43 | `utils::log2` | block decomposition, error bounds over the reals |
| C44, C55 | `poseidon_build.rs` | reader of Rust text, round trip |
| C45, C46 | `v2::generate`, `generate_optimized` | evaluation of the panicking branch |
| C48 | round constants | induction on the transcript position |
| C50, C51 | `v1::generate` | composition of the parts |
| C54 | `v2::generate` | as C39 |
| C56, C57, C58, C59 | `rounds.rs`: meaning of the security test | error analysis of every rounding (slack 1e-6), monotonicity of rounding; `Spec/Security.lean` states the inequalities over ℝ; for C59 a kernel-checked table of binomial coefficients covering all exponents and security levels up to 256 |
| C60, C61 | circuit hash inside a larger circuit | inductive relation `Grows`: each step allocates one witness defined by one constraint over known variables |
| C62 | `poseidon-tests/tests/poseidon377_r1cs.rs` | the circuit as a list of blocks (hash, equality); C13, C10, C11, C12, C61 for each block, induction on the list |
| C63 | `v1::generate` followed by `n_to_1_fixed_hash` of the gadget | C51 (generated parameters compute the textbook permutation) and C09–C12 for arbitrary parameters |
| C64 | `Alpha::generate` and the S-box gadget | the table of exponents pruned to its prime entries; binary exponentiation is an addition chain, so C32 bounds its cost from below |
| C65 | `poseidonperm_x17.sage` and the rate-2 instance | the script's derived tables in closed form (loop invariants), then the algebra of C01 (`optimized_middle`); its literals compared with the shipped ones by the kernel |
| C66 | hashing and circuit with arbitrary `Params` | Hoare triples with panics (`Tri`) for sufficiency, partial correctness (`Ens`) for necessity: a counter that reaches the end of a table stops the run |
| C67 | the permutations over an abstract `usize` arithmetic (`Model/Machine.lean`) | simulation (`Agree`): by the bounds of C66 no operation leaves the word unless the run panics anyway |
| C68 | the textbook permutation the hashes are proved equal to (C51, C03) and its S-box inputs (`Spec/Trail.lean`) | branch number of MDS matrices for pairs of full rounds, C16 for windows of t partial rounds; for one S-box the degree of (X+a)^e - X^e - b |
| C69 | `rounds.rs`, `utils.rs` and the tables of `appendix_g.rs` (`Spec/PaperTables.lean`) | rational bounds for the logarithms of the row, closed form of the search (C49), bounds of `log2` from its monotonicity; for large moduli all minima are attained by the security level |
| C70 | `calc_round_numbers.py` (`Model/CalcRounds.lean`) beside `rounds.rs` | the script's test is `6 ≤ R_F` and a bound on `R_F + R_P`; invariant of its two loops, including the overwritten loop variable; interval bounds for the logarithms |
| C71 | the authors' `algorithm_1/2/3` (`Model/MdsTests.lean`), subspaces as `Submodule` | the loop of test 2 holds the span of the first multiples of `e0`; observability and dimension count for test 1; test 3 by `M e0 ∈ span {M^(rk) e0}`, with certificates checked by the kernel modulo `q`, over the integers (widths 2, 3), and a dependency modulo a 172-bit prime |
| C72 | the permutation on states of polynomials in one word | leading coefficients per round (`leadRound`), by induction on the rounds; the kernel evaluates them for the shipped matrices; root counting |
| C73 | the same polynomials, and the difference of two of them | leading coefficients of the 35 (rate, word) pairs are computed and pairwise different (`Params/Lead.lean`, checked by the kernel); for one word that differs, the leading coefficient of the difference per round (`deltaRound`), by induction, evaluated by the kernel for all pairs of words |
| C74 | `roundConstant` and the set of all byte strings of the length drawn | counting residues in `0..256^n`; the sum of the deviations in closed form |
| C75 | the transcript of the generator over words of any number of bytes (`Model/GenWord.lean`) | lengths of the messages; the kernel runs Merlin on the 32-bit transcripts and compares the first constants with the shipped ones |
| C76 | the round search over IEEE doubles with NaN, infinities and subnormals, saturating casts and machine words (`Model/GenMachine.lean`) | exponent bounds (`Tame`) show every operation stays in the normal range; secure candidates have a small width, so no product overflows; simulation of the two loops |
| C77 | `v1::generate` with the modulus of the field and the argument `p` as two numbers (`Model/GenArg.lean`) | the search for the S-box and the size tests read `p`, the matrix does not depend on it; a root of unity of order dividing the exponent gives second preimages |
| C78 | both generators with all const generics arbitrary | `Mat::new` in each stage forces its size; round numbers (399, 99) pass the tests of version 2 because the binomial coefficient there has 752 bits |
| C79 | the two estimates in `poseidonperm_x17.sage` over the reals, with `.n()` any function of small relative error (`Model/SageSecurity.lean`) | lower bounds of logarithms; the intended estimate is a separate definition (`rootExtractionBits`) |
| C80 | the permutations with a record of field operations and array accesses (`Model/Trace.lean`) | erasure gives back the model; a relation between two runs preserved by every step; costs by the same induction |
| C81 | the permutations of the authors' scripts (`Model/Sage.lean`, `Model/SageAuthors.lean`), their tables as literals (`Spec/AuthorVectors.lean`) | the loops of `perm` are those of `unoptimized_permute`; for the optimized one both sides satisfy the same relation to the matrix and constants (`OptRel`); the literal matrices are Cauchy matrices |
| C82 | the shift register, the draws of constants, `create_mds_p`, `generate_matrix` and the script around them (`Model/Grain.lean`); specification: the bits of the register with the 80-bit recurrence, taken in pairs, as numbers and Cauchy matrices (`Spec/Grain.lean`) | the register after m steps is a window of the sequence; it never runs out of pairs since its feedback polynomial makes the odd places combinations of the even ones; loops by induction on the number of attempts; the five published outputs by evaluating the register, 16 steps at a time, in the kernel, with certificates for the matrix tests (`tools/gen_grain.py`) |
| C83 | `generate_mds.sage`: the hashed names, the loop of `generate_mds_matrix`, the constants and `calculate_num_poseidon_rounds` (`Model/StarkMds.lean`) for any hash function, and SHA-256 (`Model/Sha256.lean`) | the Cauchy determinant by induction (`Proofs/CauchyDet.lean`), so the assertions hold; roots of the characteristic polynomial are eigenvalues; loop by induction on the attempts left; the five runs with certificates (`tools/gen_stark.py`): an eigenvector of each rejected matrix, and the inverse of M^q - M for each accepted one |
| C84 | the rest of `calc_round_numbers.py`: the inverse exponent, the search without margin, the cost functions, the final numbers (`Model/CalcRoundsFull.lean`) | the two loops for any test of the form "R_F ≥ 6 and a bound on f(R_F) + R_P"; interval bounds for the logarithms by table row; C12 for the constraints; a prime just above 3^161 for the difference |
| C85 | the gadget and the preimage circuit a second time, on numbered symbolic combinations, with `finalize` and `to_matrices` (`Model/Symbolic.lean`) | simulation: mapped by inlining, every step is a step of `Model/R1cs.lean`; the inlining loop with its use counts by an invariant; clean rows are determined by the function they compute; then C09, C10, C60–C62 |
| C86 | what can be read off the shipped key: numbers of points, points at infinity, equal points (`Model/KeyShape.lean`, by `tools/gen_key.py`), and the key generator (`Model/Groth16.lean`) | which columns of the three matrices are empty or equal, from the blocks of five rows per S-box (`Proofs/PreimageColumns.lean`); a column is a polynomial of degree below 4096, the evaluation points separate them; a nonzero one has few roots |
| C87 | key generator, prover and verifier of `ark-groth16` 0.4 (`LibsnarkReduction`) and the two tests (`Model/Groth16.lean`) | the domain sums are interpolation and evaluation (`Proofs/Domain.lean`); the verifier's equation is, divided by e(g1, g2), a polynomial identity at the secret point (`Proofs/Groth16Core.lean`); it holds identically for a true claim and is a nonzero polynomial otherwise |
| C88 | the same prover, and a simulator (`Spec/Groth16.lean`: `simulate`) | the parts of a proof are explicit (`createProof_eq`, `prove_eq`); the first two are uniform because `delta` is invertible, the third is determined by them and the verifier's equation; `Props/ZeroKnowledge.lean` |
| C89 | the same key generator and verifier, and a prover given by the coefficients of its combinations (`Spec/Groth16.lean`: `Strategy`) | the verifier's equation is a Laurent polynomial in the secrets; comparing coefficients at `alpha beta`, `alpha`, `beta`, `gamma`, `delta` leaves the divisibility statement of the constraint system, so the coefficients of `l_query` satisfy it (`Proofs/Groth16Sound.lean`, `Proofs/Groth16Strategy.lean`); a polynomial that is not zero has few roots (Schwartz–Zippel); the circuit's satisfying assignments are preimages (C85) |
| C90 | readers and writers of keys, points, numbers and lists (`Model/KeyFile.lean`), the shipped points (`Model/KeyPoints.lean`, by `tools/gen_keypoints.py`) | the format is a relation between texts and keys (`Spec/KeyFile.lean`); every reader returns a value exactly on its texts and leaves the rest, by composition; every point of the shipped key is checked by the kernel to be on its curve |
| C91 | `write_params` with the calls to the operating system that files and buffers make, each answered by the next of a list of responses (`Model/WriteParams.lean`); at the end of the list the process is killed | invariant of the buffer: file and buffer together are what was written so far; then C90 says what can be read from a beginning of a file |
| C92 | the bodies of the two random tests and their generators (`Model/RandomTests.lean`) | C02 and C27 for the bodies; arrays of bytes and numbers below `256^n` are in bijection, then counting |
| C93 | the trait `MatrixOperations`, its five implementations, the methods beside it, the mutable accessors of `RoundNumbers` (`Model/Wrappers.lean`) | the wrappers commute with every method, hence with every sequence of calls; for `Matrix`, induction over the calls with a two-dimensional array beside it |
| C94 | the permutations as programs of single reads and writes of the state words, threads that run them, the rule about `&mut self` (`Model/InPlace.lean`) | the programs refine `Model/Permutation.lean`; an invariant over all steps: the rest of each running program, from the present words, ends as the whole program alone does; what is left by a panic, round by round (`Spec/LeftState.lean`) |
| C95 | programs of allocations, circuit hashes, sums, differences, products and equalities, their synthesis (`Model/UserCircuit.lean`; the operators of the library in `Model/Arith.lean`); the same program read natively (`Spec/UserCircuit.lean`) | induction over the program: one call extends satisfying assignments in exactly one way (C61), with the native digest (C13); the honest run by C10, setup by C11, sizes by C12; the test-suite's circuit is shown to be one of the programs |
| C96 | `circuit_specific_setup` and `prove` for any program of C95, on symbolic linear combinations (`Model/UserProof.lean`); the verifier, `simulate` and `Strategy` of C87-C89 | the symbolic run inlines to the run of C95 (induction over the program, with the lemmas of C85); the polynomial arguments of C87-C89 are stated for all matrices and are used with those of the program |
| C97 | `generate_test_vectors` and any history of its runs, on the keys of C87 and the files of C90 and C91 (`Model/TestVectors.lean`); `Spec/TestVectors.lean` says which keys a run makes | induction over the runs: C91 for one run, C90 for the lengths and for reading, C87 for the tests |
| C98 | runs that make their calls to the operating system in any order (`Machine`, same file); calls do not fail, a `write` takes any number of bytes, a descriptor writes at its own offset | invariant over schedules (bytes below each finished offset come from some run); explicit schedules for two runs; the verifier's equation for a proof with another run's key, a polynomial of degree two in the prover's randomness |
| C99 | the digest as a function of one input word, or along a curve (`ZeroSums`, `Spec/ZeroSum.lean`) | the polynomial of C72 and the power sums over a finite field and its multiplicative subgroups (Mathlib) |
| C100 | the machine of C98, stopped anywhere: a run that makes no more calls was killed; a file that is emptied while it is written gets a gap | the invariant of C98; explicit schedules; the format of C90 (zeros are no point of the curve, files can be spliced after the verifying key); the verifier's equation for a spliced key, linear in one random number |
| C101 | the circuit as a program of C95, the tree with the native `hash_2` (`binaryRoot`, `Props/Membership.lean`) | induction over the depth: `b * b = b` leaves 0 and 1, so the two words that are hashed are the node and its sibling in one of the two orders; then C95 and C96 |
| C102 | the digest as a function of all its arguments (`SumsVanish`, `NoRelation`, `Spec/ManyWords.lean`) | the textbook permutation on polynomials in many variables; the total degree is exact because it is in one variable (C72); sums by the Chevalley-Warning lemma, counts by the Schwartz-Zippel lemma (both in Mathlib) |
| C103 | histories of C97; after a loss of power each file is as it was at some moment (`PowerLoss`, `Model/PowerLoss.lean`) | every moment is a history of C97; the prefixes of C91; explicit moments, then C98 for a mixed pair |
| C104 | runs of C91 at the same time: a run is given by the answers it got, its next call by what one more answer changes (`Crowd`, `Model/Concurrent.lean`) | how the functions of C91 go on with more answers (`Steady`, `Proofs/Concurrent.lean`); calls of one run compose; the invariant of C98 for views of single runs |
| C105 | programs of additions and multiplications (`Spec/Program.lean`); a hash that such a program runs backwards (`RunsBackwards`) | the rounds in reverse order with the inverse matrix and the inverse exponent; programs built from combinators that count their steps (`Makes`, `Proofs/Program.lean`) |
| C106 | short programs for the digest (`HasDigestProgram`) and how seldom they are right (`NoShortProgram`) | registers of a program are polynomials whose degree doubles at most with a multiplication; the digest has degree exactly `17^39` (C72) |
| C107 | the mode of the hash functions with any permutation (`digestWith`), adaptive algorithms that ask for images and preimages (`Attack`, `Spec/Mode.lean`) | induction along the algorithm, counting the permutations that agree with the answers so far (`log_bound`, `Proofs/Mode.lean`); all unused answers have the same share |
| C108 | the same mode and algorithms as C107; pairs of a permutation and a random element (`saysYes`, `Spec/Hiding.lean`). About a random permutation, like C107, not about the shipped ones | exchange the images of the two possible states: an algorithm that comes across neither does not notice (`run_swap`); how often it does, by induction along the algorithm (`touch_bound`, `Proofs/Hiding.lean`) |
| C109 | openings of trees of digests (`climb`, `Spec/Tree.lean`) with any permutation, algorithms of C107. About a random permutation, like C107 | two openings contain a collision, which an algorithm with two more questions per level finds (`findCollision`); C107 |
| C110 | algorithms that also ask for tags under a secret word (`KeyedAttack`, `Spec/Keyed.lean`). About a random permutation, like C107 | the pairs of a permutation and a key that agree with the answers so far and whose key was not met; the share of them for which the next answer meets the key (`secret_ask`, `secret_back`, `secret_back_tag`) or has a given tag (`secret_tag`), by exchanging images; induction along the algorithm (`forge_bound`, `Proofs/Keyed.lean`) |
| C111 | algorithms that ask for digests, images and preimages; simulators that learn the digest of a state they are asked about and choose at random (`Distinguisher`, `Simulator`, `Spec/RandomFunction.lean`). About a random permutation, like C107; how long the simulator takes is not modelled (it keeps a list and chooses from two kinds of sets) | the permutations that agree with the answers so far, and the functions that do; all images with the right word 1 and all fresh preimages are equally likely, by exchanging; a new digest is almost uniform; induction along the algorithm for one direction (`real_le`), the opposite answers for the other |
| C112 | the constraints of the gadget one by one (`SatisfiesBut`, `FreeWords`, `Spec/Fault.lean`): what the state after the rounds is when all rows but one hold, as a function of the freed witness. That function is a polynomial of known degree in it: leading coefficients of all suffixes and prefixes of the rounds are computed by the kernel for the seven matrices and are nonzero, so it takes more than one value. For `PreimageCircuit`, by induction over its seven blocks |
| C113 | a hand-made `InstanceVar` (`WordCall`, `runCalls`, `Model/CircuitState.lean`) and the same steps on field elements (`nativeCalls`, `AllAllowed`, `totalCost`, `Spec/CircuitState.lean`). Each step is sound, complete, only appends, and is the same for all values (from the lemmas of C09–C12 and C95), then induction over the steps. New lemmas: a round ignores words beyond the state, panics on too few words. Sponges of any length as a corollary |
| C114 | the parameter set with another table (`Params.withConstants`, `hashWith`, `wordsWith`, `countTables`, `FollowsTrail`, `Spec/RandomConstants.lean`). The code is the textbook permutation with that table (C01, C36, C51 lemmas); two counting lemmas (values left once the earlier rounds, or the other words, are fixed), one round: at most `α - 1` constants of an active word (C68), all words without a difference by the branch number of the MDS matrix; exact uniformity by summing the bounds. Nothing is claimed about the table the transcript gives, which is one of those counted |
| C115 | an `InstanceVar` with all its fields (`InstanceVar`, `InstanceCall`, `runInstance`, `Model/CircuitFields.lean`) and the same steps on field elements with the parameters of the time (`nativeInstance`, `plainPermute`, `fastPermute`, `AllAllowedIn`, `totalCostIn`, `Spec/CircuitFields.lean`). The lemmas of C113 about one step are proved again for arbitrary parameters, with C09/C10/C12/C66 for the permutation; then induction over the list of steps. `C115_words` says that without assignments to the two fields these are the runs of C113. |
| C116 | the benchmark over an arbitrary generator, with the harness choosing how often it runs a closure, each run recorded with its result and trace (`benchUnoptimizedVsOptimized`, `Model/Bench.lean`; `word`, `Spec/Bench.lean`) | induction over the loops, then C02 for the results and C80 for the traces and prices. |
| C117 | as C103, but the length and each byte of a file are from moments of their own, and bytes can be zero (`Torn`, `TornLoss`, `Model/TornFile.lean`) | the prefixes of C91 byte by byte; contents that are prefixes of one text cannot mix; explicit torn files, the setup of C86 and the round trip of C90 |
| C118 | the tables of C114 and the inputs, counted (`countTables`, `Spec/RandomConstants.lean`; `sboxesOf`, `Spec/InverseCount.lean`) | the run with 0⁻¹ = 0: the map from the constants to what enters the S-boxes is a bijection, which gives the exact count; each state is a bijection of the input, which gives one p-th per S-box |
| C119 | C114's `hashWith`, `wordsWith`, `countTables` and `FollowsTrail`, for generated parameters whose S-box is the inverse | In a field of p elements the total inverse is x^(p-2), so C114's counting lemmas apply, with `GoodLayers (p - 2) 4`: (x + a)⁻¹ − x⁻¹ = b has at most four solutions (0, −a and the roots of bx² + abx + a). The exact counts for one input use C118's bijection between tables and S-box inputs, split at the last round (`card_last_row`), and a recursion for the number of ways to write d as a sum of t non-zero words (`waysT_eq`). `C119_difference`, `C119_collision`, `C119_state_difference`, `C119_trail`, `C119_state`, `C119_digest`. |
| C120 | Existing model: both permutations, both hash functions, `Mat.set`, the shipped tables. | Changing row r by D is the same as adding D to the state before round r; the rounds after it are a bijection, so the states differ. For the digest: on lines in direction D the rest of the hash is a polynomial of positive degree at most 17^(39-r) (leading coefficients of one to five full rounds checked for all shipped matrices by `decide +kernel`, partial rounds by a general lemma), and Q(z+δ) − Q(z) is not zero because the degree is below the characteristic; count over all lines. The optimized table: a change of an entry belongs to a change of a row of the unoptimized table (`Consistent.shift`), and both hashes agree for consistent tables. |
| C121 | Existing model: both hash functions for any parameters, `v1::generate`. | Both digests are polynomials in the free word; their degrees differ, or (39 rounds distributed in another way) their leading coefficients do. The leading coefficients are not zero for one to 61 full rounds (`decide +kernel` for the seven matrices), partial rounds multiply them by a power (general lemma); for the 19 other distributions of 39 rounds they are compared by `decide +kernel`. A non-zero polynomial has at most as many roots as its degree. |
| C122 | Existing model: `permute` with any optimized matrices, the shipped tables. For `M_00` and the MDS matrix, which are read in many rounds at once, the claim is about one input and nearly all values of the entry, or nearly all values and nearly all inputs; every single wrong value is not covered. | A changed entry adds a multiple of one word times a unit vector at one place of the permutation. What comes before is a bijection, so the state is the same for one input in `q`; what comes after is rewritten as textbook rounds of the shifted state (the invariant behind C01), whose digest along the unit vector is a polynomial of degree at most 17^35 with a non-zero leading coefficient (`decide +kernel` for the seven sets of matrices, then a general lemma). `M_00`, MDS matrix: the digest for one input is a polynomial in the entry; an invariant gives the leading coefficients round by round (one word, or a column of the matrix), so its degree is at least 1 and at most 17^35 or 17^39; double counting turns this round to inputs. |
| C123 | Existing model: `unoptimizedNTo1FixedHash` with any table of round constants in place of the shipped one; the hash is the digest and `output_words`. Equality of the digests alone is not characterised. | Backwards over the rounds: if two states differ by a constant after a round, the words after the S-boxes differ by a constant. Before an S-box each word is a polynomial of degree 17^m in the input word (leading coefficients of C120), and two 17th powers of non-constant polynomials of degree below `q` never differ by a non-zero constant (coprimality and derivatives). So the S-boxes see equal words, and the rest of the difference moves through the matrix. Tables and their differences correspond one to one, which gives the counts. Optimized tables: for each table a partner in the relation of C01 is constructed, in both directions. One test vector: Schwartz-Zippel for the difference of two words, of total degree at most 17^39. |

## Trusted base

* Lean 4.33.0's kernel, and Mathlib's definitions that occur in statements (`ZMod`, `Matrix`, `Matrix.det`, `Nat.Prime`,
  `Real`, `Real.log`, `Nat.choose`, `Function.Bijective`, ...).
* Axioms: no axiom is declared in this project. Every property theorem depends on a subset of `propext`,
  `Classical.choice`, `Quot.sound` (listing: `cd lean; lake env lean ../tools/axioms.txt`). There is no `sorry`, `admit`,
  `native_decide`, `bv_decide`, `implemented_by`, `extern` or `unsafe`.
* The reading of the Rust source by which the model was written, and the text extraction of the tables by
  `tools/gen_params.py`. The repository was never built or run.
* The descriptions below of code outside the repository.

## What is modelled

* `poseidon-parameters/src`: `matrix.rs`, `matrix_ops.rs`, `mds_matrix.rs`, `arc_matrix.rs`, `round_numbers.rs`, `alpha.rs`,
  `error.rs`, `v1.rs` in full; `v2.rs` as far as its accessors are used.
* `poseidon-permutation/src`: `permutation.rs` and `r1cs.rs` in full; `permutation.rs` a second time with a record of its steps.
* `poseidon377/src`: `hash.rs`, `r1cs.rs`, `lib.rs` (the rate parameters) and all tables of `params/`.
* `poseidon-paramgen/src`: `alpha.rs`, `input.rs`, `lib.rs`, `mds.rs`, `round_constants.rs`, `rounds.rs`, `transcript.rs`, `utils.rs`,
  `v1.rs`, `v2.rs`, `v2/external.rs`, `v2/internal.rs`, `poseidon_build.rs`; of the test file `appendix_g.rs` the expected values of the tables.
* `poseidon-tests/tests/poseidon377_r1cs.rs`: `PreimageCircuit`, its `generate_constraints`, `generate_test_parameters`, the two Groth16 tests,
  `PREIMAGE_PK`, `PREIMAGE_VK` and `write_params`; the shipped key with all its points.
* The random tests of `poseidon-consistency/src/lib.rs` and `poseidon-tests/tests/parameters.rs` (C92).
* `vendor/hadeshash/code/calc_round_numbers.py`: everything but the printing of the tables.
* `vendor/hadeshash/code/generate_parameters_grain.sage`: `generate_vectorspace`, `subspace_times_matrix`, `algorithm_1`, `algorithm_2`,
  `algorithm_3`, and the script around them: `grain_sr_generator`, `grain_random_bits`, `init_generator`, `generate_constants`,
  `create_mds_p`, `generate_matrix` (fields 0 and 1; not the parsing of arguments and the printing).  Its `while` loops have a bound in
  the model, and C82 says for which arguments some bound suffices.
* `vendor/hadeshash/code/poseidonperm_x5_{254,255}_{3,5}.sage`: constants, matrix and `perm`; `poseidonperm_x3_64_24_optimized.sage`:
  constants, matrix and the permutation functions (those of `poseidonperm_x17.sage`, but for the exponent and a matrix computed and not used).
* `vendor/generate_mds.sage`: `generate_round_constant` for prime fields, `generate_mds_matrix`, the constants of `generate_ark_rs`,
  `calculate_num_poseidon_rounds`; not the printing, `sponge`, and the functions for binary fields, which it does not call.
* `poseidonperm_x17.sage`: constants, matrix and the permutation functions (lines 56-345), the security
  estimates (lines 5-54) over the reals, not the timing code.

Checks of the model against outputs of the real code: the test vectors `rate_1` to `rate_6` of `poseidon377/src/hash.rs` and the vector
of `poseidon-consistency` come out of the model (`Proofs/KnownAnswers.lean`, evaluated by the kernel), so do the expected values of the unit tests of
`poseidon-tests/tests/parameters.rs` and `poseidon-paramgen` (`Proofs/KnownAnswersGen.lean`), the transcript reproduces
all shipped round constants (C19), and the circuit has the sizes of the shipped proving key. The specification `textbook` and the
model of the unoptimized permutation give the four test vectors of the authors of Poseidon
(`vendor/hadeshash/code/test_vectors.txt`, exponent 5, BLS12-381 and BN254; `Proofs/AuthorVectors.lean`).

`poseidon-paramgen` is excluded from the workspace and does not compile against the crates at this commit (it calls
functions with outdated types, for instance `from_vec` and `.into()` to `Vec<Vec<_>>`, and omits the field `t`). It is
modelled as written, with the evident conversions.

## Code outside the repository that the model describes

* `decaf377::Fq` is the prime field `ZMod q`, with q proved prime; `+`, `*`, `power`, `inverse` are the field operations;
  `Fq::from_montgomery_limbs` is multiplication by the inverse of 2^256. The internals of `decaf377` are not modelled.
* Generator code is generic in `F: PrimeField`; the model uses any `ZMod p` with p prime, or any field where that is enough.
* `ark-relations`/`ark-r1cs-std` 0.4: constraint system, `FpVar`, `AllocatedFp`, `pow_by_constant`, sums, differences and products. In `Model/R1cs.lean` symbolic
  linear combinations are inlined at once; `Model/Symbolic.lean` keeps them, with `finalize` and `to_matrices`, and C85 shows that
  nothing is lost. Optimisation goals other than the default, which inlines everything, are not modelled.
  Written from the published source, from memory.  The shipped key `poseidon-tests/test_vectors/preimage_pk.bin` was written by the real
  program and its points are the columns of the matrices at a secret point: C86 proves that its shape is that of the model, and
  `tools/check_key.py` (a test, with curve arithmetic) checks relations between its points that determine every coefficient of every S-box input.
  `tools/check_proof.py` (a test) runs the prover of the model with the shipped proving key and the verifier with the shipped verifying key and a
  pairing of BLS12-377: the proofs are accepted, which needs every constant, row, variable order, the root of unity of `domain4096` and
  the formulas of the prover to be those of the real program; proofs of false claims are rejected.
* `ark-groth16` 0.4 with `LibsnarkReduction`, `ark-poly` domains. Written from the published source, from memory. The pairing groups are
  any modules over the field with any bilinear map that is not zero on the generators, the Fourier transforms are the sums they compute,
  the evaluation domain is any list of roots of unity of the order required, which 4096 has (`domain4096_good`). Zero knowledge (C88) is exact: the
  simulator has the same distribution. Soundness (C89) is against provers that make their proof from the points of the key by linear
  combinations whose coefficients do not depend on the key (non-interactive linear proofs); that a prover can do no better in a given
  group is an assumption about the group, not a theorem.
* `ark-serialize` and `ark-ec` 0.4: uncompressed numbers, points, lists and keys. Written from the published source, from memory;
  `tools/gen_keypoints.py` (a test) reads both shipped files with this format and writes them again, byte for byte. The test for the
  subgroup of prime order is a parameter: theorems about keys that were read hold for every such test, and `C90_shipped` assumes that it accepts the
  shipped points (`tools/check_proof.py` computes with them). The points of the key are a generated table of numbers, not read from the
  file by Lean.
* `std::fs::File` and `std::io::BufWriter` (C91). Written from the published source, from memory. What the operating system has
  accepted stays in the file, except in C103: after a loss of power each file is as it was at some moment, not both at the same one (in C117 each byte
  of a file is from a moment of its own, or zero). Other programs that use the files are modelled only if they are
  runs of the same generator: one after the other (C97), or at the same time (C98 and C100, where no call fails, and C104); runs may be killed.
* `merlin` 3, STROBE-128 and Keccak-f[1600]. Written from the published specification. C19 validates it: it
  reproduces every shipped round constant.
* `f64`: every operation is the exact real operation followed by round-to-nearest-even to 53 bits; infinities, NaN,
  subnormals and overflow are excluded there; `Model/GenMachine.lean` includes them and C76 shows that they do not occur. `ln` and `log2` are not specified by
  Rust: theorems hold for every `Libm` of relative error at most 2^-40. The inverse S-box
  also needs `log2 2 = 1`, and the tables of C69 that `log2` is monotone and exact on powers of two (`Libm.Regular`); the correctly
  rounded and the exact library satisfy all of this (`roundedLibm_accurate`, `roundedLibm_regular`).
* SHA-256 (`hashlib`), from the published standard; checked on three of its test vectors (`Props/StarkMds.lean`).
* `num-bigint` `BigInt` and `BigInteger` are natural numbers.
* Strings of `poseidon_build.rs` are lists of characters; `format!` of an integer is its decimal numeral.

## Simplifications

* `usize` is an unbounded natural number except where a theorem speaks of overflow (`2^64` in the cost of the round search), and
  in `Model/Machine.lean`, where hashing and circuit synthesis use checked or wrapping machine words (C67 shows this makes no
  difference), and in `Model/GenMachine.lean` for the round search (C76, likewise). There the two zeros of IEEE are one value. Subtraction below zero is a panic. `usize::to_le_bytes` has 8 bytes, in `Model/GenWord.lean` any number (C75).
* The argument `p` of the generators is the modulus of the field, except in `Model/GenArg.lean` (C77).
* Newtype wrappers (`MdsMatrix`, `ArcMatrix`, ...) are erased where they only delegate. C93 models them and shows that this changes no answer.
* Panics are constructors of `Panic`; their texts are not modelled (those of `PoseidonParameterError` are, C93).
* Threads (C94) interleave single reads and writes of state words, in some total order; programs in safe Rust without shared mutable memory have no other behaviours. Elsewhere a call is one step.
* `Domain`/rate constants are values; static initialisation is evaluation.
* C107 to C111 are about a uniformly random permutation in the place of the shipped one. This is an idealisation, not a theorem about the
  shipped permutation; the use of the permutation (words, padding, domain separator, order of the state) is that of the code, and the theorems say so.

## What is not modelled

`decaf377` arithmetic internals, the time a single field operation takes (C80 treats the sequence of operations and accesses), the compiler's treatment of them, `vendor/` (except `calc_round_numbers.py`, `generate_parameters_grain.sage` and `generate_mds.sage` but for their input and output, and the permutations in `poseidonperm_x5_*.sage` and `poseidonperm_x3_64_24_optimized.sage`), soundness of Groth16 against provers that do something else than combine the points of the key (the assumption on the curve under which C89 covers them),
variables of two different constraint systems among the words of one `InstanceVar`,
Criterion (beyond running a closure some number of times), `Debug`/`Display` output, the scripts that wrote the tables to files.

## Findings: where the code does less than a reader might expect

Each is a theorem.

* `row_vector` panics unless the matrix has one row (`C29_row_vector_panics`); C29 is `partial`.
* `get_element`/`set_element` with a column out of range alias another entry (`C22_column_alias`).
* The inverse of the 1×1 zero matrix panics instead of returning an error (`C27_one`); the minor of a 1×1
  matrix is the matrix itself, not 1 (`C28_minors_one`).
* A circuit whose inputs are all constants panics (C47).
* `Alpha` bytes: exponent `2^32-1` and the inverse S-box have the same encoding (`C33_collision`); the transcript truncates
  numbers to 8 bits (`C34_truncation`).
* The optimized permutation differs from the unoptimized one for odd `r_F`, and panics for `r_P = 0` (C46).
* `log2` ignores low bits and may round up past the true logarithm (`C43_rounds_up`).
* The binomial early exit may declare a choice safe although the final coefficient is small (`C40_early_exit`).
* `v2::generate` supports widths 2 and 3 only (C45), the inverse S-box is unimplemented there, and `v2_compile` never produces code
  (C55).
* `serialize_slice_f` of an empty slice yields an unreadable text (`C44_empty`).
* Poseidon2 external matrices of width 8 and more are not MDS (C52), and are singular in certain characteristics (C42).
* The S-box with the inverse exponent panics on zero (`C51_inverse_panics`).
* Over the field with 3 elements the exponent returned is not the cheapest (`C32_three`).
* The comment in `appendix_g.rs` that up to 256 bits of security the Poseidon2 search is unchanged holds for fields with at
  least as many bits as the security level (`C59_same`) and fails for small fields (`C59_small_field`, and
  `C59_accepted_field` for 128-bit fields, which the generator accepts).
* The exponent "optimal" for addition chains is not always the cheapest for the circuit, which uses square-and-multiply
  (`C64_not_cheapest`); a generated parameter set with the inverse S-box has no circuit (`C63_inverse`).
* In release builds `get_element` and `Matrix::new` wrap around for huge arguments (`C67_alias`, `C67_new`).
* The generator does not run the authors' matrix tests. They hold for the shipped matrices (`C71_shipped`); for other fields the
  third may fail (`C71_rejected`: width 5, a prime of 172 bits).
* The generator's transcript contains `usize` bytes: on a 32-bit machine it returns other round constants than the shipped ones
  (`C75_shipped`).
* `v1::generate` does not check that `p` is the modulus of its field. With another number it may return an S-box that is not a permutation
  (`C77_wrong_modulus`: BN254's modulus for `decaf377::Fq`).
* `v2::generate` has no limit on the security level: above 256 bits, where version 1 panics, it returns a parameter set
  (`C78_v2_no_limit`).
* The root extraction test of `poseidonperm_x17.sage` is void (`C79_root_void`); the test it should have made is passed
  (`C79_root_intended`).
* `vendor/generate_mds.sage` takes the logarithm of the field size to the base of the number of words: it asks for fewer rounds than the
  crate uses, and for six words for fewer than the paper requires, margin included (`C83_rounds_paper`). Its near-MDS matrix for four
  words, which it does not use, has a difference that no partial round sees (`C83_optimized_trail`). Running it as its header says would not give
  the shipped matrices (`C83_not_shipped`).
* The random test of the inverse, `inverse_2x2`, fails on singular matrices (`C92_inverse`; rarely, `C92_rare`) and draws only small entries
  (`C92_small`).
* `write_params` can return `Ok` although the end of a file was not written: the buffers are not flushed before they are dropped
  (`C91_silent`).
* Two key generators that run at the same time can both return `Ok` and leave the proving key of the one with the verifying key of the other
  (`C98_two_generators`). A generator that is killed after its first call has already destroyed the old keys (`C97_lost`).
  Or they leave a proving key that no secrets make, although it contains the verifying key beside it (`C100_nobody`). A generator that is killed
  after its first call can spoil the keys of another that runs to its end without an error (`C100_gap`), and so can
  one that fails and reports it (`C104_failed_run`). The answers that two undisturbed runs get never keep their keys apart (`C104_two_generators`).
* `write_params` does not sync its files. After a loss of power an `Ok` can be undone, and two runs that both ended with `Ok` can leave
  the proving key of the one with the verifying key of the other (`C103_not_durable`, `C103_mixed`).
  If the file system writes blocks out of order, they can leave a proving key that no secrets make (`C117_nobody`); if it leaves zeros, a single
  run can leave a verifying key that is read without an error and makes every verification panic (`C117_zeros`).
* The digests over all values of one argument add up to zero, and over every subgroup of more than 17^39 values to a multiple of the digest at zero
  (`C99_*`): a structure that a random function would not have. No attack follows, as nobody can sum so many digests.
* A caller of `hash_n` that lets an attacker choose the domain separator has no protection: preimages and collisions are computed with some ten thousand
  field operations (`C105_hash_1` .. `C105_hash_7`). An `Instance` keeps its last input, in a form that is as easily undone (`C105_state`).
* A key file can be changed without changing the key that is read: the sign bits of points are ignored, as are the coordinates of points at
  infinity and everything after the key (`C90_other_files`, `C90_reads`). A comparison of files, or of their hashes, is not a comparison of keys.
* For a 256-bit prime just above 3^161 and 256 bits of security `v1::generate` returns one partial round fewer than the authors' script, and
  than the interpolation bound of the paper asks for before the margin, because `log2` drops the low bits of the modulus (`C84_one_fewer`).
