{"id": "C01", "title": "Optimized and unoptimized fixed-width hashing agree for generated parameters", "statement": "For parameters whose optimized matrices and optimized round constants were produced by the parameter generator from an MDS matrix and round constants, n_to_1_fixed_hash and unoptimized_n_to_1_fixed_hash return the same digest (and leave the same output words), or both panic.", "quantifier": "every field, every width t >= 2, every even number of full rounds, every number of partial rounds >= 1, both S-box kinds (power and inverse), every MDS matrix with invertible first minor, every round-constant table and every input state", "why_tests_cant": "the input space is F^t and the parameter space is unbounded; the only test is one proptest on one width with random inputs", "anchors": ["poseidon-permutation/src/permutation.rs: Instance::permute, Instance::unoptimized_permute, sparse_mat_mul", "poseidon-paramgen/src/mds.rs: calc_equivalent_matrices", "poseidon-paramgen/src/round_constants.rs: generate_optimized"]}
{"id": "C02", "title": "The shipped hash functions compute textbook Poseidon", "statement": "hash_1 .. hash_7 return word 1 of the textbook (unoptimized) Poseidon permutation with the shipped MDS matrix, round constants, exponent 17, 8 full and 31 partial rounds, applied to (domain_separator, values...).", "quantifier": "each of the seven shipped rates; every domain separator and every tuple of field elements", "why_tests_cant": "each rate has at most one test vector (rate 7 has none); the claim ranges over Fq^(n+1)", "anchors": ["poseidon377/src/hash.rs: hash_1..hash_7", "poseidon377/src/lib.rs: RATE_1_PARAMS..RATE_7_PARAMS", "poseidon-permutation/src/permutation.rs: Instance::n_to_1_fixed_hash"]}
{"id": "C03", "title": "The shipped hash functions never panic", "statement": "hash_1 .. hash_7 return a field element on every input: no index is out of bounds, no subtraction underflows, no division by zero occurs.", "quantifier": "each of the seven shipped rates; every input tuple", "why_tests_cant": "a panic on a single unlucky input would not show up in sampling", "anchors": ["poseidon377/src/hash.rs: hash_1..hash_7", "poseidon-permutation/src/permutation.rs: Instance::permute, sparse_mat_mul"]}
{"id": "C04", "title": "The shipped permutations are bijections of the state space", "statement": "For each shipped rate the map from the n+1 input words to output_words() after n_to_1_fixed_hash is a bijection of Fq^(n+1).", "quantifier": "each of the seven shipped rates; all pairs of input states and all output states", "why_tests_cant": "injectivity/surjectivity over a 2^253-ary space cannot be sampled", "anchors": ["poseidon-permutation/src/permutation.rs: Instance::n_to_1_fixed_hash, output_words", "poseidon377/src/lib.rs: RATE_1_PARAMS..RATE_7_PARAMS"]}
{"id": "C05", "title": "Every digest value is reachable and digests are perfectly balanced", "statement": "For each shipped rate n, every field element y is the digest of exactly q^n input tuples (domain separator included).", "quantifier": "each of the seven shipped rates; every field element y", "why_tests_cant": "a counting statement over q^(n+1) inputs", "anchors": ["poseidon377/src/hash.rs: hash_1..hash_7"]}
{"id": "C06", "title": "An Instance can be reused: digests do not depend on the call history", "statement": "Whatever calls (optimized hash, unoptimized hash, output_words, including calls that panicked half way) were made on an Instance before, the next hash call returns exactly what it returns on a fresh Instance.", "quantifier": "every finite history of calls on one Instance, every left-over internal state, every parameter set", "why_tests_cant": "histories are unbounded", "anchors": ["poseidon-permutation/src/permutation.rs: Instance::new, n_to_1_fixed_hash, unoptimized_n_to_1_fixed_hash"]}
{"id": "C07", "title": "output_words reports the permutation of the last hashed input, and the digest is its word 1", "statement": "Before any hash call output_words is all zeros; after a successful hash call it is the full permuted state and the returned digest equals output_words()[1]; output_words itself changes nothing.", "quantifier": "every finite history of successful calls, every parameter set", "why_tests_cant": "histories and inputs are unbounded", "anchors": ["poseidon-permutation/src/permutation.rs: Instance::new, output_words, n_to_1_fixed_hash"]}
{"id": "C08", "title": "Hash inputs are absorbed in order, domain separator first", "statement": "hash_n(ds, (v1,..,vn)) is the digest of the state [ds, v1, .., vn]: no value is dropped, duplicated or reordered.", "quantifier": "each of the seven rates, every domain separator and values", "why_tests_cant": "argument mix-ups that cancel on the tested vectors are invisible to tests", "anchors": ["poseidon377/src/hash.rs: hash_1..hash_7", "poseidon377/src/r1cs.rs: hash_1..hash_7"]}
{"id": "C09", "title": "Circuit soundness: satisfying assignments force the native value", "statement": "If an assignment satisfies every R1CS constraint emitted by InstanceVar::n_to_1_fixed_hash, the value of the returned variable is the (unoptimized) Poseidon hash of the values of the input variables.", "quantifier": "every parameter set with a positive exponent, every mix of constant and variable inputs, every satisfying assignment (not only the honest one)", "why_tests_cant": "a malicious prover chooses the assignment; tests only try honest witnesses", "anchors": ["poseidon-permutation/src/r1cs.rs: InstanceVar::n_to_1_fixed_hash, permute, full_sub_words, partial_sub_words, mix_layer_mds"]}
{"id": "C10", "title": "Circuit completeness: the honest witness satisfies the constraints", "statement": "When all input variables carry values, synthesis assigns every new witness a value, those values satisfy every emitted constraint, and the returned variable carries the Poseidon hash of the input values.", "quantifier": "every parameter set with a positive exponent and every input assignment with at least one non-constant input", "why_tests_cant": "a single input that makes an honest prover fail would be missed by sampling", "anchors": ["poseidon-permutation/src/r1cs.rs: InstanceVar::n_to_1_fixed_hash"]}
{"id": "C11", "title": "Circuit shape does not depend on witness values", "statement": "The constraints and the variables emitted are the same for every assignment of values to the input variables, including the value-less setup mode; so keys generated in setup fit every prover run.", "quantifier": "every parameter set, every two assignments of values (or none) to the same input variables", "why_tests_cant": "quantifies over pairs of runs", "anchors": ["poseidon-permutation/src/r1cs.rs: InstanceVar::n_to_1_fixed_hash", "poseidon-tests/tests/poseidon377_r1cs.rs"]}
{"id": "C12", "title": "Circuit size is exactly predictable", "statement": "hash_n with all inputs variable emits exactly 5*(8*(n+1)+31) multiplication constraints and as many witnesses; a constant input saves exactly 5 of them. In general each S-box on a variable costs (bit length of alpha - 1) + (number of one bits of alpha - 1) constraints.", "quantifier": "every parameter set with positive exponent, every mix of constant/variable inputs with at least one variable", "why_tests_cant": "the count is a formula over all widths, rounds, exponents", "anchors": ["poseidon-permutation/src/r1cs.rs: permute", "poseidon377/src/r1cs.rs: hash_1..hash_7"]}
{"id": "C13", "title": "Circuit hash_n and native hash_n agree", "statement": "For each shipped rate, in every satisfying assignment the circuit hash_n output equals the native hash_n of the assigned inputs, although the circuit uses the unoptimized tables and the native code the optimized ones.", "quantifier": "each of the seven rates; every satisfying assignment", "why_tests_cant": "tests check a handful of random preimages with one proving key", "anchors": ["poseidon377/src/r1cs.rs: hash_1..hash_7", "poseidon377/src/hash.rs: hash_1..hash_7"]}
{"id": "C14", "title": "The shipped MDS matrices are MDS", "statement": "Every square submatrix of each shipped MDS matrix is invertible; the shipped matrix is the Cauchy matrix 1/(i + j + t).", "quantifier": "each of the seven rates; every choice of k rows and k columns, every k", "why_tests_cant": "number of submatrices times field arithmetic; no test checks it", "anchors": ["poseidon377/src/params/rate_1.rs..rate_7.rs: mds", "poseidon-paramgen/src/mds.rs: fixed_cauchy_matrix"]}
{"id": "C15", "title": "Full diffusion of the mix layer", "statement": "For each shipped rate, if two states differ in k>0 words then after the MDS mix layer they differ in at least t+1-k words; in particular a change of a single word changes every word.", "quantifier": "each of the seven rates; every pair of states", "why_tests_cant": "quantifies over all pairs of states", "anchors": ["poseidon-permutation/src/permutation.rs: mix_layer_mds", "poseidon377/src/params/*: mds"]}
{"id": "C16", "title": "No difference survives t consecutive partial-round mix layers without activating the S-box", "statement": "For each shipped rate, and for whatever parameters the generator returns over any field, for every non-zero difference vector there is a k < t such that word 0 of the difference after k mix layers is non-zero: there are no infinitely long inactive subspace trails.", "quantifier": "each of the seven rates and every run of the generator; every non-zero vector of the field to the t", "why_tests_cant": "the generator's comment says this was checked empirically", "anchors": ["poseidon-paramgen/src/mds.rs: fixed_cauchy_matrix (doc comment)", "poseidon377/src/params/*: mds"]}
{"id": "C17", "title": "Shipped derived matrices are consistent with the shipped MDS matrix", "statement": "In each shipped parameter set: M_hat, v, w, M_00 are the blocks of mds; M_prime * M_doubleprime = mds; M_inverse and M_hat_inverse are two-sided inverses; M_i and the sparse factors (v_collection, w_hat_collection) factor the 31-fold product of partial-round mix layers.", "quantifier": "all entries of the seven parameter sets and all 31 partial rounds", "why_tests_cant": "24,000 lines of constants without any test relating them", "anchors": ["poseidon377/src/params/rate_1.rs..rate_7.rs: optimized_mds", "poseidon-parameters/src/mds_matrix.rs: OptimizedMdsMatrices"]}
{"id": "C18", "title": "Shipped constants are canonical field elements", "statement": "Every constant in the shipped tables is four 64-bit limbs whose value is below the modulus, so from_montgomery_limbs yields a canonical representative, and distinct limb arrays denote distinct field elements.", "quantifier": "all constants of the seven parameter sets; all pairs of constants", "why_tests_cant": "from_montgomery_limbs does not reduce; no test reads each constant", "anchors": ["poseidon377/src/params/rate_1.rs..rate_7.rs"]}
{"id": "C19", "title": "The shipped round constants are nothing-up-my-sleeve", "statement": "Each shipped arc table is exactly the output of the generator's Merlin transcript bound to (t, M=128, p=q, r_F=8, r_P=31, alpha=17).", "quantifier": "all 39*t constants of each of the seven rates", "why_tests_cant": "the generator crate is excluded from the workspace, so no test regenerates them", "anchors": ["poseidon-paramgen/src/round_constants.rs: v1_generate", "poseidon-paramgen/src/transcript.rs", "poseidon377/src/params/*: arc"]}
{"id": "C20", "title": "The shipped parameter sets are the generator's output", "statement": "For each rate n, RATE_n_PARAMS equals v1::generate(M=128, t=n+1, p=q, allow_inverse) field by field (mds, arc, optimized_mds, optimized_arc, alpha, rounds).", "quantifier": "each of the seven rates, every field of the parameter set, both values of allow_inverse", "why_tests_cant": "generator excluded from the workspace", "anchors": ["poseidon-paramgen/src/v1.rs: generate", "poseidon377/src/lib.rs: RATE_1_PARAMS..RATE_7_PARAMS"]}
{"id": "C21", "title": "Matrices are constructed exactly when the dimensions match", "statement": "Matrix::new succeeds iff N_ELEMENTS = N_ROWS*N_COLS and the slice has N_ELEMENTS elements (otherwise it panics), and then keeps the elements unchanged; new_from_known succeeds iff N_ELEMENTS = N_ROWS*N_COLS; MdsMatrix::new additionally requires STATE_SIZE = STATE_SIZE_MINUS_1+1 and (STATE_SIZE-1)^2 = the last parameter.", "quantifier": "every dimension triple and every slice", "why_tests_cant": "unbounded dimensions", "anchors": ["poseidon-parameters/src/matrix.rs: Matrix::new, Matrix::new_from_known", "poseidon-parameters/src/mds_matrix.rs: MdsMatrix::new"]}
{"id": "C22", "title": "get_element/set_element behave like a two-dimensional array", "statement": "On a well-formed matrix, set_element(i,j,x) then get_element(i,j) returns x and every other (i',j') in range is unchanged; in-range accesses never panic; a row index past the end panics. (A column index past the end does not panic: it aliases an entry of a later row.)", "quantifier": "every dimensions, every index pair, every value", "why_tests_cant": "unbounded dimensions and operation sequences", "anchors": ["poseidon-parameters/src/matrix.rs: get_element, set_element"]}
{"id": "C23", "title": "transpose is the mathematical transpose and an involution", "statement": "transpose never panics on a well-formed matrix, (i,j) of the result is (j,i) of the input, and transposing twice gives back the matrix.", "quantifier": "every dimensions, every matrix", "why_tests_cant": "unbounded dimensions", "anchors": ["poseidon-parameters/src/matrix.rs: Matrix::transpose, SquareMatrix::transpose", "poseidon-parameters/src/arc_matrix.rs: transpose"]}
{"id": "C24", "title": "mat_mul / square_mat_mul are the matrix product and reject mismatched dimensions", "statement": "For well-formed operands with non-zero column counts, mat_mul returns the mathematical product when LHS_N_COLS = RHS_N_ROWS and RESULT_N_ELEMENTS = LHS_N_ROWS*RHS_N_COLS, and panics otherwise; with empty operands it returns exactly when the left operand has a column, the element counts fit, and there is nothing to multiply or the right operand has a row and no column; the product is associative and has the identity as unit. square_mat_mul, whose result has the size of the left operand, returns the product of well-formed non-empty matrices exactly when they have the same size and the element count fits, and panics on different sizes although its types allow them.", "quantifier": "every dimensions, all matrices", "why_tests_cant": "unbounded dimensions and entries", "anchors": ["poseidon-parameters/src/matrix.rs: mat_mul, square_mat_mul", "poseidon-parameters/src/matrix_ops.rs: dot_product, iter_rows"]}
{"id": "C25", "title": "hadamard_product, scalar multiplication and identity are entry-wise correct", "statement": "hadamard_product multiplies entry by entry, Mul<Fq> scales each entry, identity() has ones exactly on the diagonal; none of them panics on well-formed dimensions.", "quantifier": "every dimensions, all matrices and scalars", "why_tests_cant": "unbounded dimensions", "anchors": ["poseidon-parameters/src/matrix.rs: hadamard_product, Mul<Fq>, identity"]}
{"id": "C26", "title": "determinant is the mathematical determinant for sizes 1..8 and refuses all other sizes", "statement": "SquareMatrix::determinant returns the Leibniz determinant for every well-formed N x N matrix with 1 <= N <= 8 and panics for N = 0 and N > 8.", "quantifier": "all sizes, all matrices over every field", "why_tests_cant": "tests only use singular matrices beyond 2x2", "anchors": ["poseidon-parameters/src/matrix.rs: SquareMatrixOperations::determinant, determinant"]}
{"id": "C27", "title": "inverse returns the two-sided inverse exactly when one exists", "statement": "For 2 <= N <= 8 inverse() returns Ok(B) with A*B = B*A = I iff det A != 0 and Err(NoMatrixInverse) iff det A = 0; it never panics for these sizes. For N = 1 it returns the reciprocal, but a zero 1x1 matrix panics instead of returning Err; N = 0 and N > 8 panic.", "quantifier": "sizes 1..8 (and the rejected sizes), all matrices over every field", "why_tests_cant": "the singular/non-singular split is over the whole field; tests try three matrices", "anchors": ["poseidon-parameters/src/matrix.rs: SquareMatrixOperations::inverse"]}
{"id": "C28", "title": "minors and cofactors", "statement": "minors() entry (i,j) is the determinant of the matrix with row i and column j removed (2 <= N <= 8); cofactors() entry (i,j) is (-1)^(i+j). (For N = 1 minors() returns the element itself, not 1.)", "quantifier": "sizes 1..8, all matrices", "why_tests_cant": "unbounded entries", "anchors": ["poseidon-parameters/src/matrix.rs: minors, minor_matrix, cofactors"]}
{"id": "C29", "title": "row_vector", "statement": "row_vector(i) returns row i of the matrix. (False of the code for every well-formed matrix with N_ROWS != 1 and N_COLS > 0: the result type has N_ELEMENTS elements, so construction always panics.)", "quantifier": "every dimensions, every row index", "why_tests_cant": "no test calls it", "anchors": ["poseidon-parameters/src/matrix.rs: Matrix::row_vector, SquareMatrix::row_vector"]}
{"id": "C30", "title": "v, w, hat, M_00 are the 2x2 block decomposition of the MDS matrix", "statement": "For a t x t MDS matrix (t >= 2), M_00, v(), w() and hat() are the corner, the rest of the first row, the rest of the first column and the rest of the matrix: together they determine the matrix, and none of the accessors panics.", "quantifier": "every t >= 2 and every matrix", "why_tests_cant": "unbounded dimensions", "anchors": ["poseidon-parameters/src/mds_matrix.rs: MdsMatrix::v, w, hat"]}
{"id": "C31", "title": "The generated S-box exponent always gives a bijective S-box", "statement": "Whenever alpha::generate returns a positive exponent a for a prime p, x -> x^a is a bijection of the field with p elements; it panics only if no candidate exists and allow_inverse is false, and returns the inverse S-box only if no candidate qualifies.", "quantifier": "every prime p (also small ones, where the candidate is reduced mod p) and both allow_inverse settings", "why_tests_cant": "quantifies over all primes", "anchors": ["poseidon-paramgen/src/alpha.rs: generate, alpha_coprime_to_p_minus_one"]}
{"id": "C32", "title": "The generated exponent is the cheapest qualifying one", "statement": "The addition-chain table lists at depth d exactly the numbers whose shortest addition chain has length d (d = 2..7); the generated exponent has a shortest addition chain no longer than that of any odd number >= 3 coprime to p-1, and is the largest of its depth.", "quantifier": "every prime p other than 3 (where the code reduces the candidate 3 to 0 and returns 7), every competing exponent, every addition chain", "why_tests_cant": "quantifies over all addition chains and all primes", "anchors": ["poseidon-paramgen/src/alpha.rs: SHORTEST_ADDITION_CHAINS, depths_in_order, generate"]}
{"id": "C33", "title": "Alpha's byte encoding identifies the S-box", "statement": "Alpha::to_bytes_le is injective on all S-boxes except for one pair: Exponent(2^32-1) and Inverse share the encoding ff ff ff ff. Decoding the bytes as little-endian gives back the exponent.", "quantifier": "every pair of S-boxes (all 2^32 exponents and the inverse)", "why_tests_cant": "2^64 pairs", "anchors": ["poseidon-parameters/src/alpha.rs: Alpha::to_bytes_le"]}
{"id": "C34", "title": "The transcript binds the instance", "statement": "Two generator runs feed the same messages to the transcript iff they agree on t, M, p, alpha, r_F and r_P - provided the round numbers are below 256 (the code truncates them to one byte, so e.g. r_P = 31 and r_P = 287 collide) and neither S-box is the exponent 2^32-1 (which shares its encoding with the inverse, C33).", "quantifier": "every pair of generator inputs", "why_tests_cant": "quantifies over pairs of inputs", "anchors": ["poseidon-paramgen/src/transcript.rs: domain_sep"]}
{"id": "C35", "title": "The deterministic Cauchy construction is MDS for every width", "statement": "fixed_cauchy_matrix never divides by zero and yields a matrix whose square submatrices are all invertible, for every width t with 3t-2 < p (implied by the 128-bit check for any 64-bit t).", "quantifier": "every field of prime order, every t, every submatrix", "why_tests_cant": "unbounded t and p", "anchors": ["poseidon-paramgen/src/mds.rs: v1_generate, fixed_cauchy_matrix"]}
{"id": "C36", "title": "The generator's optimized matrices factor the mix layer", "statement": "generate_optimized yields M_prime * M_doubleprime = mds, two-sided inverses, and sparse factors such that diag(1,H^k) * mds = E_k * diag(1,H^(k+1)) for every partial round k, with M_i = diag(1, H^r_P), H = hat(mds); it succeeds exactly when 2 <= t <= 8, r_P >= 1, mds and hat(mds) are invertible and none of mds[0][0], the rest of row 0 and hat(mds)^-1 w is 0 or 1 (its zero/one count assertions reject such matrices although they are invertible); it always succeeds on the Cauchy matrices v1_generate makes.", "quantifier": "every field, width and number of partial rounds", "why_tests_cant": "unbounded rounds, widths, entries", "anchors": ["poseidon-paramgen/src/mds.rs: generate_optimized, calc_equivalent_matrices, prime, doubleprime"]}
{"id": "C37", "title": "Round-number search returns the cheapest secure choice", "statement": "For any security predicate, v1_generate/v2_generate return the security margin applied to a secure candidate with minimal S-box count after margin among all secure candidates with 1 <= r_P < 400, 4 <= r_F < 100, ties broken towards fewer full rounds; they panic iff there is no secure candidate.", "quantifier": "every security predicate (every M, p, t, alpha)", "why_tests_cant": "38,304 candidates times all inputs", "anchors": ["poseidon-paramgen/src/rounds.rs: v1_generate, v2_generate, sbox_count"]}
{"id": "C38", "title": "The floating-point security margin is exact", "statement": "apply_security_margin adds 2 full rounds and sets r_P to the least integer >= 1.075*r_P exactly (no floating-point surprise), for every r_P the search can produce.", "quantifier": "every r_P in 1..399 in IEEE-754 double arithmetic with round-to-nearest-even", "why_tests_cant": "rounding errors near exact multiples (r_P = 40k) decide the result", "anchors": ["poseidon-paramgen/src/rounds.rs: apply_security_margin"]}
{"id": "C39", "title": "The shipped round numbers are the generator's choice", "statement": "With M = 128, p = q, alpha = 17, t = 2..8 the search returns (r_F, r_P) = (8, 31), with IEEE-754 double rounding of every operation and any platform logarithms of relative error at most 2^-40.", "quantifier": "every candidate pair (r_P, r_F) of the search for the seven shipped widths, every sufficiently accurate logarithm", "why_tests_cant": "the generator is excluded from the workspace", "anchors": ["poseidon-paramgen/src/rounds.rs: is_secure_v1, statistical_attack_full_rounds, algebraic_attack_interpolation, algebraic_attack_grobner_basis_v1", "poseidon377/src/params/*: rounds"]}
{"id": "C40", "title": "The running binomial coefficient is exact", "statement": "In the Poseidon2 Groebner check the accumulator after step i is exactly C(upper, i+1) (the integer division never truncates), and the check reports the attack as possible iff 2*bitlength(C(upper,i)) < M for all 1 <= i <= lower. When lower <= upper/2 this is the paper's condition on C(upper,lower); beyond the middle the early exit makes it differ (concrete counterexample).", "quantifier": "every width, exponent, round numbers and security level", "why_tests_cant": "unbounded integers", "anchors": ["poseidon-paramgen/src/rounds.rs: algebraic_attack_grobner_basis_v2_possible"]}
{"id": "C41", "title": "The Poseidon2 internal matrix is invertible", "statement": "internal::generate(2) and (3) return the fixed matrices; the invertibility assertion holds iff the characteristic is not 5 (t=2) resp. 7 (t=3); every other t is refused.", "quantifier": "every field and every t", "why_tests_cant": "all fields", "anchors": ["poseidon-paramgen/src/v2/internal.rs: generate"]}
{"id": "C42", "title": "The Poseidon2 external matrix is circ(2*M4, M4, .., M4) and invertible", "statement": "external::generate(t) for t = 4d (d >= 2) has block (i,j) equal to 2*M4 on the diagonal and M4 off it; its determinant is (d+1)^4 (-64)^d, so it is invertible iff neither 2 nor d+1 vanishes in the field; t = 4 returns M4; other t panic.", "quantifier": "every field and every t", "why_tests_cant": "unbounded t", "anchors": ["poseidon-paramgen/src/v2/external.rs: generate"]}
{"id": "C43", "title": "log2 of a big integer", "statement": "utils::log2 shifts whole 48-bit blocks away: the value it takes the logarithm of is p >> 48k <= 2^50, in exact arithmetic the integer part of the result is floor(log2 p) and the result lies in [log2 p - log2(5/4), log2 p] (almost attained just above 2^50); in double arithmetic with a rounded logarithm the result stays within a small relative error of that, but can round up to the next integer (p = 2^98 - 1 gives 98).", "quantifier": "every positive integer p of any size", "why_tests_cant": "unbounded integers", "anchors": ["poseidon-paramgen/src/utils.rs: log2"]}
{"id": "C44", "title": "Generated source code denotes the generated constants", "statement": "The file written by v1_compile, read as Rust (decimal literals, F::from_str literals, vec! lists, constructor calls, struct literals), denotes exactly the generated parameter sets in the order of the requested widths: security level, width, S-box, round numbers and every matrix with its dimensions and elements. Parameter sets with the same text are equal. Everything v1::generate returns is printable. For an empty list the text is malformed ('vec]').", "quantifier": "every parameter set with non-empty matrices, every list of widths, every prime field", "why_tests_cant": "unbounded lists and all field elements", "anchors": ["poseidon-paramgen/src/poseidon_build.rs: v1_compile, serialize_slice_f, serialize_slice_of_vecs_f, serialize_slice_matrix_f, serialize_f, Display impls"]}
{"id": "C45", "title": "Poseidon2 generation is limited to widths 2 and 3", "statement": "v2::generate(t) panics for every t other than 2 and 3, although external matrices exist for multiples of 4.", "quantifier": "every t, M, p", "why_tests_cant": "all t", "anchors": ["poseidon-paramgen/src/v2.rs: generate", "poseidon-paramgen/src/v2/internal.rs: generate"]}
{"id": "C46", "title": "Degenerate round numbers", "statement": "With r_P = 0 the optimized permutation always panics while the unoptimized one, with a power S-box and enough rows of constants, does not; with an odd number of full rounds the generator's optimized constants do not reproduce the unoptimized permutation (there is a concrete counterexample).", "quantifier": "every parameter set with r_P = 0; existence of a counterexample for odd r_F", "why_tests_cant": "not covered by any test; the optimized/unoptimized equivalence silently depends on it", "anchors": ["poseidon-permutation/src/permutation.rs: permute", "poseidon-paramgen/src/round_constants.rs: generate_optimized"]}
{"id": "C47", "title": "The circuit refuses constants only", "statement": "InstanceVar::n_to_1_fixed_hash, and circuit hash_1..hash_7, panic when every input (domain separator included) is a constant: synthesis never returns. One variable input is enough for it to succeed (C10).", "quantifier": "every parameter set with a positive exponent and at least one round, every constant input", "why_tests_cant": "all inputs; tests always allocate the inputs", "anchors": ["poseidon-permutation/src/r1cs.rs: mix_layer_mds", "poseidon377/src/r1cs.rs: hash_1..hash_7"]}
{"id": "C48", "title": "Round constants are a stream", "statement": "Generating round constants never panics, yields exactly the requested number, and a shorter request yields a prefix of a longer one; in particular for equal inputs and round numbers the Poseidon2 constants are the first t*r_F + r_P of the Poseidon constants.", "quantifier": "every field, width, security level, round numbers, S-box and number of constants", "why_tests_cant": "unbounded numbers of constants", "anchors": ["poseidon-paramgen/src/round_constants.rs: v1_generate, v2_generate", "poseidon-paramgen/src/transcript.rs: domain_sep, round_constant"]}
{"id": "C49", "title": "Full rounds are 8 or 12", "statement": "For widths 2 to 8 and security levels up to 256, round-number generation always returns for an exponent S-box or the inverse S-box, and the number of full rounds is 8 or 12; in particular even, as the optimized constants need (C46). For exponents and widths up to 64 the result is a closed form: the two bounds of the paper plus the margin.", "quantifier": "every security level up to 256, every prime, width 2 to 8 (closed form: to 64) and S-box, every sufficiently accurate logarithm", "why_tests_cant": "unbounded inputs", "anchors": ["poseidon-paramgen/src/rounds.rs: v1_generate, statistical_attack_full_rounds"]}
{"id": "C50", "title": "When v1::generate succeeds", "statement": "v1::generate returns exactly when M <= 256, 2 <= t <= 8, p has at least 128 bits, and allow_inverse is set or an odd exponent with an addition chain of length at most 7 is coprime to p-1; the returned round numbers fix the array sizes (r_P + r_F rows of constants, r_P sparse matrices).", "quantifier": "every prime field, width, security level and flag, every sufficiently accurate logarithm", "why_tests_cant": "unbounded inputs; the generator is excluded from the workspace", "anchors": ["poseidon-paramgen/src/v1.rs: generate"]}
{"id": "C51", "title": "Hashing with generated parameters is textbook Poseidon", "statement": "Whatever v1::generate returns, n_to_1_fixed_hash computes word 1 of textbook Poseidon with the Cauchy matrix and the generated S-box, round numbers and constants; with an exponent S-box it never panics and the output words are a bijection of the input words; with the inverse S-box (which the generator may choose for allow_inverse) some input makes it panic.", "quantifier": "every prime field, every successful generator run, every input", "why_tests_cant": "unbounded inputs", "anchors": ["poseidon-paramgen/src/v1.rs: generate", "poseidon-permutation/src/permutation.rs: n_to_1_fixed_hash, permute"]}
{"id": "C52", "title": "Which Poseidon2 matrices are MDS", "statement": "The matrix for width 2 is MDS iff 2, 3, 5 do not vanish in the field; for width 3 iff 2, 3, 5, 7 do not; the external matrix for width 4 iff 2, 3, 5, 7, 11, 13, 19, 23 do not; no external matrix of width 8 or more is MDS over any field.", "quantifier": "every field, every width, every square submatrix", "why_tests_cant": "all fields and submatrices", "anchors": ["poseidon-paramgen/src/v2/internal.rs: generate", "poseidon-paramgen/src/v2/external.rs: generate"]}
{"id": "C53", "title": "No difference passes the Poseidon2 partial rounds unnoticed", "statement": "For the internal matrices of width 2 and 3, over every field, two different states differ in word 0 (the only word the partial S-box touches) after fewer than t applications of the matrix: no arbitrarily long inactive trail, the property internal::generate's documentation demands but does not check.", "quantifier": "every field, every pair of states", "why_tests_cant": "all pairs of states", "anchors": ["poseidon-paramgen/src/v2/internal.rs: generate"]}
{"id": "C54", "title": "Poseidon2 round numbers and parameters for the curve's field", "statement": "The Poseidon2 search never returns round numbers with fewer S-boxes than the Poseidon search on the same input, and returns the same ones unless the additional Groebner attack applies to Poseidon's choice. For q, 128 bits and t = 2..8 it returns 8 full and 31 partial rounds; for t = 2, 3 v2::generate returns them with alpha = 17, the paper's matrix as both internal and external matrix, and the first 8t+31 of the shipped Poseidon constants of that width as round constants.", "quantifier": "every width, exponent, field, security level; every sufficiently accurate logarithm", "why_tests_cant": "whole search space, all libms", "anchors": ["poseidon-paramgen/src/v2.rs: generate", "poseidon-paramgen/src/rounds.rs: v2_generate, is_secure_v2", "poseidon-paramgen/src/round_constants.rs: v2_generate"]}
{"id": "C55", "title": "No Poseidon2 code is ever generated", "statement": "v2_compile panics for every non-empty list of widths (at the latest at the todo!() in the Display implementation); for the empty list it returns the two use lines.", "quantifier": "every list of widths, every generator result", "why_tests_cant": "all inputs", "anchors": ["poseidon-paramgen/src/poseidon_build.rs: v2_compile, DisplayableV2PoseidonParameters"]}
{"id": "C56", "title": "What the round-number search accepts", "statement": "The floating-point test behind the generated round numbers decides the inequalities of the paper: for a power S-box, numbers meeting them with slack 1e-6 are accepted and accepted numbers meet them up to 1e-6; for the inverse S-box the test is exact; Poseidon2's test adds exactly the condition that one of the binomial coefficients has at least M/2 bits. So generated numbers satisfy the paper's inequalities and no cheaper candidate does with slack.", "quantifier": "every security level and field size up to 4096 bits, width up to 4096 (64 for the inverse S-box), exponent from 3, round numbers; every sufficiently accurate logarithm", "why_tests_cant": "the real inequalities and all floating-point roundings; tests compare a few table rows", "anchors": ["poseidon-paramgen/src/rounds.rs: v1_generate, v2_generate, is_secure_v1, is_secure_v2, statistical_attack_full_rounds, algebraic_attack_interpolation, algebraic_attack_grobner_basis_v1, algebraic_attack_grobner_basis_v2_possible"]}
{"id": "C57", "title": "More rounds are never less secure", "statement": "Adding full or partial rounds to accepted round numbers gives accepted round numbers; in particular the numbers returned, security margin included, are accepted themselves.", "quantifier": "every field, width, security level, S-box and pair of round numbers; every sufficiently accurate logarithm", "why_tests_cant": "all pairs of round numbers", "anchors": ["poseidon-paramgen/src/rounds.rs: v1_generate, v2_generate, is_secure_v1, is_secure_v2"]}
{"id": "C58", "title": "More security is never cheaper", "statement": "If the search succeeds at some security level it succeeds at every lower one for the same field, width and S-box, with at most as many S-boxes; and whenever the Poseidon2 search succeeds at 256 bits or less the Poseidon search does, with at most as many S-boxes.", "quantifier": "every field, width, S-box and pair of security levels; every sufficiently accurate logarithm", "why_tests_cant": "all pairs of security levels", "anchors": ["poseidon-paramgen/src/rounds.rs: v1_generate, v2_generate"]}
{"id": "C59", "title": "When Poseidon and Poseidon2 get the same round numbers", "statement": "For at most 256 bits of security, power S-boxes, widths 2 to 64 and fields with at least as many bits as the security level both searches return the same round numbers, as the comment in appendix_g.rs says. For smaller fields the comment is false: with 7-bit fields, width 2, x^3 and 256 bits they differ, and so they do for every 128-bit field, which the generator accepts, with width 2, x^17 and 256 bits.", "quantifier": "every security level up to 256, every such field, width and exponent from 3; every sufficiently accurate logarithm", "why_tests_cant": "whole parameter space", "anchors": ["poseidon-paramgen/src/rounds.rs: v1_generate, v2_generate", "poseidon-paramgen/src/appendix_g.rs: table_7_concrete_instances_alpha_3, table_8_concrete_instances_alpha_5"]}
{"id": "C60", "title": "The circuit hash only appends to the constraint system", "statement": "Hashing in a circuit keeps all earlier constraints, assigned witnesses and public inputs in place and in order, adds no public input, and constrains and returns allocated variables only; a satisfying assignment of the result satisfies what was there before, so several hashes can share a constraint system.", "quantifier": "every parameter set, constraint system and choice of input variables", "why_tests_cant": "all circuits around the gadget", "anchors": ["poseidon-permutation/src/r1cs.rs: n_to_1_fixed_hash", "poseidon377/src/r1cs.rs: hash_1 .. hash_7"]}
{"id": "C61", "title": "The circuit hash has no free witness", "statement": "Every assignment satisfying the constraints before the hash extends in exactly one way to the witnesses the hash allocates: a prover has no choice, and is never stuck.", "quantifier": "every parameter set, well-formed constraint system, choice of input variables and assignment", "why_tests_cant": "all assignments of a field of 2^253 elements", "anchors": ["poseidon-permutation/src/r1cs.rs: n_to_1_fixed_hash"]}
{"id": "C62", "title": "The preimage circuit of the shipped proving key", "statement": "The constraint system of PreimageCircuit is satisfiable for public inputs y exactly when they are hash_1 .. hash_7 of prefixes of some seven preimages under the domain separator; any satisfying assignment contains such preimages; setup and proving always succeed and produce the same system (8 instance variables, 2457 witnesses, 2457 constraints, the numbers of the shipped key) whatever the values; the prover's assignment satisfies it exactly when the claimed outputs are the native hashes; the preimages determine all other witnesses.", "quantifier": "every preimage and output tuple, every assignment, both synthesis modes", "why_tests_cant": "the tests try one happy and five unhappy random cases with an honest prover", "anchors": ["poseidon-tests/tests/poseidon377_r1cs.rs: PreimageCircuit::generate_constraints, generate_test_parameters", "poseidon377/src/r1cs.rs: hash_1 .. hash_7"]}
{"id": "C63", "title": "Circuits for generated parameters", "statement": "With any parameter set returned by v1::generate whose S-box is an exponent, key generation and proving succeed on inputs of which at least one is a variable, every satisfying assignment gives the output the native hash of the inputs, the honest assignment satisfies, and the number of constraints is the S-box cost times (variable inputs + (r_F-1)*t + r_P); with the inverse S-box the circuit code panics on every input.", "quantifier": "every field, security level and width the generator accepts, every input and constraint system", "why_tests_cant": "the gadget is tested for the shipped parameters only", "anchors": ["poseidon-paramgen/src/v1.rs: generate", "poseidon-permutation/src/r1cs.rs: InstanceVar::n_to_1_fixed_hash"]}
{"id": "C64", "title": "Which exponent the generator picks, and what it costs in the circuit", "statement": "The exponent is the first of 3, 5, 7, 17, 13, 11, 23, 19, 43, 41, 37, 31, 29 that does not divide p-1. An S-box costs at most 8 constraints and at most one more than the cheapest admissible exponent, and is the cheapest unless it is 23, 31 or 43. Finding: for some primes the choice is not the cheapest for the circuit (23 costs 7 although 19 is admissible and costs 6).", "quantifier": "every prime other than 3, every odd admissible exponent", "why_tests_cant": "quantifies over all primes and over unboundedly many exponents", "anchors": ["poseidon-paramgen/src/alpha.rs: v1::alpha_generate", "poseidon-permutation/src/r1cs.rs: full_sub_words, partial_sub_words"]}
{"id": "C65", "title": "The reference script and the crate compute the same function", "statement": "The two permutation algorithms of poseidonperm_x17.sage agree with each other on every input, and with what the shipped rate-2 instance leaves in output_words after optimized or unoptimized hashing on any instance; hash_2 is word 1 of it. The script's constants, MDS matrix and all tables it derives are the shipped ones. The agreement of the two algorithms of the script holds for every field, width, exponent, round constants and matrix for which the script does not raise an exception.", "quantifier": "every input triple and instance history; for the algorithms every field, width, exponent, constants and matrix with the required inverses", "why_tests_cant": "the consistency test compares the input (0, 1, 2) only", "anchors": ["poseidonperm_x17.sage: perm, perm_original, calc_equivalent_constants, calc_equivalent_matrices, cheap_matrix_mul", "poseidon-consistency/src/lib.rs: check_optimized_impl_vs_sage, check_unoptimized_impl_vs_sage", "poseidon-permutation/src/permutation.rs: Instance::n_to_1_fixed_hash, Instance::unoptimized_n_to_1_fixed_hash"]}
{"id": "C66", "title": "When hashing with user-supplied parameters panics", "statement": "With arbitrary tables and round numbers in the parameters and the power S-box, the optimized hash returns a digest exactly if there are at least as many rows of constants as rounds, at least one partial round and at least one sparse matrix per partial round; the unoptimized hash and the circuit (key generation and proving) return exactly if there are enough rows of constants. Nothing else matters: not the input, not the instance's history, not the values in the tables. With the inverse S-box the only further panic is the inversion of zero, and the circuit panics whenever there is a round at all.", "quantifier": "every field, width of at least 2, table contents, round numbers, input and instance state", "why_tests_cant": "the tests use the shipped parameters only", "anchors": ["poseidon-permutation/src/permutation.rs: Instance::n_to_1_fixed_hash, Instance::unoptimized_n_to_1_fixed_hash", "poseidon-permutation/src/r1cs.rs: InstanceVar::n_to_1_fixed_hash"]}
{"id": "C67", "title": "Debug and release builds on every machine compute the same digests", "statement": "Optimized and unoptimized hashing and the circuit return the same values and panic on the same inputs with checked (debug) and wrapping (release) usize arithmetic on words of any size that the table sizes fit, namely those of unbounded integers; the shipped parameters never panic on words of 16 bits or more. Finding: Matrix::get_element with a huge row index and Matrix::new with huge dimensions wrap in release builds and return another entry or an inconsistent matrix.", "quantifier": "every word size, build mode, parameter set fitting the word, input and instance state", "why_tests_cant": "tests run one build on one machine", "anchors": ["poseidon-permutation/src/permutation.rs: Instance::n_to_1_fixed_hash, Instance::unoptimized_n_to_1_fixed_hash", "poseidon-permutation/src/r1cs.rs: InstanceVar::n_to_1_fixed_hash", "poseidon-parameters/src/matrix.rs: Matrix::get_element, Matrix::set_element, Matrix::new"]}
{"id": "C68", "title": "Any two different inputs activate many S-boxes, and one S-box spreads differences", "statement": "Hashing two different inputs gives different values to at least R_F/2 * (t+1) + floor(R_P/t) of the S-boxes of the permutation, for the shipped parameters and for whatever the generator returns (inputs on which the inverse S-box panics excepted). Of the inputs of one S-box with a given non-zero difference at most alpha - 1 (16 for the shipped S-box, 2 for the inverse) give any one output difference.", "quantifier": "every pair of different inputs; every rate; every run of the generator; all differences of one S-box", "why_tests_cant": "the number of pairs of states is about 2^500 and more; the bound is the assumption behind the statistical round number estimate", "anchors": ["poseidon-permutation/src/permutation.rs: Instance::n_to_1_fixed_hash", "poseidon-paramgen/src/rounds.rs: statistical bound", "poseidon-paramgen/src/mds.rs: fixed_cauchy_matrix", "poseidon-paramgen/src/alpha.rs: generate"]}
{"id": "C69", "title": "The round numbers of the paper, and their independence of the modulus", "statement": "For every modulus of the size given in a row of Tables 7, 8 and 9 of the paper the search returns the round numbers of the row, except that for x^3 and x^5 and moduli with no more bits than the security level there may be one partial round less, as a comment in appendix_g.rs says; for x^3 and x^5 the Poseidon2 search returns the same. Moduli of at least M+2 bits, M the security level, all get the same round numbers, from either search, for each width and S-box.", "quantifier": "every modulus of the size of a row; every pair of moduli of at least M+2 bits, every width, exponent and security level from 80 to 256; every sufficiently accurate logarithm (for the tables also monotone and exact on powers of two)", "why_tests_cant": "the tests use one random prime for each row", "anchors": ["poseidon-paramgen/src/rounds.rs: v1_generate, v2_generate", "poseidon-paramgen/src/appendix_g.rs: table_7_concrete_instances_alpha_3, table_8_concrete_instances_alpha_5, table_9_concrete_instances_inverse_alpha", "poseidon-paramgen/src/utils.rs: log2"]}
{"id": "C70", "title": "Agreement with the round number script of the Poseidon authors", "statement": "At 80 to 256 bits of security, for widths 2 to 8, S-boxes x^3 to x^64 and every modulus of at least M+2 bits, the generator returns the round numbers that the authors' script calc_round_numbers.py (vendored) returns, although the script tries other candidates, rounds in another order, has another Gr\u00f6bner basis condition and overwrites its loop variable. The number is 8 full rounds and, before the margin, ceil(M log_e 2) + ceil(log_e t) - 5 partial rounds, whatever mathematical library is used, unless M log_e 2 is within 10^-6 of an integer. For decaf377 the script returns the shipped numbers.", "quantifier": "every security level, width, exponent and modulus in the stated ranges; every sufficiently accurate logarithm (also two different ones)", "why_tests_cant": "the tests compare a few table rows, and the script is never run by them", "anchors": ["vendor/hadeshash/code/calc_round_numbers.py: find_FD_round_numbers, sat_inequiv_alpha, get_sbox_cost", "poseidon-paramgen/src/rounds.rs: v1_generate", "poseidon-paramgen/src/utils.rs: log2"]}
{"id": "C71", "title": "The matrix tests of the Poseidon authors", "statement": "The authors' script draws matrices until one passes three tests (algorithm_1, algorithm_2, algorithm_3) against subspace trails; the generator here runs none. For an invertible matrix test 1 accepts exactly if word 0 observes every non-zero difference within fewer than t multiplications; test 2 exactly if the multiples of (1,0,..,0) by powers of the matrix span all states; test 3 exactly if that holds for every r-th power, 2 <= r <= 4t. The shipped matrices of all seven rates pass all three. Every generated matrix passes tests 1 and 2, and of width 2 or 3 also test 3. At width 5 there is a 172-bit prime field for which the generator returns a matrix that test 3 rejects.", "quantifier": "every field, every square matrix; every parameter set the generator returns; all seven shipped rates", "why_tests_cant": "the tests check only that the shipped matrix is what the Cauchy formula gives, and never run the authors' script", "anchors": ["vendor/hadeshash/code/generate_parameters_grain.sage: algorithm_1, algorithm_2, algorithm_3, generate_vectorspace, subspace_times_matrix", "poseidon-paramgen/src/mds.rs: v1_generate, fixed_cauchy_matrix"]}
{"id": "C72", "title": "Algebraic degree of the hash in each argument", "statement": "For hash_1 .. hash_7 and every shipped instance: with all arguments but one (the domain separator or any message word) fixed to any values, the digest is a polynomial in the remaining argument of degree exactly 17^39. Hence no polynomial of lower degree agrees with the hash on more than 17^39 values of that argument (q > 17^39 * 2^92), each field element is the digest of at most 17^39 values of that argument, and the digest takes more than 2^92 values as that argument varies. For every generated parameter set with a power S-box the degree is at most alpha^(r_F + r_P), with a top coefficient that depends on the matrix only.", "quantifier": "every rate, every choice of the variable word, every value of the other words, every digest, every polynomial of lower degree", "why_tests_cant": "degree and preimage counts speak of all 2^252 values of an argument", "anchors": ["poseidon377/src/hash.rs: hash_1 .. hash_7", "poseidon-permutation/src/permutation.rs: n_to_1_fixed_hash, permute", "poseidon377/src/params/*: PARAMS"]}
{"id": "C73", "title": "Separation of domain separators, argument positions and arities", "statement": "Two calls that share the value z of one argument seldom agree. With two different domain separators and otherwise equal messages, the digests of hash_n agree for at most 17^39 - 17 values of any one message word; the same holds when one other word of any position differs. If z stands at different argument positions (for instance exchanged with its neighbour), or the two hashes have different arities, the digests agree for at most 17^39 values of z, whatever the other arguments are; q > 17^39 * 2^92.", "quantifier": "every pair of domain separators, every pair of argument positions, every pair of arities, all values of the other arguments", "why_tests_cant": "separation speaks of all 2^252 values of an argument; tests compare a few digests", "anchors": ["poseidon377/src/hash.rs: hash_1 .. hash_7", "poseidon-permutation/src/permutation.rs: n_to_1_fixed_hash, permute", "poseidon377/src/params/*: PARAMS"]}
{"id": "C74", "title": "Round constants are close to uniform", "statement": "Each round constant is the little-endian value modulo p of ceil((bits + 128)/8) bytes squeezed from the transcript. Over all byte strings of that length every field element occurs floor(N/p) times or once more, so that, were the bytes uniform, a constant would be within statistical distance 2^-130 of a uniform field element.", "quantifier": "every modulus, every transcript state, every field element, all byte strings", "why_tests_cant": "the distribution ranges over 2^384 byte strings", "anchors": ["poseidon-paramgen/src/transcript.rs: round_constant", "poseidon-paramgen/src/round_constants.rs: v1_generate"]}
{"id": "C75", "title": "Generated round constants depend on the machine's word size", "statement": "Finding: the domain separation of the generator appends t and the security level as usize bytes, so machines of different word sizes never have the same transcript; on a 32-bit machine the generator returns, for the input of each of the seven shipped parameter sets, a matrix of constants that differs from the shipped one already in the first constant.", "quantifier": "every instance and pair of word sizes; all seven shipped rates", "why_tests_cant": "tests run on one machine", "anchors": ["poseidon-paramgen/src/transcript.rs: domain_sep", "poseidon-paramgen/src/round_constants.rs: v1_generate", "poseidon377/src/params/*: PARAMS"]}
{"id": "C76", "title": "Machine arithmetic never disturbs the choice of round numbers", "statement": "The generator chooses round numbers with f64 logarithms, saturating casts, a 32-bit counter and usize products. For every width from 1, every security level, every modulus from 2 with at most 2^31 bits, every exponent the generator can choose, and on every build (words of 32 to 64 bits, overflow checked or wrapping), no NaN, infinity, subnormal number, saturation, overflow or wrap-around changes the outcome: it is the one of the same search with rounded reals and unbounded integers. Two builds with the same logarithms choose the same round numbers or panic alike; for the crate's field, exponent 17 and widths 2 to 8 it is always 8 full and 31 partial rounds. f64::from(Alpha) is exact and injective.", "quantifier": "every input, every build, every library of logarithms with relative error at most 2^-40", "why_tests_cant": "tests run one build on a few inputs; an overflow on another word size or for a wide state would not show", "anchors": ["poseidon-paramgen/src/rounds.rs: v1_generate, v2_generate, is_secure_v1, is_secure_v2, cmp_f64", "poseidon-paramgen/src/utils.rs: log2", "poseidon-parameters/src/alpha.rs: f64::from"]}
{"id": "C77", "title": "The modulus given to the generator is not checked against the field", "statement": "v1::generate::<F>(M, t, p, allow_inverse) never compares p with the modulus m of F. Over a field of at least 128 bits it returns exactly when M <= 256, t is 2 to 8, p has at least 128 bits and an S-box is found for p, whatever m is, and for p = m it is the generator of C20, C50 and C51. Whatever p was, the optimized, the unoptimized and the textbook hash with the returned parameters agree. But the exponent is coprime to p - 1, and the hash permutes the state exactly when it is coprime to m - 1; otherwise every input except one has a second preimage. Finding: for decaf377::Fq and the modulus of BN254 the generator returns exponent 5, which divides q - 1, for all widths and security levels.", "quantifier": "every field of 128 bits or more, every argument p, every width, security level and input", "why_tests_cant": "tests pass the right modulus; a second preimage for every input is a statement about all states", "anchors": ["poseidon-paramgen/src/v1.rs: generate", "poseidon-paramgen/src/alpha.rs: generate", "poseidon-paramgen/src/mds.rs: v1_generate", "poseidon-paramgen/src/transcript.rs: round_constant"]}
{"id": "C78", "title": "When the generators return, for any const generics", "statement": "The caller fixes the array sizes as const generics before the round numbers are known. v1::generate returns exactly when M <= 256, 2 <= t <= 8, the modulus has 128 bits, an S-box is found, and the five sizes are t^2, (t-1)^2, r_P + r_F, t (r_P + r_F) and r_P; any other sizes panic, and with whatever sizes a parameter set was returned, optimized and unoptimized hashing with it agree. v2::generate returns exactly when t is 2 or 3, 5 respectively 7 is not zero in the field, a positive exponent and round numbers are found, and the sizes are t^2 and t r_F + r_P; for M <= 256, or M <= 1500 and a modulus below 2^384, round numbers are always found. Finding: version 2 has no limit on the security level; for decaf377::Fq, widths 2 and 3 and every level from 257 to 1500 version 1 panics and version 2 returns.", "quantifier": "all values of the const generics, all security levels, widths, prime moduli and fields", "why_tests_cant": "the sizes range over all numbers; tests use the right ones", "anchors": ["poseidon-paramgen/src/v1.rs: generate", "poseidon-paramgen/src/v2.rs: generate", "poseidon-paramgen/src/rounds.rs: v1_generate, v2_generate", "poseidon-parameters/src/matrix.rs: new"]}
{"id": "C79", "title": "The security estimates of the reference script", "statement": "poseidonperm_x17.sage asks whether the shipped instances resist the two attacks of iacr/2024/310. Eigenpolynomial attack: the estimate is at least 311 bits for every input and output rate, also for the rates the script does not print. Root extraction: the script answers yes for every input rate. Finding: that answer is void, since the script takes log2 of the prime for the prime and compares a number of operations with a number of bits; it answers yes up to 16000 bits for every exponent and round numbers with a degree of at least 253, e.g. two partial rounds and no full round. Computed as intended, the shipped round numbers give at least 156 bits for every input rate.", "quantifier": "every input and output rate, security level and round numbers, every evaluation of the logarithms with relative error up to 2^-30", "why_tests_cant": "the script prints thirteen cases; the void test answers yes in all of them", "anchors": ["poseidonperm_x17.sage: resist_eigenpolynomial_computation, resist_root_extraction"]}
{"id": "C80", "title": "A hash run does not reveal what is hashed, and its cost", "statement": "With a power S-box the sequence of field operations and array accesses of n_to_1_fixed_hash and unoptimized_n_to_1_fixed_hash, up to the return or the panic, is the same for all inputs, earlier states and table contents: it depends on the array sizes, round numbers and exponent only. With the inverse S-box two runs look the same until one of them panics on the inversion of zero. A returning run on t words makes 2 floor(r_F/2) t + r_P S-box calls; the optimized one makes (2 floor(r_F/2) + 1) t^2 + r_P (2t - 1) multiplications, the other (2 floor(r_F/2) + r_P) t^2. For the shipped rates: 8t + 31 S-boxes, 9t^2 + 31(2t - 1) against 39t^2 multiplications, and the optimized function is cheaper in every price list in which additions or multiplications cost something. The time a single field operation takes is up to decaf377.", "quantifier": "all inputs, states, tables, fields, sizes, round numbers, exponents; all prices of operations", "why_tests_cant": "equality of traces is a statement about all pairs of inputs; a test measures some", "anchors": ["poseidon-permutation/src/permutation.rs: n_to_1_fixed_hash, unoptimized_n_to_1_fixed_hash, permute, unoptimized_permute, sparse_mat_mul, mix_layer_mds, mix_layer_mi, full_sub_words, partial_sub_words"]}
{"id": "C81", "title": "The crate computes what the authors' reference scripts compute", "statement": "permute and unoptimized_permute are documented as the algorithms of two reference scripts. An instance whose exponent, round numbers, matrix and round constants are those of a script returns from unoptimized_n_to_1_fixed_hash word 1 of the script's simple permutation and keeps all its words; if it also has the matrices and constants the script computes, n_to_1_fixed_hash returns word 1 of the script's optimized permutation. What the generator of the crate returns as optimized tables is what the script computes. This holds for every field, width, exponent, round numbers, invertible matrix, constants, input and earlier state. The matrices in the five scripts of the authors are MDS; the four with exponent 5 agree with the crate on every input, and the assertion at the end of the script with exponent 3, made there for one input, holds for every input.", "quantifier": "all fields, widths, parameters, inputs and states; for the five scripts all inputs", "why_tests_cant": "the scripts and test vectors cover one input per parameter set; MDS is about all submatrices", "anchors": ["poseidon-permutation/src/permutation.rs: permute, unoptimized_permute", "poseidon-paramgen/src/mds.rs: generate_optimized", "poseidon-paramgen/src/round_constants.rs: generate_optimized", "vendor/hadeshash/code/poseidonperm_x5_*.sage: perm", "vendor/hadeshash/code/poseidonperm_x3_64_24_optimized.sage: perm, perm_original, calc_equivalent_constants, calc_equivalent_matrices"]}
{"id": "C82", "title": "The parameter generator of the authors' script", "statement": "generate_parameters_grain.sage draws constants and a matrix from an 80-bit shift register (Grain). The register holds the arguments in fixed fields followed by ones, and has 80 bits exactly if every argument fits its field; different arguments give different starts. From such a start it never runs dry: any number of bits can be drawn, and they are the second bits of the pairs, after 160 discarded bits, whose first bit is 1. The constants for a prime field are the first numbers below the prime, in order, and are returned exactly if there are enough of them. The matrix is the Cauchy matrix of the first block of numbers that are distinct, have no zero sum and pass the three matrix tests; it is MDS. The script returns exactly if there is such a block, and never for a prime below twice the width. The round constants and matrices in the authors' five permutation scripts are exactly what it returns for their arguments.", "quantifier": "all arguments, any number of draws, any number of repeated attempts of the unbounded loops", "why_tests_cant": "the loops have no bound and tests cannot show that they end; the published literals are compared digit by digit by the proof", "anchors": ["vendor/hadeshash/code/generate_parameters_grain.sage: grain_sr_generator, grain_random_bits, init_generator, generate_constants, create_mds_p, generate_matrix", "vendor/hadeshash/code/poseidonperm_x5_*.sage: round_constants, MDS_matrix", "vendor/hadeshash/code/poseidonperm_x3_64_24_optimized.sage: round_constants, MDS_matrix"]}
{"id": "C83", "title": "The parameter script vendor/generate_mds.sage", "statement": "The script, which by its own header writes the parameters of the crate, returns for every prime field, hash function, name and size the Cauchy matrix of the first of 100 attempts that has no eigenvector, and raises exactly if an earlier attempt has two equal elements or all 100 matrices have eigenvectors; its assertions about the determinant never fail. A returned matrix is MDS without eigenvectors, and for two and three words every difference reaches word 0. With optimize_mds=True the matrices are near-MDS over every field (branch number m, reached), have determinants 2 and -3, and the one for four words lets a difference pass any number of partial rounds without an active S-box. No string is hashed twice in a run, but the round constants of all sizes are the beginning of one sequence. With SHA-256 over the scalar field the five calls return the matrices of attempts 0, 0, 2, 1, 1, which pass all tests of the authors and are not those shipped in the crate. The round numbers are (8,30), (8,31), (8,30), (8,26), (8,23): the logarithm of the field size is taken to the wrong base, and for six words the numbers, margin included, do not satisfy the inequalities of the paper for 128 bits.", "quantifier": "all fields, hash functions, names, sizes and vectors; for round numbers and runs the five calls of the script", "why_tests_cant": "which attempt succeeds, that assertions never fail, that no vector is an eigenvector: statements about all inputs; the script cannot be run on all hash functions", "anchors": ["vendor/generate_mds.sage: generate_round_constant, generate_mds_matrix, generate_ark_rs, calculate_num_poseidon_rounds"]}
{"id": "C84", "title": "The whole round number script of the Poseidon authors", "statement": "vendor/hadeshash/code/calc_round_numbers.py returns round numbers for the exponents -1 and at least 2 and raises for all others, whatever the field, width, level and cost function. With the number of S-boxes or the size in bits as the cost the result is the same. For the cube, fifth power and inverse it returns, for every modulus of the stated number of bits, 8 full rounds and the partial rounds of tables 7, 8, 9 of the paper (tables 7 and 8: or one fewer, where the modulus has no more bits than the security level). For larger moduli, widths 2 to 8 and 80 to 256 bits, the numbers are, without the margin, 6 full rounds and r partial rounds, with it 8 and ceil(1.075 r), and these are the numbers of the generator, for x^3 to x^64 and for the inverse. The number of S-boxes printed is t R_F + R_P, the size that times the bits of the modulus. On the scalar field of BLS12-377 it prints 37 partial rounds for x^11 and 31 for x^17; on that of BLS12-381 56 for x^5, fewer than the authors' own permutation scripts use. Five times the number of S-boxes printed for x^17 is exactly the number of constraints of the crate's circuits with variable inputs; each constant input saves five. There is a 256-bit prime for which v1::generate returns, for all widths, one partial round fewer than the script.", "quantifier": "all moduli of the sizes stated, all widths and levels in the ranges, all logarithms accurate to 2^-40, all circuits", "why_tests_cant": "the moduli and the logarithms cannot be enumerated, and the script searches tables of 50000 candidates each", "anchors": ["vendor/hadeshash/code/calc_round_numbers.py: sat_inequiv_alpha, get_sbox_cost, get_size_cost, get_depth_cost, find_FD_round_numbers, calc_final_numbers_fixed", "poseidon-paramgen/src/rounds.rs: v1_generate", "poseidon-permutation/src/r1cs.rs: n_to_1_fixed_hash"]}
{"id": "C85", "title": "The circuit down to the matrices of the proof system", "statement": "In ark-relations each sum, multiple and constraint side of the circuit is a numbered symbolic combination that may use earlier ones; finalize inlines them, deletes each after its last use and to_matrices writes the three matrices. For every system the API can build this never panics and gives one row per constraint with increasing columns, no zeros and only allocated columns; an assignment satisfies the matrices exactly when each constraint holds between the values of its combinations. For every assignment that satisfies the matrices, the value of the circuit hash's output is the native hash of the values of its inputs; the prover's assignment satisfies them; and the columns the hash adds are determined by those before. For the preimage circuit of the test-suite the matrices have 2457 rows, 8 public and 2457 private columns, are the same for all values and both modes, the prover's columns satisfy them exactly when the claim is true, public inputs can be completed to a satisfying assignment exactly when they have preimages, and these are the first seven private columns.", "quantifier": "all constraint systems the API can build, all assignments of the columns, all parameters with a power S-box, all inputs, both modes", "why_tests_cant": "the matrices are what proofs are about, and a test proves one honest statement; soundness is about all assignments, and the deletion during inlining depends on the whole circuit", "anchors": ["poseidon-permutation/src/r1cs.rs: n_to_1_fixed_hash, permute", "poseidon377/src/r1cs.rs: hash_1 .. hash_7", "poseidon-tests/tests/poseidon377_r1cs.rs: generate_constraints, groth16_hash_proof_happy_path"]}
{"id": "C86", "title": "The shipped proving key is a key of this circuit", "statement": "poseidon-tests/test_vectors/preimage_pk.bin was written by an earlier run of the key generator and the tests prove with it, so proving works only as long as the circuit still is the one the key was made for. Every key the generator can make for the circuit at this commit, with 4096 evaluation points, has in each of its six lists as many points as the shipped one; the points at infinity of the shipped key are at infinity in it and the points that are equal in the shipped key are equal in it, whatever the secrets; and unless the secret point is one of at most 30282525 values, fixed by the circuit alone, there are no other points at infinity and no other equalities: the key has exactly the shape of the shipped one.", "quantifier": "all secrets of the key generator, all values in the circuit the key is made with, all groups", "why_tests_cant": "the shipped key is one key with unknown secrets; that it cannot have come from a circuit of another shape is about all secrets", "anchors": ["poseidon-tests/test_vectors/preimage_pk.bin", "poseidon-tests/test_vectors/preimage_vk.param", "poseidon-tests/tests/poseidon377_r1cs.rs: PREIMAGE_PROOF_PROVING_KEY, generate_test_parameters, generate_constraints"]}
{"id": "C87", "title": "The tests of the proof system, for all inputs and randomness", "statement": "The key generator of the test-suite succeeds for all secrets it can invert, and the key does not depend on the circuit values it was made with. A proof of a true claim is accepted, for all preimages, secrets, prover randomness, in debug and release builds. For a false claim the prover panics in debug builds; in release builds its proof is rejected, as is any proof checked against other public inputs, for all but 2 * 4096 - 2 values of the secret point (for a true claim and other inputs 4096 - 1), unless the secret beta is zero. A list of public inputs of another length is an error. groth16_hash_proof_happy_path passes on every test vector with every key, groth16_hash_proof_unhappy_path on every test vector with every key but those of 4096 - 1 values of the secret point and those with beta zero.", "quantifier": "all inputs, secrets, randomness, bilinear groups, evaluation domains large enough, debug and release builds", "why_tests_cant": "the tests draw a few random inputs and use one key", "anchors": ["poseidon-tests/tests/poseidon377_r1cs.rs: groth16_hash_proof_happy_path, groth16_hash_proof_unhappy_path, generate_test_parameters"]}
{"id": "C88", "title": "What a proof reveals, and what it does not prevent", "statement": "With the two random numbers of the prover uniform, the proof of a true claim has exactly the distribution of a proof written down from the public inputs and the secrets of the key, without the preimages; two preimages of the same hashes give the same distribution of proofs. Whoever knows the secrets of a key can make accepted proofs of every claim, and from an accepted proof anyone can make others of the same claim.", "quantifier": "all preimages, claims, secrets, prover randomness, bilinear groups, debug and release builds", "why_tests_cant": "a test sees a few proofs, not their distribution", "anchors": ["poseidon-tests/tests/poseidon377_r1cs.rs: groth16_hash_proof_happy_path, generate_test_parameters"]}
{"id": "C89", "title": "An accepted proof comes from someone who knows preimages", "statement": "A prover that makes its proof from the points of the key, by any linear combinations it likes, and convinces the verifier with more than a share of (3 * 4096 - 2) / q of the secrets, has the preimages of the claimed hashes among its coefficients: they can be read off. A strategy that does not contain preimages convinces the verifier for at most that share of the secrets, whatever the claim. The prover of the library is such a strategy, and convinces with all secrets.", "quantifier": "all strategies (coefficients for the points of the key), claimed hashes, bilinear groups, evaluation domains large enough", "why_tests_cant": "the tests try one wrong claim of an honest prover, not every prover", "anchors": ["poseidon-tests/tests/poseidon377_r1cs.rs: groth16_hash_proof_unhappy_path, generate_test_parameters, generate_constraints"]}
{"id": "C90", "title": "The files with the keys", "statement": "The proving key and the verifying key that the test-suite writes are read back as the same keys, also with other bytes after them, and with keys that were generated, written and read again the happy path passes. What can be read is a precise format: a file is read as a key exactly if it begins with a text of that key, and every other file panics; a key that was read consists of points of the curves that pass the test for the subgroup. Different keys have different files, any proper beginning of a file panics, the proving key's file begins with the verifying key's, which can be read from it but is not itself read as a proving key. A file is not determined by its key: for every key there are other files of the same length that are read as the same key, because the sign of a point is not compared with its coordinates. Files have 96 bytes per point of the first group, 192 per point of the second and 8 per list, for every key of the circuit 1577232 and 1448 bytes. All points of the shipped key are on their curves, its files are read as this key whenever they pass the test for the subgroup, and its points have the shape compared in C86.", "quantifier": "all files, all keys with points of the curves, all tests for the subgroup, all secrets of the key generator", "why_tests_cant": "the files with wrong contents cannot be enumerated; the tests read the two shipped files", "anchors": ["poseidon-tests/tests/poseidon377_r1cs.rs: PREIMAGE_PK, PREIMAGE_VK, write_params, generate_test_vectors", "poseidon-tests/test_vectors/preimage_pk.bin", "poseidon-tests/test_vectors/preimage_vk.param"]}
{"id": "C91", "title": "Errors and crashes while the keys are written", "statement": "write_params empties two files and fills them through buffers. At every point of every run, whatever calls fail, write short or are interrupted and wherever the process is killed, each file is the old one or a beginning of the new one. If afterwards both files can be read, they are the two old files or the two new keys are read: never another key, never a new key together with an old one. Without errors the run returns Ok with both files complete, or was killed before its end. If the run returns Ok, at most as many bytes are missing at the end of each file as the buffer can hold. They can be missing: the error is not reported if it occurs while the last bytes are written, and for every key there is a run that returns Ok although the end of the proving key is missing.", "quantifier": "all keys, all sequences of responses of the operating system, all points at which the process can be killed, all previous contents, all buffer sizes and ways to cut the data into pieces", "why_tests_cant": "the tests never make a write fail; the points at which a run can stop cannot be enumerated", "anchors": ["poseidon-tests/tests/poseidon377_r1cs.rs: write_params, generate_test_vectors, PREIMAGE_PK, PREIMAGE_VK"]}
{"id": "C92", "title": "The tests on random inputs, on all inputs", "statement": "The random test that the optimized and the unoptimized permutation agree passes for every input, and its generator of field elements reaches every element, each from 13 or 14 of the 2^256 arrays of bytes. The random test of the inverse of a 2x2 matrix passes exactly if ad differs from bc in the field, in debug and release builds, and otherwise fails because unwrap panics: for at most 2^384 + 2^257 of its 2^512 inputs. It draws only entries below 2^128, each from one array of bytes.", "quantifier": "all arrays of random bytes, debug and release builds", "why_tests_cant": "a random test visits a few hundred inputs", "anchors": ["poseidon-consistency/src/lib.rs: optimized_and_unoptimized_permutation_consistent, fq_strategy", "poseidon-tests/tests/parameters.rs: inverse_2x2, fq_strategy", "poseidon-parameters/src/matrix.rs: SquareMatrix::inverse"]}
{"id": "C93", "title": "The five matrix types behave alike, and like two-dimensional arrays, under any history of calls", "statement": "A caller who knows only the trait MatrixOperations builds a Matrix, SquareMatrix, MdsMatrix, ArcMatrix or OptimizedArcMatrix and makes any sequence of calls: the five types give the same answers and panic at the same call with the same message, except that MdsMatrix::new also panics if its const generics do not fit. If the calls respect the dimensions there is no panic and every answer is that of a two-dimensional array. The transposes and new_from_known of all types agree with those of Matrix. After any sequence of writes through full_mut and partial_mut, full and partial return the last values written; total is their sum, panics in a debug build exactly if the sum exceeds a word, and wraps in a release build. The two errors print different texts.", "quantifier": "all dimensions, all elements, all sequences of calls; all round numbers and word sizes", "why_tests_cant": "a unit test makes a few calls on matrices of one size", "anchors": ["poseidon-parameters/src/matrix_ops.rs: MatrixOperations", "poseidon-parameters/src/matrix.rs: Matrix, SquareMatrix", "poseidon-parameters/src/mds_matrix.rs: MdsMatrix", "poseidon-parameters/src/arc_matrix.rs: ArcMatrix, OptimizedArcMatrix", "poseidon-parameters/src/round_numbers.rs: RoundNumbers", "poseidon-parameters/src/error.rs: PoseidonParameterError"]}
{"id": "C94", "title": "Many threads, any schedule, caught panics: every call ends as if it were alone", "statement": "Any number of threads make hash calls, optimized or not, on any number of instances, and a panic of a call is caught. As long as no two calls use one instance at the same time (which &mut self demands), every call in every interleaving of the single reads and writes of the state words ends with the digest, or the panic, that it has alone on a new instance. output_words between calls reports zeros before the first call on the instance, and then the state that the last call left. No call waits for another thread, and each ends after a number of its own steps that depends on its parameters and input only. A call that panics because the inverse S-box meets zero leaves a state with a zero word; for unoptimized hashing it is the textbook state at that moment. Two calls on one instance at the same time, which the borrow checker forbids, could return a wrong digest.", "quantifier": "all parameters, fields and widths, all numbers of threads and instances, all schedules, all inputs", "why_tests_cant": "a test runs one schedule, and no test of the crate uses threads or catches a panic", "anchors": ["poseidon-permutation/src/permutation.rs: Instance::n_to_1_fixed_hash, Instance::unoptimized_n_to_1_fixed_hash, Instance::output_words, Instance::permute, Instance::unoptimized_permute"]}
{"id": "C95", "title": "Circuits that combine any number of hashes", "statement": "A circuit allocates private and public values, hashes variables with the seven circuit hashes, also results of earlier hashes, adds, subtracts and multiplies variables, and enforces equalities, in any number and order. Private and public values can be completed to an assignment that satisfies its constraints exactly if the same program, run with the native hashes, meets all its equalities on them; the rest of the assignment is then determined. Synthesis panics exactly if some hash gets constants only, with values and without; it emits the same system for all values and in both modes, of a size that can be computed from the program; the prover stores the values of the program. The same holds inside a larger circuit. Equalities between two constants are excepted: they are not checked. Chains of hashes of any length, paths of any depth in a tree with four children per node, and the circuit of the test-suite are instances.", "quantifier": "all programs of these calls, all values, all assignments, both modes", "why_tests_cant": "a test runs one circuit on a few values and one assignment", "anchors": ["poseidon377/src/r1cs.rs: hash_1, hash_2, hash_3, hash_4, hash_5, hash_6, hash_7", "poseidon-permutation/src/r1cs.rs: InstanceVar::n_to_1_fixed_hash", "poseidon-tests/tests/poseidon377_r1cs.rs: PreimageCircuit, generate_constraints"]}
{"id": "C96", "title": "Proofs for circuits that combine any number of hashes", "statement": "For every circuit of C95 in which no hash gets constants only and no equality is between constants: key generation gives one key for all values; the proof for values that the native program accepts is accepted by the verifier, for every key and all randomness of the prover; with debug assertions the prover panics on all other values; without them its proof, and any proof with other public values, is rejected for all but few values of the secret point of the key, if the secret beta is not zero. The proofs are distributed as what someone with the secrets of the key writes down from the public values alone. A prover that does not follow the algorithm but combines the points of the key convinces the verifier of public values with more than a negligible share of the keys only if its coefficients contain private values with which the native program accepts them. The matrices of the key have exactly these solutions. Chains of hashes of any length, membership in a tree of any depth, and the circuit of the test-suite (where this is C87, C88 and C89) are instances.", "quantifier": "all programs of these calls, all values, all secrets of the key, all randomness, all groups with a bilinear map, all strategies that combine points of the key", "why_tests_cant": "a test makes one key and one proof of one circuit, and cannot try all provers", "anchors": ["poseidon-tests/tests/poseidon377_r1cs.rs: PreimageCircuit, groth16_hash_proof_happy_path, groth16_hash_proof_unhappy_path", "poseidon377/src/r1cs.rs: hash_1, hash_2, hash_3, hash_4, hash_5, hash_6, hash_7"]}
{"id": "C97", "title": "Running the key generator again and again", "statement": "The key generator of the test-suite is run any number of times, one run after the other, each with its own secrets; calls may fail and runs may be killed at any point. If afterwards both keys can be read, the files are those from before the first run, or both keys come from the same run and no later run has changed the files. If there were no readable keys before, then the happy path of the tests passes with every pair of keys that can be read, for all preimages and all randomness, and so does the unhappy path unless some run drew beta zero or one of at most 4095 bad values for the secret point, which depend on the preimage. A run with usable secrets that meets no error ends without error, and then its keys are read, whatever happened before. A run whose secrets cannot be inverted panics and changes no file; a run does not panic unless a call failed. The old keys are gone after the first call: a run that is killed then leaves no readable keys.", "quantifier": "all numbers of runs, all secrets, all sequences of responses of the operating system, all points at which a run can be killed, all previous files, all preimages and all randomness of the prover", "why_tests_cant": "a test uses the two shipped files; the histories cannot be enumerated", "anchors": ["poseidon-tests/tests/poseidon377_r1cs.rs: generate_test_vectors, generate_test_parameters, write_params, PREIMAGE_PROOF_PROVING_KEY, PREIMAGE_PROOF_VERIFICATION_KEY, groth16_hash_proof_happy_path, groth16_hash_proof_unhappy_path"]}
{"id": "C98", "title": "Several key generators at the same time", "statement": "Any number of runs of the key generator write the same two files at the same time, and no call fails. When all have ended, both files have the right length and each byte is a byte of one of the runs at this place, in every schedule. A run that starts when the others no longer make calls ends after at most as many calls as it has bytes to write, and four, with its own keys in the files. But nothing keeps two runs apart: for any two runs whose secrets delta differ there is a schedule, however many bytes a call writes, in which both end without an error and the tests then read the proving key of the one and the verifying key of the other. With such a pair the happy path fails for every preimage, for all but one value of the one random number of the prover and all but one of the other. With equal delta it fails always or never; with the same secrets but gamma never.", "quantifier": "all numbers of runs, all schedules, all sizes of the writes, all secrets, all previous files, all preimages and all randomness of the prover", "why_tests_cant": "a test runs one generator, in one schedule", "anchors": ["poseidon-tests/tests/poseidon377_r1cs.rs: generate_test_vectors, generate_test_parameters, write_params, groth16_hash_proof_happy_path"]}
{"id": "C99", "title": "Sums of digests", "statement": "With all arguments of a hash but one fixed, the digests over all values of the remaining argument, the domain separator included, add up to zero; so do the digests times the k-th power of the argument, for every k less than q - 1 - 17^39, and for k equal to this number they do not. Over every coset of a subgroup of the nonzero field elements with more than 17^39 members, the digests add up to the number of members times the digest at zero. The same holds when all input words move at once along a line, or along a curve of degree n with 17^39 n in place of 17^39. For generated parameters with exponent e the moments are zero as long as k + e^(r_F + r_P) is less than q - 1.", "quantifier": "all rates, all arguments, all values of the other arguments, all moments, all large subgroups and cosets, all curves, all generated parameters", "why_tests_cant": "the sums have more than 2^159 terms", "anchors": ["poseidon377/src/hash.rs: hash_1 .. hash_7", "poseidon-permutation/src/permutation.rs: n_to_1_fixed_hash, permute", "poseidon-paramgen/src/lib.rs: generate"]}
{"id": "C100", "title": "Key generators that are killed while others run", "statement": "Any number of runs of the key generator write the same two files at the same time, and some are killed, at any point. At every moment of every schedule each file is the old one, or is not longer than a key and each of its bytes is zero or a byte of one of the runs at this place; the proving key is the old one only if no run has made a call. A killed run can spoil the keys of another: for any two runs there is a schedule, however many bytes a call writes, in which one ends without an error and the other is killed after its first call, and then the proving key cannot be read; its file has the right length unless one call writes almost all of it. And the keys that are read need not be those of any run: for any two runs whose secrets delta differ there is a schedule in which both end without an error, the proving key that is read contains the verifying key that is read, and no secrets make this proving key. With such a key the happy path fails for all random numbers of the prover but one value of the first, unless the secret beta of the one run has one particular value that depends on the other run and the preimage.", "quantifier": "all numbers of runs, all schedules and all moments in them, all sizes of the writes, all secrets, all previous files, all preimages and all randomness of the prover", "why_tests_cant": "a test runs one generator, in one schedule, to its end", "anchors": ["poseidon-tests/tests/poseidon377_r1cs.rs: generate_test_vectors, generate_test_parameters, write_params, PREIMAGE_PROOF_PROVING_KEY, groth16_hash_proof_happy_path"]}
{"id": "C101", "title": "Membership in a tree at a hidden position", "statement": "A circuit for a tree in which each node is the hash_2 of its two children takes a leaf, and for each level the sibling and the direction as private values and the root as public value; it selects the arguments of the hash with sums and products of variables. For every depth it has 273 constraints per level and one more, the same for all leaves and positions, and a root can be completed to a satisfying assignment exactly if some leaf at some position has this root. One key serves all leaves. A proof for a leaf and a path to the root is accepted; with debug assertions the prover panics if they do not lead to the root; a prover that combines the points of the key and convinces the verifier of a root with more than a negligible share of the keys has a leaf and a path to this root among its coefficients. The proofs for two leaves under one root, wherever they are, are distributed alike. Two different leaves at one position under one root give a collision of hash_2.", "quantifier": "all depths, all leaves, siblings and positions, all domain separators, all secrets of the key, all randomness, all strategies that combine points of the key", "why_tests_cant": "a test proves one leaf at one position of one tree with one key, and cannot try all provers", "anchors": ["poseidon377/src/r1cs.rs: hash_2", "poseidon377/src/hash.rs: hash_2", "poseidon-permutation/src/r1cs.rs: InstanceVar::n_to_1_fixed_hash", "poseidon-tests/tests/poseidon377_r1cs.rs: PreimageCircuit, groth16_hash_proof_happy_path, groth16_hash_proof_unhappy_path"]}
{"id": "C102", "title": "The hash as a polynomial in all its arguments", "statement": "For hash_1 .. hash_7 and every shipped instance the digest is a polynomial of total degree exactly 17^39 in all its arguments together, and so is every word the instance is left with. Sums: let the arguments be polynomials of total degree at most m in k parameters (for instance an affine subspace of dimension k). Then the l-th powers of the digests, times any polynomial of degree p in the parameters, add up to zero over all values of the parameters if p + l * m * 17^39 < k (q - 1); the same holds for any polynomial of degree l in all the output words. Relations: let any set of arguments be free and the others fixed. Every nonzero polynomial F(u, y) with degree dx < 17^39 in the free arguments u and degree dy in the digest y vanishes, when the free arguments are drawn from a set S of field elements, for at most the share (dx + dy * 17^39) / |S| of them: neither the digest nor any algebraic function of low degree in it is approximated by low degree polynomials or fractions. For generated parameter sets with a power S-box alpha the total degree is at most alpha^(r_F + r_P), with the same consequence for sums.", "quantifier": "every rate, every choice and number of free arguments, all values of the others, all parametrizations, weights, powers, relations and sets S", "why_tests_cant": "sums over q^k arguments and counts over all relations are out of reach of any test", "anchors": ["poseidon377/src/hash.rs: hash_1 .. hash_7", "poseidon-permutation/src/permutation.rs: Instance::n_to_1_fixed_hash, Instance::output_words, permute", "poseidon377/src/params/*: PARAMS", "poseidon-paramgen/src/v1.rs: generate"]}
{"id": "C103", "title": "A loss of power", "statement": "The key generator of the test-suite is run any number of times, one run after the other, calls may fail and runs may be killed, and then the power is lost. Nothing has brought the files to the disk, so each of them is as it was at some earlier moment, not both at the same one. Then each file is the one from before the first run, or a beginning of the file of one of the runs, and a key that can be read is the old one or one of these runs. If there was only one run and no readable keys before it, then keys that can be read are both of this run, and the happy path passes with them, for all preimages and all randomness. But an Ok is not durable: after a run that met no error and returned Ok, the old files can be back, or the proving key can be empty, so that nothing can be read. And for any two runs that met no error and whose secrets delta differ, the proving key of the one can be there with the verifying key of the other, either way, although both runs returned Ok one after the other; with such a pair the happy path fails for every preimage, for all but one value of the one random number of the prover and all but one of the other.", "quantifier": "all numbers of runs, all secrets, all responses of the operating system, all points at which runs are killed, all moments from which the files can be, all previous files, all preimages and all randomness of the prover", "why_tests_cant": "a test cannot cut the power, and the moments cannot be enumerated", "anchors": ["poseidon-tests/tests/poseidon377_r1cs.rs: generate_test_vectors, write_params, PREIMAGE_PROOF_PROVING_KEY, PREIMAGE_PROOF_VERIFICATION_KEY, groth16_hash_proof_happy_path"]}
{"id": "C104", "title": "Several key generators at the same time, with buffers and failing calls", "statement": "Any number of runs of the key generator write the same two files at the same time through their buffers; any call may fail, write short or be interrupted, and any run may be killed. A run that starts when the others no longer make calls ends, and leaves the files, as write_params does alone with the files that it found; runs that do not overlap leave what the same runs one after the other leave. At every moment of every schedule each file is the old one and no run has created it, or it is not longer than a key and each of its bytes is zero or a byte of one of the runs at this place. If no call fails and all runs have ended, all returned Ok, both files have the right length and each byte is a byte of one of the runs at this place. But for any two runs with different delta whose calls do not fail, and whatever answers each of them gets, the answers can come in an order in which both return Ok and the tests read the proving key of the one and the verifying key of the other; then the happy path fails for every preimage, for all but one value of the one random number of the prover and all but one of the other. And a run that creates the first file and fails to create the second, and so returns an error, can empty the proving key of a run that returns Ok.", "quantifier": "all numbers of runs, all schedules and all moments in them, all responses of the operating system, all buffer sizes and ways to cut the data into pieces, all secrets, all previous files, all preimages and all randomness of the prover", "why_tests_cant": "a test runs one generator, in one schedule, and never makes a call fail", "anchors": ["poseidon-tests/tests/poseidon377_r1cs.rs: generate_test_vectors, generate_test_parameters, write_params, groth16_hash_proof_happy_path"]}
{"id": "C105", "title": "The hash backwards", "statement": "Whoever may choose all arguments of hash_n, the domain separator included, finds preimages and collisions at once: there is one program of additions and multiplications, of 24390 (n = 1) to 56304 (n = 7) instructions, that computes from a digest and any n field elements arguments with this digest; different field elements give different arguments, and every preimage arises so. After any history of calls on an instance of a shipped rate, a program of this length computes the words that were hashed last from output_words: an instance keeps its input. The same holds for parameters of v1::generate with an exponent as S-box, with a length given by the width, the round numbers and the size of the modulus. (What protects the hash is that the domain separator is fixed.)", "quantifier": "all digests, all choices of the free words, all histories of calls, all shipped rates and all generated parameters", "why_tests_cant": "a test finds one preimage; it cannot show that all digests have one or that no preimage is left out", "anchors": ["poseidon377/src/hash.rs: hash_1 .. hash_7", "poseidon-permutation/src/permutation.rs: Instance::n_to_1_fixed_hash, Instance::output_words", "poseidon377/src/params/*: PARAMS", "poseidon-paramgen/src/v1.rs: generate"]}
{"id": "C106", "title": "How long programs for the hash are", "statement": "hash_n has a program of 1078 (n = 1) to 9184 (n = 7) additions, multiplications and constants. There is none with fewer than 160 multiplications: if all arguments but one are fixed, in any way, a program that computes from the remaining argument with fewer than 160 multiplications, whatever its additions and constants, gives the digest for at most 17^39 values of this argument, less than one in 2^92.", "quantifier": "all programs without branches, all values of the fixed arguments, all rates, every argument", "why_tests_cant": "the programs cannot be enumerated", "anchors": ["poseidon377/src/hash.rs: hash_1 .. hash_7", "poseidon-permutation/src/permutation.rs: Instance::n_to_1_fixed_hash, permute", "poseidon377/src/params/*: PARAMS"]}
{"id": "C107", "title": "The mode of operation", "statement": "hash_n puts the domain separator and the inputs into a state, applies one permutation of the states and returns word 1. With a uniformly random permutation in its place this is a sound way to hash if the domain separator is taken from a set D: an algorithm that asks for at most Q images or preimages of states, each question depending on the answers before, finds an input with a given digest and a domain separator in D for at most the share (Q+1)|D| q^n / (q^(n+1) - Q) of the permutations, another input with the digest of a given one for at most (Q+1)|D| q^n / (q^(n+1) - Q - 1), and two inputs with the same digest for at most ((Q+1)(Q+2)/2 + (Q+2)|D|) q^n / (q^(n+1) - Q - 1). If all domain separators are allowed, one question is enough (see C105).", "quantifier": "all adaptive algorithms, all numbers of questions, all sets of domain separators, all digests, all rates and all finite fields", "why_tests_cant": "the algorithms and the permutations cannot be enumerated", "anchors": ["poseidon377/src/hash.rs: hash_1 .. hash_7", "poseidon-permutation/src/permutation.rs: Instance::n_to_1_fixed_hash, Instance::permute"]}
{"id": "C108", "title": "Commitments hide the message", "statement": "A digest of a message together with a random field element, in any one of the words (an input, or the domain separator), can be used as a commitment. With a uniformly random permutation in the place of that of hash_n, an algorithm that sees the digest and asks for at most Q images or preimages of states, each question depending on the digest and the answers before, answers yes for two messages with chances that differ by at most 2Q / (q - 2Q): with 2^100 questions by less than one in 2^150. Without the random element one question tells two messages apart.", "quantifier": "all adaptive algorithms, all numbers of questions, all pairs of messages, all positions of the random element, all rates and all finite fields", "why_tests_cant": "the algorithms, the permutations and the random elements cannot be enumerated", "anchors": ["poseidon377/src/hash.rs: hash_1 .. hash_7", "poseidon-permutation/src/permutation.rs: Instance::n_to_1_fixed_hash, Instance::permute"]}
{"id": "C109", "title": "A root binds the leaves of a tree", "statement": "In a tree each node is the digest of a domain separator from a set D, which may depend on the level, and its children; an opening gives for each level the place of the node and the other children. With a uniformly random permutation in the place of that of hash_n, an algorithm that asks for at most Q images or preimages of states finds two openings of the same place, with at most h levels, that lead from different leaves to the same root for at most the share ((Q'+1)(Q'+2)/2 + (Q'+2)|D|) q^n / (q^(n+1) - Q' - 1) of the permutations, where Q' = Q + 2h: with 2^64 domain separators, 2^32 levels and 2^80 questions for less than one in 2^92. With the shipped permutation of rate 2 the roots are those of the trees of C101.", "quantifier": "all adaptive algorithms, all numbers of questions and levels, all sets of domain separators, all rates and all finite fields", "why_tests_cant": "the algorithms, the permutations and the trees cannot be enumerated", "anchors": ["poseidon377/src/hash.rs: hash_1 .. hash_7", "poseidon-permutation/src/permutation.rs: Instance::n_to_1_fixed_hash, Instance::permute"]}
{"id": "C110", "title": "Digests with a secret word cannot be forged", "statement": "A digest of a message together with a secret random field element, in any one of the words, can be used as a tag or a nullifier. With a uniformly random permutation in the place of that of hash_n, an algorithm that asks for at most Q images or preimages of states and tags of messages of its choice, each question depending on the answers before, answers with a message and its tag, not having asked for this tag, for at most the share (Q+1) / (q - Q) + Q^2 / (q^(n+1) - Q) of the permutations and keys: with 2^80 questions less than one in 2^90.", "quantifier": "all adaptive algorithms, all numbers of questions, all positions of the secret, all rates and all finite fields", "why_tests_cant": "the algorithms, the permutations and the keys cannot be enumerated", "anchors": ["poseidon377/src/hash.rs: hash_1 .. hash_7", "poseidon-permutation/src/permutation.rs: Instance::n_to_1_fixed_hash, Instance::permute"]}
{"id": "C111", "title": "The hash in the place of a random function", "statement": "Protocols treat hash_n as a random function. With a uniformly random permutation in the place of that of hash_n and a set D of domain separators in use, there is a simulator such that an algorithm that asks for at most Q digests (with domain separators in D), images or preimages of states, each question depending on the answers before, tells the permutation and its digests from a random function and the simulator with advantage at most Q|D| / (q - Q) + 2 Q^2 / (q^(n+1) - Q): with 2^64 domain separators and 2^80 questions less than one in 2^90. The restriction to D is needed: if digests with all domain separators may be asked for, two questions suffice, whatever the simulator.", "quantifier": "all adaptive algorithms, all numbers of questions, all sets of domain separators, all rates and all finite fields", "why_tests_cant": "the algorithms, the permutations and the functions cannot be enumerated", "anchors": ["poseidon377/src/hash.rs: hash_1 .. hash_7", "poseidon-permutation/src/permutation.rs: Instance::n_to_1_fixed_hash, Instance::permute"]}
{"id": "C112", "title": "No constraint of the circuit hash is superfluous", "statement": "Whoever makes the circuit of a hash with variable message words smaller by leaving out a constraint makes it unsound. For every one of its constraints, values of the inputs and of all other variables exist which satisfy all constraints but that one, and for which the returned variable is not the native hash of the inputs; if the assignment at hand gives the product in the constraint a nonzero value, its inputs can stay as they are. The same for each of the 2457 constraints of the test-suite's circuit, for which a proving key is shipped: without it, public inputs that are not the hashes of the preimages would be accepted.", "quantifier": "all constraints, all seven rates, all constraint systems the hash is added to, all satisfying assignments", "why_tests_cant": "a test can leave out a few constraints, but not find the assignment that a cheating prover would use", "anchors": ["poseidon377/src/r1cs.rs: hash_1 .. hash_7", "poseidon-permutation/src/r1cs.rs: InstanceVar::permute, full_sub_words, partial_sub_words, mix_layer_mds", "poseidon-tests/tests/poseidon377_r1cs.rs: PreimageCircuit::generate_constraints"]}
{"id": "C113", "title": "The circuit permutation as a public call", "statement": "The fields of InstanceVar and its method permute are public, so a user can build an instance by hand, with any number of words, permute, overwrite words, add, subtract or multiply values into them, permute again, in any order and number: a sponge in the circuit, for instance. In every assignment that satisfies the constraints, the words have the values that the same steps give natively, with the permutation being what output_words of the native instance shows after a hash. An assignment for what was there before extends to the new variables in exactly one way; what a prover's run stores satisfies the new constraints, and its words carry the native values; the constraints do not depend on the values or the mode, and their number is given by a formula. The run panics exactly if a step addresses a word that is not there, or a permutation finds too few words or only constants among those it takes. Words beyond the state are ignored by the permutation, and gone after it.", "quantifier": "all finite sequences of the steps, all words, all seven rates, all constraint systems", "why_tests_cant": "sequences of calls and values are without bound, and no test of the project calls permute on an instance of its own", "anchors": ["poseidon-permutation/src/r1cs.rs: InstanceVar, InstanceVar::permute, n_to_1_fixed_hash, full_sub_words, partial_sub_words, mix_layer_mds", "poseidon-permutation/src/permutation.rs: Instance::n_to_1_fixed_hash, output_words"]}
{"id": "C114", "title": "Hashing with random round constants", "statement": "The round constants are the only part of a parameter set that is drawn. Put any other table in their place, with the optimized constants derived as the generator derives them (or use the unoptimized hash, which does not look at those): the hash returns for every table and input. Counting over all tables, and without any assumption on the permutation: every digest of an input comes from exactly 1/p of the tables and every state from exactly p^-t of them; the digests of two different inputs have a given difference for at most (alpha-1)/p of the tables (16/q for the shipped exponent), so that n different inputs have a collision for at most n(n-1)/2 times that; the whole states have a given difference for at most ((alpha-1)/p)^t; and a given trail of differences through all rounds is followed for at most ((alpha-1)/p)^N of the tables, N being the number of active S-boxes of C68. The shipped table is one of those counted: with it the hash is the shipped one.", "quantifier": "all tables of round constants, all inputs, all pairs and finite families of different inputs, all differences and trails, all parameter sets v1::generate returns with an exponent S-box", "why_tests_cant": "a count over all tables of constants, for all inputs", "anchors": ["poseidon-paramgen/src/v1.rs: generate", "poseidon-paramgen/src/round_constants.rs: generate_optimized", "poseidon-permutation/src/permutation.rs: Instance::n_to_1_fixed_hash, unoptimized_n_to_1_fixed_hash, output_words", "poseidon-parameters/src/v1.rs: PoseidonParameters"]}
{"id": "C115", "title": "A hand-made circuit instance with any parameters, all fields changing", "statement": "As C113, for parameter sets of any size, shipped, generated or made by hand, and with the other public fields of InstanceVar assigned to as well: between any two permutations the parameters can be replaced by others of the same type, and so can the reference to a constraint system. Each permutation is, in every satisfying assignment, the native unoptimized one for the parameters that are in the instance at that time; it is the optimized one too if the two native hashes agree for these parameters, and they do for every set v1::generate returns with an exponent S-box, and for such a set with any other round constants (the optimized ones derived from them). Assignments extend in exactly one way, a prover's run stores a satisfying assignment and the native values, the constraints do not depend on values or mode, and their number is the sum, over the permutations, of the S-box cost times the number of S-boxes that get no constant. The run panics exactly if a step addresses a word that is not there, or a permutation has the inverse S-box, fewer rows of constants than rounds, too few words, or only constants among those it takes. The field cs is never looked at: with other values in it the run is the same.", "quantifier": "all finite sequences of the steps, all words, all parameter sets with a full round on each side and a nonzero exponent (or the inverse S-box), all sizes of two words and more, all constraint systems", "why_tests_cant": "sequences of calls, parameter sets and values are without bound; no test of the project replaces a field of an instance", "anchors": ["poseidon-permutation/src/r1cs.rs: InstanceVar, InstanceVar::permute, n_to_1_fixed_hash, full_sub_words, partial_sub_words, mix_layer_mds", "poseidon-permutation/src/permutation.rs: Instance::n_to_1_fixed_hash, unoptimized_n_to_1_fixed_hash, output_words", "poseidon-paramgen/src/v1.rs: generate"]}
{"id": "C116", "title": "The benchmark", "statement": "The benchmark of the project compares the two permutations fairly. Whatever bytes the random generator gives and however often the benchmark harness runs a closure: nothing panics; there are a hundred indices; at each index all runs, optimized and not, return one and the same digest, that of hash_4 on the five words drawn for it. All runs of one kind do the same field operations and array accesses in the same order, whatever the generator, so the choice of the inputs has no influence on the work that is measured. A base run is 71 S-boxes, 975 multiplications and 1170 additions, an optimized run 71 S-boxes, 504 multiplications and 579 additions: if an addition costs no more than a multiplication, the optimized run costs less, but more than half.", "quantifier": "all random generators and seeds, all numbers of runs per index, all prices of the operations", "why_tests_cant": "a benchmark does not check the results it times, and one run sees one generator", "anchors": ["poseidon-consistency/benches/permutation.rs: bench_unoptimized_vs_optimized, hash_4_1_our_impl, hash_4_1_our_impl_unoptimized", "poseidon-permutation/src/permutation.rs: Instance::n_to_1_fixed_hash, unoptimized_n_to_1_fixed_hash"]}
{"id": "C117", "title": "A loss of power, byte by byte", "statement": "As C103, with a file system that may write the parts of one file in any order: after a loss of power the length of each key file and each of its bytes are from moments of their own, and where the file system extends a file before it fills it, bytes can be zeros. Every byte on the disk is then one of the old file or of a key some run has made, at the same place, or such a zero. If there were no files before, or empty ones, and there are no zeros, the first run leaves nothing that C103 does not allow: keys that can be read are those of the run, and proofs made with them are accepted. But after a second run, although both ended with Ok, the tests can read a proving key that contains the verifying key beside it and yet is made from no secrets; and with zeros, after a single run that ended with Ok, they can read a verifying key without the points for the public inputs, with which every check of a proof panics.", "quantifier": "all histories of runs, all secrets, old files, moments, orders of the writes and places of the zeros, all preimages and randomness", "why_tests_cant": "a test cannot cut the power, and the combinations of moments are without bound", "anchors": ["poseidon-tests/tests/poseidon377_r1cs.rs: write_params, load_params, generate_test_vectors, groth_16_happy_path"]}
{"id": "C118", "title": "How often a hash with the inverse S-box panics", "statement": "A parameter set can have the inverse S-box, made by hand or by v1::generate where inverses are allowed, and then a hash panics when an S-box meets a zero. Let N be the number of S-boxes of a hash and p the size of the field. For every input, and every matrix, the unoptimized hash returns for exactly the fraction ((p-1)/p)^N of all tables of round constants and panics with a division by zero for the others, which are at most N/p of the tables; for generated parameters, with the optimized constants derived from the table, the optimized hash returns for exactly the same fraction. With the tables as they are and an invertible matrix, at most N/p of the inputs make it panic, and if there is a full round at least the fraction 1-((p-1)/p)^t of them do; so with parameters that v1::generate returns with the inverse S-box.", "quantifier": "all parameter sets with the inverse S-box and enough rows of constants, all finite fields, all sizes of two words and more, all states, all inputs, all tables of round constants", "why_tests_cant": "a count over all tables or all inputs of a large field; no test of the project uses the inverse S-box", "anchors": ["poseidon-permutation/src/permutation.rs: partial_sub_words, full_sub_words, Instance::n_to_1_fixed_hash, unoptimized_n_to_1_fixed_hash", "poseidon-paramgen/src/v1.rs: generate", "poseidon-paramgen/src/alpha.rs: generate"]}
{"id": "C119", "title": "Random round constants with the inverse S-box", "statement": "Let `v1::generate` return parameters with the inverse S-box, and put a uniformly random table of round constants (with the optimized constants derived from it) in the place of theirs. For two different inputs the hashes both return, with digests of a given difference, with probability at most 4 / p; so n different inputs have a collision with probability at most 2 n (n - 1) / p. Both return, leaving states of a given difference, with probability at most (4 / p)^t. The states of the two follow a given trail of differences through all rounds with probability at most (4 / p)^N, N being the number of S-boxes C68 finds active. For one input the state left is always the MDS matrix times a vector of t non-zero words, and every such state is left by exactly (p - 1)^-t of the tables with which the hash returns. Among these tables the digest has a given non-zero value for exactly ((p - 1)^t - (-1)^t) / (p (p - 1)^t) of them, and the value zero for exactly ((p - 1)^t + (p - 1) (-1)^t) / (p (p - 1)^t).", "quantifier": "every prime field, width, security level and implementation of the floating-point functions for which generation returns the inverse S-box; every input or pair or list of different inputs, difference, trail, digest and state; every table of round constants", "why_tests_cant": "The probabilities are over tables of constants, of which there are more than 2^10000, and the bounds are of the order of 2^-125; a test hashes with the one table there is.", "anchors": ["poseidon-permutation/src/permutation.rs: Instance::n_to_1_fixed_hash, Instance::output_words, Instance::full_sub_words, Instance::partial_sub_words", "poseidon-paramgen/src/v1.rs: generate", "poseidon-paramgen/src/alpha.rs: generate", "poseidon-paramgen/src/round_constants.rs: generate_optimized"]}
{"id": "C120", "title": "Every round constant matters", "statement": "If two tables of round constants differ in exactly one of the rows a hash uses, the unoptimized hash leaves different states with them, for every input; this holds for all parameters with a power S-box that is a bijection and an invertible matrix, over any finite field. For the shipped parameters: replace one entry of the table the unoptimized hash reads, or one of the entries of the table the optimized hash reads, in rows 0 to 4 or 35 to 38 or in the first column, by another field element. For every input that hash then leaves another state than the shipped hash does, so a single test vector for the whole state finds the change. The share of inputs with the same digest is at most 17^(39-r)/q, where r is the row: below 2^-92. And for every single input at most 17^(39-r) of the q values the entry can have give the shipped digest. For a circuit with a replaced round constant, for all but that share of the inputs no satisfying assignment gives the output variable the value of the native digest. The other entries of the optimized table (rows 5 to 34, not in the first column) can be replaced by anything without changing any result.", "quantifier": "All parameter sets, tables, rows, inputs and states (first part); all seven rates, all 39 rows, all columns, all replacement values, all inputs (second part)", "why_tests_cant": "A test compares a few digests with the table as it is. Which wrong constants it would notice is a question about all tables and all inputs.", "anchors": ["poseidon-permutation/src/permutation.rs: permute, unoptimized_permute, n_to_1_fixed_hash, unoptimized_n_to_1_fixed_hash", "poseidon377/src/lib.rs: RATE_1_PARAMS..RATE_7_PARAMS", "poseidon-parameters/src/arc_matrix.rs: ArcMatrix, OptimizedArcMatrix", "poseidon-permutation/src/r1cs.rs: InstanceVar::n_to_1_fixed_hash"]}
{"id": "C121", "title": "A wrong number of rounds, or a smaller exponent", "statement": "Take a parameter set over the field of a shipped one, of the same width, with fewer rounds or a smaller exponent, so that exponent^rounds is below 17^39; its matrix and its constants can be anything. With all input words but one fixed, its unoptimized hash has the digest of the shipped hash for at most 17^39 values of the last word, less than one in 2^92. So has the optimized hash with parameters v1::generate returns, of any security level, with a power S-box and so few rounds. Now take the matrix and the exponent of a shipped set with other round numbers, more or fewer or as many rounds distributed in another way (at most 61 in all, and with at least one full round on each side if they are more than 39), and any constants: the digests agree for at most 17^n values of the last word, n being the greater number of rounds.", "quantifier": "All seven rates; all parameter sets of the same width with e^n < 17^39; all other round numbers as stated; all matrices (first part), all tables of constants, all inputs and words", "why_tests_cant": "A test with a wrong number of rounds shows that some digests differ. That nearly all of them differ, whatever the constants, and for every wrong number, is a statement about all inputs.", "anchors": ["poseidon-permutation/src/permutation.rs: unoptimized_permute, permute, unoptimized_n_to_1_fixed_hash, n_to_1_fixed_hash", "poseidon377/src/lib.rs: RATE_1_PARAMS..RATE_7_PARAMS", "poseidon-parameters/src/round_numbers.rs: RoundNumbers", "poseidon-paramgen/src/v1.rs: generate"]}
{"id": "C122", "title": "Every entry of the matrices matters", "statement": "Replace one entry of a shipped optimized matrix M_i, or of one of the 31 matrices v or the 31 matrices w_hat, by another value. The optimized hash still succeeds on every input; for exactly one input in q it leaves the state (and the digest) of the shipped hash, and it has the digest of the shipped hash for at most 17^35+1 inputs in q, less than one in 2^100 (17^(r+4)+1 for entry r of the two collections). Take any values of M_00, which all partial rounds read: the hash still succeeds, and for all inputs but at most one in q, at most 17^35 of the q values give the shipped digest. The same holds with 17^39 for each entry of the MDS matrix, in the optimized and in the unoptimized hash, and all inputs whose word in the column of the entry is not the negative of its first round constant: one test vector finds nearly every wrong value. And for every K, all but K(17^35+1) of the values of M_00, and all but K(17^39+1) of the values of an MDS entry, give the shipped digest for less than one input in K. For a circuit with a changed MDS entry: for all but 17^39 of the values no satisfying assignment gives the native digest; circuits read no optimized table. The other stored matrices are not read: for all parameters, replacing M_hat, v, w, M', M'' and the two inverses changes no result of the optimized hash, and no optimized matrix or constant changes the unoptimized hash.", "quantifier": "All seven rates, all entries of these matrices and of the MDS matrix, all wrong values, all inputs; the last part for all parameters and states", "why_tests_cant": "A test compares the two hashes on a few inputs. That no wrong entry among thousands, with any of q wrong values, can go unnoticed on more than a negligible part of the inputs is a statement about all of them.", "anchors": ["poseidon-permutation/src/permutation.rs: permute, mix_layer_mi, sparse_mat_mul, n_to_1_fixed_hash, unoptimized_n_to_1_fixed_hash", "poseidon-permutation/src/r1cs.rs: InstanceVar::n_to_1_fixed_hash", "poseidon-parameters/src/mds_matrix.rs: MdsMatrix, OptimizedMdsMatrices", "poseidon377/src/lib.rs: RATE_1_PARAMS..RATE_7_PARAMS"]}
{"id": "C123", "title": "Which tables of round constants give the same hash", "statement": "Take a shipped parameter set with any two tables of round constants in place of its own. The unoptimized hash gives the same digest and leaves the same state for every input with both tables exactly if the second table comes from the first by moving constants of words without S-box forward: for some vectors, zero in the full rounds and in word 0, the vector of a round is added to its row and the MDS matrix times this vector is taken from the next row. So, with state width t, exactly q^(31(t-1)) of the q^(39t) tables give the hash of a given table, and all tables together give exactly q^(8t+31) different hashes, one free constant for each S-box. The optimized hash with all tables in place of its own gives the same set of hashes. And with any two tables, plain or optimized, the states (the digests) are the same for all inputs, or for at most 17^39 inputs in q, less than one in 2^92: one random test vector tells tables apart.", "quantifier": "All seven rates, all pairs of tables of round constants, all inputs, all states of the instances before the call", "why_tests_cant": "That two tables agree on all inputs, and that there is no other pair that does, ranges over all tables and all inputs; tests can only find a difference.", "anchors": ["poseidon-permutation/src/permutation.rs: unoptimized_n_to_1_fixed_hash, unoptimized_permute, n_to_1_fixed_hash, permute, output_words", "poseidon-parameters/src/arc_matrix.rs: ArcMatrix, OptimizedArcMatrix", "poseidon377/src/lib.rs: RATE_1_PARAMS..RATE_7_PARAMS"]}
