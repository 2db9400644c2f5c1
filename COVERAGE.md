# Which definitions of the model cite which functions of the Rust sources

Generated by `tools/coverage.py` from the comments of `lean/Verif/Model`. A definition is listed if the lines it cites meet those of the
function. Base names that occur in two crates (`r1cs.rs`, `lib.rs`, `alpha.rs`, `v1.rs`, `v2.rs`) are listed for each crate they may mean.

## poseidon-consistency/benches/permutation.rs

| function | lines | definitions |
|---|---|---|
| `hash_4_1_our_impl` | 9-12 | `ourImpl` (Bench), `Threads` (InPlace), `Instance` (Permutation) |
| `hash_4_1_our_impl_unoptimized` | 14-17 | `ourImplUnoptimized` (Bench), `Threads` (InPlace), `Instance` (Permutation) |
| `bench_unoptimized_vs_optimized` | 19-58 | `Elements` (Bench), `draw` (Bench), `elements` (Bench), `iter` (Bench), `Sample` (Bench), `measure` (Bench), `benchUnoptimizedVsOptimized` (Bench), `Threads` (InPlace), `Instance` (Permutation) |

## poseidon-consistency/src/lib.rs

| function | lines | definitions |
|---|---|---|
| `from_ark_fq` | 13-15 | - |
| `check_optimized_impl_vs_sage` | 18-39 | - |
| `check_unoptimized_impl_vs_sage` | 42-66 | - |
| `fq_strategy` | 68-72 | `fqStrategy` (RandomTests) |
| `optimized_and_unoptimized_permutation_consistent` | 76-87 | `assertEq` (RandomTests), `consistentTest` (RandomTests) |

## poseidon-parameters/src/alpha.rs

| function | lines | definitions |
|---|---|---|
| `Alpha::to_bytes_le` | 12-17 | `u32le` (Params), `Alpha.toBytesLe` (Params) |
| `From for f64::from` | 21-26 | `Alpha.toF64` (GenMachine) |

## poseidon-parameters/src/arc_matrix.rs

| function | lines | definitions |
|---|---|---|
| `ArcMatrix::transpose` | 16-18 | `Mat.transpose` (Matrix), `ArcMatrix.transpose` (Wrappers) |
| `ArcMatrix::inner_elements` | 20-22 | `ArcMatrix.innerElements` (Wrappers) |
| `ArcMatrix::new_from_known` | 25-27 | `ArcMatrix.newFromKnown` (Wrappers) |
| `MatrixOperations for ArcMatrix::new` | 33-35 | `instance` (Wrappers) |
| `MatrixOperations for ArcMatrix::elements` | 37-39 | `instance` (Wrappers) |
| `MatrixOperations for ArcMatrix::get_element` | 41-43 | `instance` (Wrappers) |
| `MatrixOperations for ArcMatrix::set_element` | 45-47 | `instance` (Wrappers) |
| `MatrixOperations for ArcMatrix::n_rows` | 49-51 | `instance` (Wrappers) |
| `MatrixOperations for ArcMatrix::n_cols` | 53-55 | `instance` (Wrappers) |
| `MatrixOperations for ArcMatrix::hadamard_product` | 57-62 | `instance` (Wrappers) |
| `OptimizedArcMatrix::transpose` | 81-83 | `Mat.transpose` (Matrix), `OptimizedArcMatrix.transpose` (Wrappers) |
| `OptimizedArcMatrix::new_from_known` | 86-88 | `OptimizedArcMatrix.newFromKnown` (Wrappers) |
| `MatrixOperations for OptimizedArcMatrix::new` | 95-97 | `instance` (Wrappers) |
| `MatrixOperations for OptimizedArcMatrix::elements` | 99-101 | `instance` (Wrappers) |
| `MatrixOperations for OptimizedArcMatrix::get_element` | 103-105 | `instance` (Wrappers) |
| `MatrixOperations for OptimizedArcMatrix::set_element` | 107-109 | `instance` (Wrappers) |
| `MatrixOperations for OptimizedArcMatrix::n_rows` | 111-113 | `instance` (Wrappers) |
| `MatrixOperations for OptimizedArcMatrix::n_cols` | 115-117 | `instance` (Wrappers) |
| `MatrixOperations for OptimizedArcMatrix::hadamard_product` | 119-124 | `instance` (Wrappers) |

## poseidon-parameters/src/error.rs

| function | lines | definitions |
|---|---|---|
| `core::fmt::Display for PoseidonParameterError::fmt` | 8-15 | `ParamError.display` (Wrappers) |

## poseidon-parameters/src/matrix.rs

| function | lines | definitions |
|---|---|---|
| `Matrix::transpose` | 22-33 | `Mat.transpose` (Matrix) |
| `Matrix::new_from_known` | 36-42 | `Panic` (Basic), `Mat.newFromKnown` (Matrix) |
| `MatrixOperations for Matrix::new` | 48-61 | `Panic` (Basic), `new` (Machine), `Mat.new` (Matrix), `instance` (Wrappers) |
| `MatrixOperations for Matrix::elements` | 63-65 | `instance` (Wrappers) |
| `MatrixOperations for Matrix::get_element` | 67-69 | `aget` (Basic), `Arith` (Machine), `Arith.checked` (Machine), `Arith.wrapping` (Machine), `get` (Machine), `Mat.get` (Matrix), `instance` (Wrappers) |
| `MatrixOperations for Matrix::set_element` | 71-73 | `aset` (Basic), `Arith` (Machine), `Arith.checked` (Machine), `Arith.wrapping` (Machine), `set` (Machine), `Mat.set` (Matrix), `instance` (Wrappers) |
| `MatrixOperations for Matrix::n_rows` | 75-77 | `instance` (Wrappers) |
| `MatrixOperations for Matrix::n_cols` | 79-81 | `instance` (Wrappers) |
| `MatrixOperations for Matrix::hadamard_product` | 83-97 | `Mat.hadamard` (Matrix), `instance` (Wrappers) |
| `mat_mul` | 101-127 | `forList` (Basic), `matMul` (Matrix) |
| `Mul for Matrix::mul` | 135-142 | `Mat.scale` (Matrix) |
| `Matrix::row_vector` | 149-155 | `Mat.rowVector` (Matrix) |
| `SquareMatrix::transpose` | 159-161 | `SquareMatrix.transpose` (Wrappers) |
| `MatrixOperations for SquareMatrix::new` | 173-175 | `instance` (Wrappers) |
| `MatrixOperations for SquareMatrix::elements` | 177-179 | `instance` (Wrappers) |
| `MatrixOperations for SquareMatrix::get_element` | 181-183 | `instance` (Wrappers) |
| `MatrixOperations for SquareMatrix::set_element` | 185-187 | `instance` (Wrappers) |
| `MatrixOperations for SquareMatrix::n_rows` | 189-191 | `instance` (Wrappers) |
| `MatrixOperations for SquareMatrix::n_cols` | 193-196 | `instance` (Wrappers) |
| `MatrixOperations for SquareMatrix::hadamard_product` | 198-203 | `instance` (Wrappers) |
| `SquareMatrixOperations for SquareMatrix::inverse` | 210-236 | `Mat.inverse` (Matrix) |
| `SquareMatrixOperations for SquareMatrix::identity` | 239-249 | `Mat.identity` (Matrix) |
| `SquareMatrixOperations for SquareMatrix::minors` | 252-273 | `Panic` (Basic), `Mat.minors` (Matrix) |
| `SquareMatrixOperations for SquareMatrix::cofactors` | 276-288 | `Mat.cofactors` (Matrix) |
| `SquareMatrixOperations for SquareMatrix::determinant` | 291-306 | `determinant` (Matrix) |
| `Mul for SquareMatrix::mul` | 313-320 | `Mat.scale` (Matrix) |
| `SquareMatrix::row_vector` | 325-327 | `Mat.rowVector` (Matrix) |
| `SquareMatrix::new_2x2` | 330-332 | `Mat.new2x2` (Matrix) |
| `SquareMatrix::new_from_known` | 335-337 | `SquareMatrix.newFromKnown` (Wrappers) |
| `square_mat_mul` | 341-365 | `matMul` (Matrix), `squareMatMul` (Wrappers) |
| `minor_matrix` | 368-408 | `forRange` (Basic), `minorMatrix` (Matrix) |
| `determinant` | 411-446 | `detMinor` (Matrix), `determinant` (Matrix) |

## poseidon-parameters/src/matrix_ops.rs

| function | lines | definitions |
|---|---|---|
| `MatrixOperations::new` | 8-8 | `MatrixOperations` (Wrappers), `MatrixCall` (Wrappers), `MatrixCall.exec` (Wrappers), `MatrixCall.execAll` (Wrappers), `matrixSession` (Wrappers) |
| `MatrixOperations::elements` | 10-10 | `MatrixOperations` (Wrappers), `MatrixCall` (Wrappers), `MatrixAnswer` (Wrappers), `MatrixCall.exec` (Wrappers), `MatrixCall.execAll` (Wrappers), `matrixSession` (Wrappers) |
| `MatrixOperations::get_element` | 12-12 | `MatrixOperations` (Wrappers), `MatrixCall` (Wrappers), `MatrixAnswer` (Wrappers), `MatrixCall.exec` (Wrappers), `MatrixCall.execAll` (Wrappers), `matrixSession` (Wrappers) |
| `MatrixOperations::set_element` | 14-14 | `MatrixOperations` (Wrappers), `MatrixCall` (Wrappers), `MatrixAnswer` (Wrappers), `MatrixCall.exec` (Wrappers), `MatrixCall.execAll` (Wrappers), `matrixSession` (Wrappers) |
| `MatrixOperations::iter_rows` | 16-18 | `chunksAux` (Basic), `chunks` (Basic), `Mat.iterRows` (Matrix), `MatrixOperations` (Wrappers), `MatrixOperations.iterRows` (Wrappers), `MatrixCall` (Wrappers), `MatrixAnswer` (Wrappers), `MatrixCall.exec` (Wrappers), `MatrixCall.execAll` (Wrappers), `matrixSession` (Wrappers) |
| `MatrixOperations::n_rows` | 20-20 | `MatrixOperations` (Wrappers), `MatrixCall` (Wrappers), `MatrixAnswer` (Wrappers), `MatrixCall.exec` (Wrappers), `MatrixCall.execAll` (Wrappers), `matrixSession` (Wrappers) |
| `MatrixOperations::n_cols` | 22-22 | `MatrixOperations` (Wrappers), `MatrixCall` (Wrappers), `MatrixAnswer` (Wrappers), `MatrixCall.exec` (Wrappers), `MatrixCall.execAll` (Wrappers), `matrixSession` (Wrappers) |
| `MatrixOperations::hadamard_product` | 24-26 | `MatrixOperations` (Wrappers), `MatrixCall` (Wrappers), `MatrixAnswer` (Wrappers), `MatrixCall.exec` (Wrappers), `MatrixCall.execAll` (Wrappers), `matrixSession` (Wrappers) |
| `dot_product` | 30-36 | `Panic` (Basic), `fsum` (Basic), `dotProduct` (Matrix) |
| `SquareMatrixOperations::inverse` | 41-43 | - |
| `SquareMatrixOperations::identity` | 45-45 | - |
| `SquareMatrixOperations::minors` | 47-47 | - |
| `SquareMatrixOperations::cofactors` | 49-49 | - |
| `SquareMatrixOperations::determinant` | 51-51 | - |

## poseidon-parameters/src/mds_matrix.rs

| function | lines | definitions |
|---|---|---|
| `new` | 25-30 | `Panic` (Basic), `mdsNew` (Params), `instance` (Wrappers) |
| `elements` | 32-34 | `instance` (Wrappers) |
| `get_element` | 36-38 | `instance` (Wrappers) |
| `set_element` | 40-42 | `instance` (Wrappers) |
| `n_rows` | 44-46 | `instance` (Wrappers) |
| `n_cols` | 48-50 | `instance` (Wrappers) |
| `hadamard_product` | 52-57 | `instance` (Wrappers) |
| `from_elements` | 75-77 | `mdsFromElements` (Params), `MdsMatrix.fromElements` (Wrappers) |
| `transpose` | 79-81 | `Mat.transpose` (Matrix), `MdsMatrix.transpose` (Wrappers) |
| `inverse` | 84-88 | `mdsInverse` (Params) |
| `v` | 93-96 | `mdsV` (Params) |
| `w` | 101-107 | `mdsW` (Params) |
| `hat` | 114-125 | `mdsHat` (Params) |
| `new_from_known` | 135-137 | `MdsMatrix.newFromKnown` (Wrappers) |

## poseidon-parameters/src/round_numbers.rs

| function | lines | definitions |
|---|---|---|
| `RoundNumbers::full` | 12-14 | `RoundNumbers.full` (Params) |
| `RoundNumbers::full_mut` | 17-19 | `RoundsWrite` (Wrappers), `RoundNumbers.write` (Wrappers) |
| `RoundNumbers::partial` | 22-24 | `RoundNumbers.partialRounds` (Params) |
| `RoundNumbers::partial_mut` | 27-29 | `RoundsWrite` (Wrappers), `RoundNumbers.write` (Wrappers) |
| `RoundNumbers::total` | 32-34 | `total` (GenMachine), `RoundNumbers.total` (Params), `RoundNumbers.totalMachine` (Wrappers) |

## poseidon-paramgen/src/alpha.rs

| function | lines | definitions |
|---|---|---|
| `ShortestAdditionChains::depths_in_order` | 37-44 | `depthsInOrder` (GenAlpha) |
| `generate` | 48-62 | `alphaLoop` (GenAlpha), `alphaGenerate` (GenAlpha), `alphaLoopArg` (GenArg), `alphaGenerateArg` (GenArg) |
| `alpha_coprime_to_p_minus_one` | 64-70 | `alphaCoprimeToPMinusOne` (GenAlpha), `alphaCoprimeArg` (GenArg) |
| `test_gcd` | 82-95 | - |
| `check_alpha_5` | 98-106 | - |
| `check_alpha_17` | 109-113 | - |

## poseidon-paramgen/src/appendix_g.rs

| function | lines | definitions |
|---|---|---|
| `table_7_concrete_instances_alpha_3` | 35-96 | - |
| `table_8_concrete_instances_alpha_5` | 99-157 | - |
| `table_9_concrete_instances_inverse_alpha` | 160-208 | - |
| `poseidon_bls12_377_instance` | 211-248 | - |

## poseidon-paramgen/src/input.rs

| function | lines | definitions |
|---|---|---|
| `InputParameters::generate` | 27-36 | `v1GenerateArg` (GenArg), `v1Generate` (GenV1) |

## poseidon-paramgen/src/mds.rs

| function | lines | definitions |
|---|---|---|
| `v1_generate` | 10-26 | `v1GenerateArg` (GenArg), `mdsGenerate` (GenMds) |
| `fixed_cauchy_matrix` | 41-73 | `v1GenerateArg` (GenArg), `numBits` (GenMds), `fixedCauchyMatrix` (GenMds) |
| `generate_optimized` | 76-156 | `inverseExpect` (GenMds), `mdsGenerateOptimized` (GenMds) |
| `calc_equivalent_matrices` | 158-202 | `inverseExpect` (GenMds), `EquivState` (GenMds), `calcEquivalentMatrices` (GenMds), `toArr` (GenMds), `forRangeRev` (GenMds) |
| `prime` | 204-222 | `prime` (GenMds) |
| `doubleprime` | 224-250 | `doublePrime` (GenMds) |
| `convert_from_mds_to_vec_of_vecs` | 263-275 | - |
| `cauchy_method_mds` | 278-288 | - |
| `check_calc_equivalent_matrices_vs_sage` | 291-375 | - |

## poseidon-paramgen/src/poseidon_build.rs

| function | lines | definitions |
|---|---|---|
| `v1_compile` | 17-33 | `v1Compile` (GenBuild) |
| `v2_compile` | 36-52 | `v2Compile` (GenBuild) |
| `Display for DisplayableV2PoseidonParameters::fmt` | 56-58 | - |
| `Display for DisplayablePoseidonParameters::fmt` | 63-104 | `displayParams` (GenBuild) |
| `Display for DisplayablePoseidonParameters::rate_` | 83-94 | `displayParams` (GenBuild) |
| `Display for DisplayableAlpha::fmt` | 109-114 | `displayAlpha` (GenBuild) |
| `Display for DisplayableMatrix::fmt` | 119-124 | `displayMatrix` (GenBuild) |
| `Display for DisplayableSquareMatrix::fmt` | 129-134 | `displaySquareMatrix` (GenBuild) |
| `serialize_slice_matrix_f` | 137-147 | `serializeSliceMatrixF` (GenBuild) |
| `serialize_slice_f` | 149-164 | `pushElement` (GenBuild), `serializeSliceF` (GenBuild) |
| `serialize_slice_of_vecs_f` | 166-181 | `serializeSliceOfVecsF` (GenBuild) |
| `serialize_f` | 183-189 | `serializeF` (GenBuild) |
| `Display for DisplayableOptimizedMdsMatrices::fmt` | 193-234 | `displayOptimizedMds` (GenBuild) |
| `Display for DisplayableMdsMatrix::fmt` | 239-246 | `displayMds` (GenBuild) |
| `Display for DisplayableArcMatrix::fmt` | 251-266 | `displayArc` (GenBuild) |
| `optimized_arc_matrix_to_vec_vec` | 269-281 | `arcRows` (GenBuild) |
| `Display for DisplayableOptimizedArcMatrix::fmt` | 285-298 | `displayOptimizedArc` (GenBuild) |

## poseidon-paramgen/src/round_constants.rs

| function | lines | definitions |
|---|---|---|
| `v1_generate` | 16-29 | `arcElementsArg` (GenArg), `arcV1GenerateArg` (GenArg), `arcElements` (GenTranscript), `arcV1Generate` (GenTranscript), `arcElementsW` (GenWord), `arcV1GenerateW` (GenWord), `transcriptNew` (Merlin) |
| `v2_generate` | 32-47 | `arcElements` (GenTranscript), `arcV2Generate` (GenTranscript), `arcElementsW` (GenWord) |
| `constants_by_round` | 50-52 | `constantsByRound` (GenMds) |
| `set_constants_by_round` | 55-64 | `setConstantsByRound` (GenMds) |
| `generate_optimized` | 67-109 | `arcStep` (GenMds), `forRangeRev` (GenMds), `arcGenerateOptimized` (GenMds) |
| `convert_from_arc_to_vec_of_vecs` | 118-138 | - |

## poseidon-paramgen/src/rounds.rs

| function | lines | definitions |
|---|---|---|
| `v1_generate` | 18-48 | `Panic` (Basic), `roundSearch` (GenMachine), `roundsV1Generate` (GenMachine), `usizeMax` (GenRounds), `SearchState` (GenRounds), `roundSearch` (GenRounds), `roundsV1Generate` (GenRounds) |
| `v2_generate` | 51-77 | `roundSearch` (GenMachine), `roundsV2Generate` (GenMachine), `SearchState` (GenRounds), `roundSearch` (GenRounds), `roundsV2Generate` (GenRounds) |
| `RoundNumbersBuilder::is_secure_v1` | 83-119 | `roundEven` (GenFloat), `ulpExp` (GenFloat), `rne` (GenFloat), `Libm` (GenFloat), `Libm.Accurate` (GenFloat), `asUsize` (GenFloat), `F64` (GenMachine), `round` (GenMachine), `ofNat` (GenMachine), `add` (GenMachine), `neg` (GenMachine), `sub` (GenMachine), `infMul` (GenMachine), `mul` (GenMachine), `div` (GenMachine), `floor` (GenMachine), `ceil` (GenMachine), `le` (GenMachine), `toReal` (GenMachine), `LibmF` (GenMachine), `LibmF.Accurate` (GenMachine), `LibmF.real` (GenMachine), `Target` (GenMachine), `arith` (GenMachine), `asUsize` (GenMachine), `Usual` (GenMachine), `inverseRounds` (GenMachine), `isSecureV1` (GenMachine), `inverseRounds` (GenRounds), `isSecureV1` (GenRounds) |
| `RoundNumbersBuilder::is_secure_v2` | 122-146 | `roundEven` (GenFloat), `ulpExp` (GenFloat), `rne` (GenFloat), `F64` (GenMachine), `round` (GenMachine), `ofNat` (GenMachine), `add` (GenMachine), `neg` (GenMachine), `sub` (GenMachine), `infMul` (GenMachine), `mul` (GenMachine), `div` (GenMachine), `floor` (GenMachine), `ceil` (GenMachine), `le` (GenMachine), `toReal` (GenMachine), `Target` (GenMachine), `arith` (GenMachine), `Usual` (GenMachine), `isSecureV2` (GenMachine), `isSecureV2` (GenRounds) |
| `RoundNumbersBuilder::sbox_count` | 149-151 | `roundEven` (GenFloat), `ulpExp` (GenFloat), `rne` (GenFloat), `F64` (GenMachine), `round` (GenMachine), `ofNat` (GenMachine), `add` (GenMachine), `neg` (GenMachine), `sub` (GenMachine), `infMul` (GenMachine), `mul` (GenMachine), `div` (GenMachine), `floor` (GenMachine), `ceil` (GenMachine), `le` (GenMachine), `toReal` (GenMachine), `Target` (GenMachine), `arith` (GenMachine), `Usual` (GenMachine), `sboxCount` (GenMachine), `sboxCount` (GenRounds) |
| `RoundNumbersBuilder::apply_security_margin` | 155-158 | `roundEven` (GenFloat), `ulpExp` (GenFloat), `rne` (GenFloat), `asUsize` (GenFloat), `F64` (GenMachine), `round` (GenMachine), `ofNat` (GenMachine), `add` (GenMachine), `neg` (GenMachine), `sub` (GenMachine), `infMul` (GenMachine), `mul` (GenMachine), `div` (GenMachine), `floor` (GenMachine), `ceil` (GenMachine), `le` (GenMachine), `toReal` (GenMachine), `Target` (GenMachine), `arith` (GenMachine), `asUsize` (GenMachine), `Usual` (GenMachine), `applySecurityMargin` (GenMachine), `applySecurityMargin` (GenRounds) |
| `statistical_attack_full_rounds` | 165-183 | `roundEven` (GenFloat), `ulpExp` (GenFloat), `rne` (GenFloat), `Libm` (GenFloat), `Libm.Accurate` (GenFloat), `F64` (GenMachine), `round` (GenMachine), `ofNat` (GenMachine), `add` (GenMachine), `neg` (GenMachine), `sub` (GenMachine), `infMul` (GenMachine), `mul` (GenMachine), `div` (GenMachine), `floor` (GenMachine), `ceil` (GenMachine), `le` (GenMachine), `toReal` (GenMachine), `LibmF` (GenMachine), `LibmF.Accurate` (GenMachine), `LibmF.real` (GenMachine), `statisticalAttackFullRounds` (GenMachine), `statisticalAttackFullRounds` (GenRounds) |
| `algebraic_attack_interpolation` | 192-210 | `roundEven` (GenFloat), `ulpExp` (GenFloat), `rne` (GenFloat), `Libm` (GenFloat), `Libm.Accurate` (GenFloat), `Libm.log` (GenFloat), `asUsize` (GenFloat), `F64` (GenMachine), `round` (GenMachine), `ofNat` (GenMachine), `add` (GenMachine), `neg` (GenMachine), `sub` (GenMachine), `infMul` (GenMachine), `mul` (GenMachine), `div` (GenMachine), `floor` (GenMachine), `ceil` (GenMachine), `le` (GenMachine), `toReal` (GenMachine), `LibmF` (GenMachine), `LibmF.Accurate` (GenMachine), `LibmF.real` (GenMachine), `LibmF.log` (GenMachine), `asUsize` (GenMachine), `algebraicAttackInterpolation` (GenMachine), `algebraicAttackInterpolation` (GenRounds) |
| `algebraic_attack_grobner_basis_v2_possible` | 215-261 | `usub` (Basic), `roundEven` (GenFloat), `ulpExp` (GenFloat), `rne` (GenFloat), `F64` (GenMachine), `round` (GenMachine), `ofNat` (GenMachine), `add` (GenMachine), `neg` (GenMachine), `sub` (GenMachine), `infMul` (GenMachine), `mul` (GenMachine), `div` (GenMachine), `floor` (GenMachine), `ceil` (GenMachine), `le` (GenMachine), `toReal` (GenMachine), `Target` (GenMachine), `arith` (GenMachine), `Usual` (GenMachine), `binomialLoop` (GenMachine), `algebraicAttackGrobnerBasisV2Possible` (GenMachine), `binomialLoop` (GenRounds), `algebraicAttackGrobnerBasisV2Possible` (GenRounds) |
| `algebraic_attack_grobner_basis_v1` | 270-315 | `roundEven` (GenFloat), `ulpExp` (GenFloat), `rne` (GenFloat), `Libm` (GenFloat), `Libm.Accurate` (GenFloat), `Libm.log` (GenFloat), `asUsize` (GenFloat), `F64` (GenMachine), `round` (GenMachine), `ofNat` (GenMachine), `add` (GenMachine), `neg` (GenMachine), `sub` (GenMachine), `infMul` (GenMachine), `mul` (GenMachine), `div` (GenMachine), `floor` (GenMachine), `ceil` (GenMachine), `le` (GenMachine), `maxBy` (GenMachine), `toReal` (GenMachine), `LibmF` (GenMachine), `LibmF.Accurate` (GenMachine), `LibmF.real` (GenMachine), `LibmF.log` (GenMachine), `asUsize` (GenMachine), `algebraicAttackGrobnerBasisV1` (GenMachine), `algebraicAttackGrobnerBasisV1` (GenRounds) |
| `cmp_f64` | 317-319 | `partialCmp` (GenMachine), `minBy` (GenMachine) |

## poseidon-paramgen/src/transcript.rs

| function | lines | definitions |
|---|---|---|
| `domain_sep` | 8-13 | - |
| `round_constant` | 14-14 | - |
| `TranscriptProtocol for Transcript::domain_sep` | 18-35 | `arcElementsArg` (GenArg), `domainSepMessages` (GenTranscript), `domainSep` (GenTranscript), `domainSepMessagesW` (GenWord), `domainSepW` (GenWord), `leBytes` (Merlin), `asciiBytes` (Merlin), `appendMessage` (Merlin) |
| `TranscriptProtocol for Transcript::round_constant` | 37-42 | `arcElementsArg` (GenArg), `roundConstant` (GenTranscript), `leValue` (Merlin), `challengeBytes` (Merlin) |

## poseidon-paramgen/src/utils.rs

| function | lines | definitions |
|---|---|---|
| `log2` | 6-30 | `roundEven` (GenFloat), `ulpExp` (GenFloat), `rne` (GenFloat), `Libm` (GenFloat), `Libm.Accurate` (GenFloat), `F64` (GenMachine), `round` (GenMachine), `ofNat` (GenMachine), `add` (GenMachine), `neg` (GenMachine), `sub` (GenMachine), `infMul` (GenMachine), `mul` (GenMachine), `div` (GenMachine), `floor` (GenMachine), `ceil` (GenMachine), `le` (GenMachine), `toReal` (GenMachine), `LibmF` (GenMachine), `LibmF.Accurate` (GenMachine), `LibmF.real` (GenMachine), `i32Add` (GenMachine), `bytesLe` (GenMachine), `log2Loop` (GenMachine), `log2Big` (GenMachine), `log2Loop` (GenRounds), `log2Big` (GenRounds) |
| `log2_bigint` | 40-54 | - |

## poseidon-paramgen/src/v1.rs

| function | lines | definitions |
|---|---|---|
| `generate` | 17-57 | `v1GenerateArg` (GenArg), `AnyParams` (GenBuild), `v1Generate` (GenV1) |

## poseidon-paramgen/src/v2.rs

| function | lines | definitions |
|---|---|---|
| `generate` | 20-66 | `v2Generate` (GenV2) |

## poseidon-paramgen/src/v2/external.rs

| function | lines | definitions |
|---|---|---|
| `generate` | 8-72 | `m4Elements` (GenV2), `externalGenerate` (GenV2) |
| `external_matrix_t_equals_4` | 81-108 | - |
| `external_matrix_t_equals_8` | 111-193 | - |

## poseidon-paramgen/src/v2/internal.rs

| function | lines | definitions |
|---|---|---|
| `generate` | 8-43 | `internalGenerate` (GenV2) |
| `internal_matrix_t_equals_2` | 53-64 | - |
| `internal_matrix_t_equals_3` | 67-85 | - |

## poseidon-permutation/src/permutation.rs

| function | lines | definitions |
|---|---|---|
| `new` | 60-76 | `Threads.init` (InPlace), `Instance.new` (Permutation) |
| `n_to_1_fixed_hash` | 79-90 | `R` (Basic), `aget` (Basic), `aset` (Basic), `Prog` (InPlace), `bind` (InPlace), `lift` (InPlace), `read` (InPlace), `write` (InPlace), `step` (InPlace), `run` (InPlace), `accesses` (InPlace), `loopN` (InPlace), `forRange` (InPlace), `forList` (InPlace), `setState` (InPlace), `nTo1FixedHash` (InPlace), `HashCall` (InPlace), `HashCall.prog` (InPlace), `Running` (InPlace), `Entry` (InPlace), `Choice` (InPlace), `Threads.Free` (InPlace), `Threads.Step` (InPlace), `Threads.Steps` (InPlace), `nTo1FixedHash` (Machine), `setState` (Permutation), `Instance.nTo1FixedHash` (Permutation), `Loc` (Trace), `Event` (Trace), `Traced` (Trace), `lift` (Trace), `emit` (Trace), `fadd` (Trace), `fmul` (Trace), `get` (Trace), `set` (Trace), `loopN` (Trace), `forRange` (Trace), `forList` (Trace), `setState` (Trace), `nTo1FixedHash` (Trace), `Event.price` (Trace), `Traced.price` (Trace) |
| `output_words` | 93-95 | `Prog` (InPlace), `bind` (InPlace), `lift` (InPlace), `step` (InPlace), `run` (InPlace), `accesses` (InPlace), `loopN` (InPlace), `forRange` (InPlace), `forList` (InPlace), `Entry` (InPlace), `Choice` (InPlace), `Threads.Free` (InPlace), `Threads.Step` (InPlace), `Threads.Steps` (InPlace), `Instance.outputWords` (Permutation), `Loc` (Trace), `Event` (Trace), `Traced` (Trace), `lift` (Trace), `emit` (Trace), `fadd` (Trace), `fmul` (Trace), `get` (Trace), `set` (Trace), `loopN` (Trace), `forRange` (Trace), `forList` (Trace), `Event.price` (Trace), `Traced.price` (Trace) |
| `permute` | 101-158 | `forRange` (Basic), `usub` (Basic), `Prog` (InPlace), `bind` (InPlace), `lift` (InPlace), `step` (InPlace), `run` (InPlace), `accesses` (InPlace), `loopN` (InPlace), `forRange` (InPlace), `forList` (InPlace), `addRow` (InPlace), `permute` (InPlace), `Choice` (InPlace), `Threads.Step` (InPlace), `Threads.Steps` (InPlace), `Arith` (Machine), `Arith.checked` (Machine), `Arith.wrapping` (Machine), `addRow` (Machine), `permute` (Machine), `addRow` (Permutation), `permute` (Permutation), `Loc` (Trace), `Event` (Trace), `Traced` (Trace), `lift` (Trace), `emit` (Trace), `fadd` (Trace), `fmul` (Trace), `get` (Trace), `set` (Trace), `loopN` (Trace), `forRange` (Trace), `forList` (Trace), `addRow` (Trace), `permute` (Trace), `Event.price` (Trace), `Traced.price` (Trace) |
| `unoptimized_n_to_1_fixed_hash` | 161-172 | `Prog` (InPlace), `bind` (InPlace), `lift` (InPlace), `step` (InPlace), `run` (InPlace), `accesses` (InPlace), `loopN` (InPlace), `forRange` (InPlace), `forList` (InPlace), `setState` (InPlace), `unoptimizedNTo1FixedHash` (InPlace), `HashCall` (InPlace), `HashCall.prog` (InPlace), `Running` (InPlace), `Entry` (InPlace), `Choice` (InPlace), `Threads.Free` (InPlace), `Threads.Step` (InPlace), `Threads.Steps` (InPlace), `Arith` (Machine), `Arith.checked` (Machine), `Arith.wrapping` (Machine), `unoptimizedNTo1FixedHash` (Machine), `setState` (Permutation), `Instance.unoptimizedNTo1FixedHash` (Permutation), `Loc` (Trace), `Event` (Trace), `Traced` (Trace), `lift` (Trace), `emit` (Trace), `fadd` (Trace), `fmul` (Trace), `get` (Trace), `set` (Trace), `loopN` (Trace), `forRange` (Trace), `forList` (Trace), `setState` (Trace), `unoptimizedNTo1FixedHash` (Trace), `Event.price` (Trace), `Traced.price` (Trace) |
| `unoptimized_permute` | 178-216 | `Prog` (InPlace), `bind` (InPlace), `lift` (InPlace), `step` (InPlace), `run` (InPlace), `accesses` (InPlace), `loopN` (InPlace), `forRange` (InPlace), `forList` (InPlace), `addLinear` (InPlace), `unoptimizedPermute` (InPlace), `Arith` (Machine), `Arith.checked` (Machine), `Arith.wrapping` (Machine), `addLinear` (Machine), `unoptimizedPermute` (Machine), `addLinear` (Permutation), `unoptimizedPermute` (Permutation), `Loc` (Trace), `Event` (Trace), `Traced` (Trace), `lift` (Trace), `emit` (Trace), `fadd` (Trace), `fmul` (Trace), `get` (Trace), `set` (Trace), `loopN` (Trace), `forRange` (Trace), `forList` (Trace), `addLinear` (Trace), `unoptimizedPermute` (Trace), `Event.price` (Trace), `Traced.price` (Trace) |
| `partial_sub_words` | 219-224 | `fdiv` (Basic), `Prog` (InPlace), `bind` (InPlace), `lift` (InPlace), `read` (InPlace), `write` (InPlace), `step` (InPlace), `run` (InPlace), `accesses` (InPlace), `loopN` (InPlace), `forRange` (InPlace), `forList` (InPlace), `partialSubWords` (InPlace), `Arith` (Machine), `Arith.checked` (Machine), `Arith.wrapping` (Machine), `sbox` (Permutation), `partialSubWords` (Permutation), `Loc` (Trace), `Event` (Trace), `Traced` (Trace), `lift` (Trace), `emit` (Trace), `fadd` (Trace), `fmul` (Trace), `get` (Trace), `set` (Trace), `loopN` (Trace), `forRange` (Trace), `forList` (Trace), `sbox` (Trace), `partialSubWords` (Trace), `Event.price` (Trace), `Traced.price` (Trace) |
| `full_sub_words` | 227-240 | `fdiv` (Basic), `Prog` (InPlace), `bind` (InPlace), `lift` (InPlace), `step` (InPlace), `run` (InPlace), `accesses` (InPlace), `loopN` (InPlace), `forRange` (InPlace), `forList` (InPlace), `fullSubWords` (InPlace), `Arith` (Machine), `Arith.checked` (Machine), `Arith.wrapping` (Machine), `sbox` (Permutation), `fullSubWords` (Permutation), `Loc` (Trace), `Event` (Trace), `Traced` (Trace), `lift` (Trace), `emit` (Trace), `fadd` (Trace), `fmul` (Trace), `get` (Trace), `set` (Trace), `loopN` (Trace), `forRange` (Trace), `forList` (Trace), `sbox` (Trace), `fullSubWords` (Trace), `Event.price` (Trace), `Traced.price` (Trace) |
| `mix_layer_mi` | 243-254 | `fsum` (Basic), `Prog` (InPlace), `bind` (InPlace), `lift` (InPlace), `step` (InPlace), `run` (InPlace), `accesses` (InPlace), `loopN` (InPlace), `forRange` (InPlace), `forList` (InPlace), `dot` (InPlace), `assign` (InPlace), `mixLayer` (InPlace), `Arith` (Machine), `Arith.checked` (Machine), `Arith.wrapping` (Machine), `mixLayer` (Permutation), `Loc` (Trace), `Event` (Trace), `Traced` (Trace), `lift` (Trace), `emit` (Trace), `fadd` (Trace), `fmul` (Trace), `get` (Trace), `set` (Trace), `loopN` (Trace), `forRange` (Trace), `forList` (Trace), `dot` (Trace), `mixLayer` (Trace), `Event.price` (Trace), `Traced.price` (Trace) |
| `mix_layer_mds` | 257-269 | `fsum` (Basic), `Prog` (InPlace), `bind` (InPlace), `lift` (InPlace), `step` (InPlace), `run` (InPlace), `accesses` (InPlace), `loopN` (InPlace), `forRange` (InPlace), `forList` (InPlace), `dot` (InPlace), `assign` (InPlace), `mixLayer` (InPlace), `Arith` (Machine), `Arith.checked` (Machine), `Arith.wrapping` (Machine), `mixLayer` (Permutation), `Loc` (Trace), `Event` (Trace), `Traced` (Trace), `lift` (Trace), `emit` (Trace), `fadd` (Trace), `fmul` (Trace), `get` (Trace), `set` (Trace), `loopN` (Trace), `forRange` (Trace), `forList` (Trace), `dot` (Trace), `mixLayer` (Trace), `Event.price` (Trace), `Traced.price` (Trace) |
| `sparse_mat_mul` | 272-296 | `forList` (Basic), `lget` (Basic), `Prog` (InPlace), `bind` (InPlace), `lift` (InPlace), `step` (InPlace), `run` (InPlace), `accesses` (InPlace), `loopN` (InPlace), `forRange` (InPlace), `forList` (InPlace), `dot` (InPlace), `sparseMatMul` (InPlace), `Arith` (Machine), `Arith.checked` (Machine), `Arith.wrapping` (Machine), `sparseMatMul` (Machine), `sparseMatMul` (Permutation), `Loc` (Trace), `Event` (Trace), `Traced` (Trace), `lift` (Trace), `emit` (Trace), `fadd` (Trace), `fmul` (Trace), `get` (Trace), `set` (Trace), `loopN` (Trace), `forRange` (Trace), `forList` (Trace), `dot` (Trace), `sparseMatMul` (Trace), `Event.price` (Trace), `Traced.price` (Trace) |

## poseidon-permutation/src/r1cs.rs

| function | lines | definitions |
|---|---|---|
| `n_to_1_fixed_hash` | 61-88 | `lget` (Basic), `runInstance` (CircuitFields), `runCalls` (CircuitState), `circuitHash` (Machine), `nTo1FixedHash` (R1cs), `nTo1FixedHash` (Symbolic) |
| `permute` | 91-129 | `ArithOp` (Arith), `forRange` (Basic), `InstanceCall.run` (CircuitFields), `WordCall.run` (CircuitState), `addRoundConstants` (Machine), `circuitRound` (Machine), `circuitPermute` (Machine), `AllocatedFp.addConstant` (R1cs), `FpVar.addConstant` (R1cs), `addRoundConstants` (R1cs), `round` (R1cs), `permute` (R1cs), `AllocatedFp.addConstant` (Symbolic), `FpVar.addConstant` (Symbolic), `addRoundConstants` (Symbolic), `round` (Symbolic), `permute` (Symbolic) |
| `partial_sub_words` | 132-141 | `Panic` (Basic), `lset` (R1cs), `partialSubWords` (R1cs), `partialSubWords` (Symbolic) |
| `full_sub_words` | 144-157 | `FpVar.mul` (R1cs), `lset` (R1cs), `fullSubWords` (R1cs), `fullSubWords` (Symbolic) |
| `mix_layer_mds` | 160-180 | `ArithOp` (Arith), `FpVar.mul` (R1cs), `mixRow` (R1cs), `mixLayer` (R1cs), `FpVar.mul` (Symbolic), `mixRow` (Symbolic), `mixLayer` (Symbolic) |

## poseidon-tests/tests/parameters.rs

| function | lines | definitions |
|---|---|---|
| `identity_matrix` | 9-15 | - |
| `square_matmul` | 18-34 | - |
| `nonsquare_matmul_happy` | 37-59 | - |
| `hadamard_product` | 62-80 | - |
| `transpose` | 83-118 | - |
| `cofactors` | 121-136 | - |
| `fq_strategy` | 138-142 | `fqStrategy` (RandomTests) |
| `inverse_2x2` | 146-151 | `assertEq` (RandomTests), `unwrap` (RandomTests), `inverseTest` (RandomTests) |
| `inverse` | 155-208 | - |
| `create_matrix_from_array` | 211-237 | - |
| `determinant` | 240-285 | - |

## poseidon-tests/tests/poseidon377_r1cs.rs

| function | lines | definitions |
|---|---|---|
| `ConstraintSynthesizer for PreimageCircuit::generate_constraints` | 60-157 | `CS.new` (Preimage), `newInput` (Preimage), `AllocatedFp.enforceEqual` (Preimage), `FpVar.enforceEqual` (Preimage), `allocPreimages` (Preimage), `allocOutputs` (Preimage), `generateConstraints` (Preimage), `CS.new` (Symbolic), `newInput` (Symbolic), `AllocatedFp.enforceEqual` (Symbolic), `FpVar.enforceEqual` (Symbolic), `allocPreimages` (Symbolic), `allocOutputs` (Symbolic), `generateConstraints` (Symbolic), `UserCircuit` (UserCircuit), `UserCircuit.generate` (UserCircuit), `R1cs.UserCircuit.synthesize` (UserProof) |
| `PreimageCircuit::generate_test_parameters` | 161-170 | `setup` (Groth16), `VerifyingKey.map` (KeyFile), `ProvingKey.map` (KeyFile), `setupUser` (UserProof) |
| `fq_strategy` | 173-177 | - |
| `groth16_hash_proof_happy_path` | 182-210 | `prove` (Groth16), `verify` (Groth16), `testOutputs` (Groth16), `happyPath` (Groth16), `proveUser` (UserProof) |
| `groth16_hash_proof_unhappy_path` | 216-244 | `verify` (Groth16), `testOutputs` (Groth16), `unhappyPath` (Groth16) |
| `write_params` | 247-266 | `ownFiles` (Concurrent), `applyCall` (Concurrent), `Crowd.outcome` (Concurrent), `writeVk` (KeyFile), `writePk` (KeyFile), `writeParams` (KeyFile), `Moment` (PowerLoss), `PowerLoss` (PowerLoss), `Stage` (TestVectors), `writeTo` (TestVectors), `call` (TestVectors), `Torn` (TornFile), `TornLoss` (TornFile), `Response` (WriteParams), `Status` (WriteParams), `createFile` (WriteParams), `Writer` (WriteParams), `Writer.writePieces` (WriteParams), `writeFile` (WriteParams), `Files` (WriteParams), `Outcome` (WriteParams), `writeParamsRun` (WriteParams) |
| `generate_test_vectors` | 270-274 | `Crowd` (Concurrent), `Crowd.init` (Concurrent), `Crowd.step` (Concurrent), `Crowd.run` (Concurrent), `Run` (TestVectors), `generateTestVectors` (TestVectors), `history` (TestVectors), `Machine` (TestVectors), `Machine.init` (TestVectors), `Machine.run` (TestVectors) |

## poseidon377/src/hash.rs

| function | lines | definitions |
|---|---|---|
| `hash_1` | 4-8 | `hash1` (Hash) |
| `hash_2` | 11-15 | `hash2` (Hash) |
| `hash_3` | 18-22 | `hash3` (Hash) |
| `hash_4` | 25-29 | `hash4` (Hash) |
| `hash_5` | 32-43 | `hash5` (Hash) |
| `hash_6` | 46-58 | `hash6` (Hash) |
| `hash_7` | 61-74 | `hash7` (Hash) |
| `rate_1` | 83-98 | - |
| `rate_2` | 101-123 | - |
| `rate_3` | 126-152 | - |
| `rate_4` | 155-185 | - |
| `rate_5` | 188-222 | - |
| `rate_6` | 225-263 | - |

## poseidon377/src/r1cs.rs

| function | lines | definitions |
|---|---|---|
| `hash_1` | 7-17 | `hash1` (R1cs), `hash1` (Symbolic), `callHash` (UserCircuit), `callHash` (UserProof) |
| `hash_2` | 19-29 | `InstanceCall.run` (CircuitFields), `hash2` (R1cs), `hash2` (Symbolic), `callHash` (UserCircuit), `callHash` (UserProof) |
| `hash_3` | 31-41 | `InstanceCall.run` (CircuitFields), `hash3` (R1cs), `hash3` (Symbolic), `callHash` (UserCircuit), `callHash` (UserProof) |
| `hash_4` | 43-53 | `hash4` (R1cs), `hash4` (Symbolic), `callHash` (UserCircuit), `callHash` (UserProof) |
| `hash_5` | 55-72 | `circuitHash` (Machine), `nTo1FixedHash` (R1cs), `hash5` (R1cs), `hash5` (Symbolic), `callHash` (UserCircuit), `callHash` (UserProof) |
| `hash_6` | 74-92 | `lget` (Basic), `circuitPermute` (Machine), `circuitHash` (Machine), `permute` (R1cs), `nTo1FixedHash` (R1cs), `hash6` (R1cs), `hash6` (Symbolic), `callHash` (UserCircuit), `callHash` (UserProof) |
| `hash_7` | 94-113 | `forRange` (Basic), `addRoundConstants` (Machine), `circuitRound` (Machine), `circuitPermute` (Machine), `addRoundConstants` (R1cs), `round` (R1cs), `permute` (R1cs), `hash7` (R1cs), `hash7` (Symbolic), `callHash` (UserCircuit), `callHash` (UserProof) |
