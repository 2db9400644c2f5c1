import Verif.Proofs.Sage
import Verif.Proofs.DerivedUnique
import Verif.Props.Native

/-!
# Property C65: the reference script

`poseidonperm_x17.sage` contains the constants, matrix and both permutation algorithms for width 3.  The tests of
`poseidon-consistency` compare the crate with it on one input; here the comparison is for all inputs.
-/

namespace Poseidon

open scoped Matrix

variable {F : Type} [Field F] [DecidableEq F] {k : Nat}

/-- **C65.** `perm_original` is the textbook permutation, for every field, width, exponent, matrix and constants. -/
theorem C65_original (g : SageGlobals F k) (h : g.Valid) (x : Fin (k + 1) → F) :
    ∃ y, g.permOriginal x = .ok y ∧
      textbook (.exponent g.alpha) g.mds (g.rF / 2) g.rP
        (fun r j => g.roundConstants[r.val * (k + 1) + j.val]'(by
          have hr := r.isLt
          have := h.even
          rw [h.consts]
          exact flat_lt (by omega) j.isLt)) x = some y := by
  set C : Fin (g.rF / 2 + g.rP + g.rF / 2) → Fin (k + 1) → F := fun r j => g.roundConstants[r.val * (k + 1) + j.val]'(by
          have hr := r.isLt
          have := h.even
          rw [h.consts]
          exact flat_lt (by omega) j.isLt) with hCdef
  have hC : ∀ r, listRow (sageRows k g.roundConstants) r.val = C r := by
    intro r
    funext j
    have hr := r.isLt
    have := h.even
    have hlt : r.val * (k + 1) + j.val < g.roundConstants.length := by
      rw [h.consts]; exact flat_lt (by omega) j.isLt
    rw [listRow_sageRows _ (by rw [h.rows]; omega), List.getD_eq_getElem?_getD, List.getElem?_eq_getElem hlt]
    rfl
  have h1 := textbook_eq_loops (.exponent g.alpha) g.mds (g.rF / 2) g.rP C _ hC x
  rw [textbook_exponent] at h1 ⊢
  refine ⟨_, ?_, rfl⟩
  have h2 := permOriginal_eq g h x
  simp only at h2
  rw [h2]
  revert h1
  generalize (do
      let x ← loopN (fun r => roundR (.exponent g.alpha) g.mds true (listRow (sageRows k g.roundConstants) r)) (g.rF / 2) 0 x
      let x ← loopN (fun r => roundR (.exponent g.alpha) g.mds false (listRow (sageRows k g.roundConstants) r)) g.rP
        (g.rF / 2) x
      loopN (fun r => roundR (.exponent g.alpha) g.mds true (listRow (sageRows k g.roundConstants) r)) (g.rF / 2)
        (g.rF / 2 + g.rP) x) = z
  intro h1
  cases z with
  | error e => exact absurd h1 (by simp [reported])
  | ok z =>
    have h3 : (Vector.ofFn _ : Vector F (k + 1)) = Vector.ofFn z := Except.ok.inj h1
    congr 1
    funext i
    have := congrArg (fun v : Vector F (k + 1) => v[i]) h3
    simpa using this.symm

/-- **C65.** `perm`, with the equivalent constants and cheap matrices, always agrees with `perm_original`: the assertion at
the end of the script, for every input (and every field, width, exponent, matrix and constants). -/
theorem C65_optimized (g : SageGlobals F k) (h : g.Valid) (x : Fin (k + 1) → F) : g.perm x = g.permOriginal x :=
  perm_eq_permOriginal g h x

/-! ## The script and the shipped parameters of rate 2 -/

theorem sage_constants_literal : canons rate2_arc = sageRoundConstants := by decide +kernel

theorem sage_mds_literal : canons rate2_mds = sageMdsMatrix.flatten := by decide +kernel

/-- **C65, tables.** The constants and the matrix written in the script are the shipped ones. -/
theorem C65_constants (r : Fin 39) (j : Fin 3) :
    sageScript.roundConstants[r.val * 3 + j.val]? = some (rate2Params.arc.toM rfl r j) := by
  have hlt : r.val * 3 + j.val < 117 := flat_lt r.isLt j.isLt
  have h1 : rate2Params.arc.toM rfl r j = natM 39 3 (canons rate2_arc) r j := congrFun (congrFun (vecM _ _ rfl) r) j
  rw [h1, sage_constants_literal, sageScript]
  have h2 : ∀ (r : Fin 39) (j : Fin 3), ent 3 sageRoundConstants r.val j.val =
      sageRoundConstants.getD (r.val * 3 + j.val) 0 := by decide +kernel
  simp only [List.getElem?_map, List.getElem?_range hlt, Option.map_some, natM, Matrix.of_apply, h2]

theorem C65_mds : sageScript.mds = rate2Params.mds.toM rfl := by
  have h1 : rate2Params.mds.toM rfl = natM 3 3 (canons rate2_mds) := vecM _ _ rfl
  rw [h1, sage_mds_literal]
  ext i j
  have h2 : ∀ i j : Fin 3, (sageMdsMatrix.getD i.val []).getD j.val 0 = ent 3 sageMdsMatrix.flatten i.val j.val := by
    decide +kernel
  show (((sageMdsMatrix.getD i.val []).getD j.val 0 : Nat) : Fq) = ((ent 3 sageMdsMatrix.flatten i.val j.val : Nat) : Fq)
  rw [h2]

theorem shipped_det (i : Fin 7) : ((shippedParams i).mds.toM rfl).det ≠ 0 := by
  intro h
  have := congrArg Matrix.det (shippedAll i).1.mInverse
  rw [Matrix.det_mul, h, zero_mul, Matrix.det_one] at this
  exact zero_ne_one this

theorem shipped_detHat (i : Fin 7) : (((shippedParams i).mds.toM rfl).submatrix Fin.succ Fin.succ).det ≠ 0 := by
  have e : (shippedParams i).optimizedMds.mHat.toM rfl = ((shippedParams i).mds.toM rfl).submatrix Fin.succ Fin.succ := by
    ext a b; exact (shippedAll i).1.mHat a b
  intro h
  have := congrArg Matrix.det (shippedAll i).1.mHatInverse
  rw [e, Matrix.det_mul, h, zero_mul, Matrix.det_one] at this
  exact zero_ne_one this

/-- The script satisfies the hypotheses of `C65_original` and `C65_optimized`. -/
theorem sageScript_valid : sageScript.Valid where
  even := rfl
  rp_pos := by decide
  consts := by simp [sageScript]
  det := by rw [C65_mds]; exact shipped_det 1
  detHat := by rw [C65_mds]; exact shipped_detHat 1

theorem sageScript_perm377 (x : Fin 3 → Fq) : sageScript.permOriginal x = .ok (perm377 1 x) := by
  obtain ⟨y, h1, h2⟩ := C65_original sageScript sageScript_valid x
  rw [h1]
  have h3 := spec377_eq 1 x
  rw [spec377] at h3
  have h4 : textbook (.exponent sageScript.alpha) sageScript.mds (sageScript.rF / 2) sageScript.rP
        (fun r j => sageScript.roundConstants[r.val * (2 + 1) + j.val]'(by
          have hr := r.isLt
          have := sageScript_valid.even
          rw [sageScript_valid.consts]
          exact flat_lt (by omega) j.isLt)) x = textbook (.exponent 17) (cauchyMds Fq 3) 4 31 (shippedArc 1) x := by
    refine textbook_congr rfl (C65_mds.trans (shipped_mds_cauchy 1)) rfl rfl ?_ x
    intro r h h'
    funext j
    have := C65_constants ⟨r, h'⟩ j
    obtain ⟨hh, h5⟩ := List.getElem?_eq_some_iff.1 this
    exact h5
  rw [h4] at h2
  exact congrArg _ (Option.some.inj (h2.symm.trans h3))

/-- **C65.** On every input, both permutations of the script return exactly the words the shipped rate 2 instance has in
`output_words` after `n_to_1_fixed_hash` or `unoptimized_n_to_1_fixed_hash`, whatever it was used for before, and the digest
is word 1. -/
theorem C65_instance (s : Vector Fq 3) (x : Fin 3 → Fq) :
    ∃ y inst, sageScript.permOriginal x = .ok y ∧ sageScript.perm x = .ok y ∧
      Instance.nTo1FixedHash ⟨rate2Params, s⟩ (Vector.ofFn x) = .ok (y 1, inst) ∧
      Instance.unoptimizedNTo1FixedHash ⟨rate2Params, s⟩ (Vector.ofFn x) = .ok (y 1, inst) ∧
      inst.outputWords = Vector.ofFn y := by
  have h1 := nTo1_perm377 1 s x
  have h0 := sageScript_perm377 x
  obtain ⟨y, h2, h3⟩ := C02_unoptimized 1 s x
  rw [spec377_eq] at h2
  obtain rfl := Option.some.inj h2
  exact ⟨_, _, h0, (C65_optimized _ sageScript_valid x).trans h0, h1, h3, rfl⟩

/-- **C65.** `hash_2` is word 1 of the script's permutation of domain separator and values. -/
theorem C65_hash_2 (ds : Fq) (v : Fq × Fq) :
    ∃ y, sageScript.perm ![ds, v.1, v.2] = .ok y ∧ hash2 ds v = .ok (y 1) := by
  obtain ⟨y, h1, h2⟩ := C02_hash_2 ds v
  rw [spec377_eq] at h1
  obtain rfl := Option.some.inj h1
  exact ⟨_, (C65_optimized _ sageScript_valid _).trans (sageScript_perm377 _), h2⟩

/-- **C65, derived tables.** The script derives the matrices and constants that are shipped: `M_i` (transposed, as the script
multiplies from the left), `v_collection`, `w_hat_collection` and the equivalent constants. -/
theorem C65_matrices : ∃ m, sageScript.calcEquivalentMatrices = .ok m ∧
    m.mIᵀ = rate2Params.optimizedMds.mI.toM rfl ∧
    m.vCollection = rate2Params.optimizedMds.vCollection.toList.map (fun v i => v.elements[i]) ∧
    m.wHatCollection = rate2Params.optimizedMds.wHatCollection.toList.map (fun w i => w.elements[i]) := by
  obtain ⟨m, h1, h2, h3, h4⟩ := sage_matrices_eq sageScript sageScript_valid
  have d : DerivedMds (k := 2) rate2Params rfl rfl := (shippedAll 1).1
  have hH : rate2Params.optimizedMds.mHat.toM rfl = hatM sageScript.mds := by
    rw [C65_mds]
    ext a b; exact d.mHat a b
  have hw : (fun i => rate2Params.optimizedMds.w.elements[i] : Fin 2 → Fq) = colM sageScript.mds := by
    rw [C65_mds]
    funext i; exact d.w i
  have hv : (fun i => rate2Params.optimizedMds.v.elements[i] : Fin 2 → Fq) = rowM sageScript.mds := by
    rw [C65_mds]
    funext i; exact d.v i
  have hu : IsUnit (hatM sageScript.mds).det := isUnit_iff_ne_zero.2 sageScript_valid.detHat
  refine ⟨m, h1, ?_, ?_, ?_⟩
  · have := d.mI
    rw [hH] at this
    rw [h2, diag1_transpose, Matrix.transpose_pow, Matrix.transpose_transpose]
    exact this.symm
  · rw [h3]
    apply List.ext_getElem
    · simp; rfl
    · intro j hj1 hj2
      have hj : j < 31 := by simpa using hj2
      have := d.vCollection j hj
      rw [hH, hw] at this
      simp only [List.getElem_map, List.getElem_range, Vector.getElem_toList]
      exact this.symm
  · rw [h4]
    apply List.ext_getElem
    · simp; rfl
    · intro j hj1 hj2
      have hj : j < 31 := by simpa using hj2
      have := d.wHatCollection j hj
      rw [hH, hv] at this
      simp only [List.getElem_map, List.getElem_range, Vector.getElem_toList]
      rw [← this, ← Matrix.mulVec_transpose, Matrix.transpose_pow, Matrix.mulVec_mulVec, Matrix.nonsing_inv_mul,
        Matrix.one_mulVec]
      rw [Matrix.det_pow, Matrix.det_transpose]
      exact hu.pow _

/-- **C65, derived tables.** -/
theorem C65_equivalent_constants : ∃ T, sageScript.calcEquivalentConstants sageScript.roundConstants = .ok T ∧
    T = (List.finRange 39).map fun r j => rate2Params.optimizedArc.toM rfl r j := by
  obtain ⟨T, h1, h2, h3⟩ := sage_constants_eq sageScript sageScript_valid
  refine ⟨T, h1, ?_⟩
  have hdet : (rate2Params.mds.toM (rfl : 9 = 3 * 3)).det ≠ 0 := shipped_det 1
  have s2 : DerivedArc (k := 2) rate2Params rfl rfl := (shippedAll 1).2.1
  obtain ⟨oarc, h4, h5⟩ := arcGenerateOptimized_eq (k := 2) false rfl rfl (by norm_num) rate2Params.arc rate2Params.mds ⟨31, 8⟩
    hdet 34 (by decide) (by norm_num) (by norm_num)
  have d2 := genParams_derivedArc (k := 2) (rows := 39) false rfl rfl 128 (.exponent 17) ⟨31, 8⟩ rate2Params.mds rate2Params.arc
    oarc rate2Params.optimizedMds (by omega) hdet (by norm_num) (by norm_num) (by decide) h4
  have e2 : oarc = rate2Params.optimizedArc := d2.unique s2 rfl rfl rfl
    ((Matrix.isUnit_iff_isUnit_det _).2 (isUnit_iff_ne_zero.2 hdet)) (by simp [genParams]) (by simp [genParams])
  rw [e2] at h5
  have hrows : ∀ r, listRow (sageRows 2 sageScript.roundConstants) r = rowFn (k := 2) rfl rate2Params.arc r := by
    intro r
    by_cases hr : r < 39
    · rw [rowFn, dif_pos hr]
      funext j
      rw [listRow_sageRows _ (by rw [sageScript_valid.rows]; exact hr), List.getD_eq_getElem?_getD]
      have := C65_constants ⟨r, hr⟩ j
      rw [show r * (2 + 1) + j.val = r * 3 + j.val from rfl, this]
      rfl
    · rw [rowFn, dif_neg hr, listRow, List.getD_eq_getElem?_getD, List.getElem?_eq_none, Option.getD_none]
      rw [sageRows_length, sageScript_valid.rows]
      exact Nat.le_of_not_lt hr
  apply List.ext_getElem
  · rw [h2]; simp; rfl
  · intro r hr1 hr2
    have hr : r < 39 := by simpa using hr2
    have h6 := h3 r
    rw [funext hrows] at h6
    have h7 := h5 r hr
    rw [C65_mds] at h6
    have h8 : listRow T r = T[r] := by
      rw [listRow, List.getD_eq_getElem?_getD, List.getElem?_eq_getElem hr1]; rfl
    rw [← h8, h6]
    simp only [List.getElem_map, List.getElem_finRange]
    rw [rowFn, dif_pos hr] at h7
    exact h7.symm

end Poseidon
