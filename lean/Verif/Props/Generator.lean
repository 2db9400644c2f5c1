import Verif.Proofs.GenConsistent
import Verif.Proofs.GenCauchy
import Verif.Proofs.GenCounts
import Verif.Proofs.Hash
import Mathlib.Algebra.Field.ZMod

/-!
# Properties of the generated matrices and constants (C01, C35, C36, C46)
-/

set_option linter.unusedSectionVars false

namespace Poseidon

open scoped Matrix

variable {F : Type} [Field F] [DecidableEq F] {k rows nmds nhat nround npart : Nat}

/-! ## C01: optimized and unoptimized hashing agree -/

/-- Both hash functions agree as soon as both permutations do. -/
theorem hash_agree (p : Params F (k + 1) k nmds nhat rows (k + 1) nround npart) (s input : Vector F (k + 1))
    (h : permute p input = unoptimizedPermute p input) :
    Instance.nTo1FixedHash ⟨p, s⟩ input = Instance.unoptimizedNTo1FixedHash ⟨p, s⟩ input := by
  rw [Instance.nTo1FixedHash, Instance.unoptimizedNTo1FixedHash, setState_eq, ok_bind, ok_bind]
  dsimp only
  rw [h]

theorem permute_agree (p : Params F (k + 1) k nmds nhat rows (k + 1) nround npart)
    (hm : nmds = (k + 1) * (k + 1)) (ha : nround = rows * (k + 1)) (hc : Consistent p hm ha)
    (input : Vector F (k + 1)) : permute p input = unoptimizedPermute p input := by
  obtain ⟨x, rfl⟩ : ∃ x, Vector.ofFn x = input := ⟨_, ofFn_get input⟩
  rw [permute_eq p hm ha hc, unoptimizedPermute_eq p (by omega) hm ha hc.rows_le]

/-- C01: for every field, width, S-box kind, MDS matrix and table of round constants for which the
generator produces optimized matrices and constants, and an even number of full rounds, the two hash
functions return the same digest and leave the same instance, or fail with the same panic. -/
theorem C01_generated (debug : Bool) (hh : nhat = k * k) (hm : nmds = (k + 1) * (k + 1))
    (ha : nround = rows * (k + 1)) (security : Nat) (alpha : Alpha) (rounds : RoundNumbers)
    (mds : Mat F (k + 1) (k + 1) nmds) (arc oarc : Mat F rows (k + 1) nround)
    (o : OptimizedMds F rounds.rP (k + 1) k nmds nhat)
    (heven : rounds.rF % 2 = 0) (hrows : rounds.total ≤ rows)
    (ho : mdsGenerateOptimized debug nhat mds rounds = .ok o)
    (hoa : arcGenerateOptimized debug arc mds rounds = .ok oarc)
    (inst : Instance F (k + 1) k nmds nhat rows (k + 1) nround rounds.rP)
    (hinst : inst.parameters = { security, alpha, rounds, mds, arc, optimizedArc := oarc, optimizedMds := o })
    (input : Vector F (k + 1)) :
    inst.nTo1FixedHash input = inst.unoptimizedNTo1FixedHash input := by
  obtain ⟨p, s⟩ := inst
  dsimp only at hinst
  have h := (mdsGenerateOptimized_ok_iff debug hh hm mds rounds o).1 ho
  obtain ⟨hk, h8, hrp, hdet, hdetA, -, -⟩ := h
  have htot : rounds.total = rounds.rP + rounds.rF := rfl
  apply hash_agree
  subst hinst
  apply permute_agree _ hm ha
  exact Consistent.of_derived (p := genParams security alpha rounds mds arc oarc o)
    (genParams_derivedMds debug hh hm security alpha rounds mds arc oarc o ho)
    (genParams_derivedArc debug hm ha security alpha rounds mds arc oarc o h8 hdetA heven hrp hrows hoa)
    (by show rounds.rF / 2 + rounds.rP + rounds.rF / 2 ≤ rows; omega) hrp le_rfl

/-- C01, for widths the generator's matrix library cannot handle (`t > 8`) too: any parameter set whose
optimized tables satisfy the algebraic relations of the specification (`DerivedMds`, `DerivedArc`). -/
theorem C01_derived (p : Params F (k + 1) k nmds nhat rows (k + 1) nround npart)
    (hm : nmds = (k + 1) * (k + 1)) (hh : nhat = k * k) (ha : nround = rows * (k + 1))
    (h1 : DerivedMds p hm hh) (h2 : DerivedArc p hm ha)
    (hrows : p.rounds.rF / 2 + p.rounds.rP + p.rounds.rF / 2 ≤ rows)
    (hrp : 1 ≤ p.rounds.rP) (hnp : p.rounds.rP ≤ npart) (s input : Vector F (k + 1)) :
    Instance.nTo1FixedHash ⟨p, s⟩ input = Instance.unoptimizedNTo1FixedHash ⟨p, s⟩ input :=
  hash_agree p s input (permute_agree p hm ha (Consistent.of_derived h1 h2 hrows hrp hnp) input)

/-- The generators do produce tables: `C01_generated` applies to every invertible MDS matrix with
invertible `M_hat` that passes the generator's own count checks, every width 2 to 8, every table of
constants. -/
theorem C01_applies (debug : Bool) (hh : nhat = k * k) (hm : nmds = (k + 1) * (k + 1))
    (ha : nround = rows * (k + 1)) (hk : 1 ≤ k) (h8 : k + 1 ≤ 8) (rounds : RoundNumbers)
    (mds : Mat F (k + 1) (k + 1) nmds) (arc : Mat F rows (k + 1) nround)
    (hrows : rounds.total ≤ rows) (hrp : 1 ≤ rounds.rP)
    (hdet : (mds.toM hm).det ≠ 0) (hhat : ((mds.toM hm).submatrix Fin.succ Fin.succ).det ≠ 0)
    (hcounts : ∀ x : F, x = 0 ∨ x = 1 → mds.toM hm 0 0 ≠ x ∧ (∀ j : Fin k, mds.toM hm 0 j.succ ≠ x) ∧
      ∀ i, ((mds.toM hm).submatrix Fin.succ Fin.succ)⁻¹.mulVec (fun i => mds.toM hm i.succ 0) i ≠ x) :
    (∃ o, mdsGenerateOptimized debug nhat mds rounds = .ok o) ∧
      ∃ oarc, arcGenerateOptimized debug arc mds rounds = .ok oarc := by
  refine ⟨⟨_, (mdsGenerateOptimized_ok_iff debug hh hm mds rounds _).2 ⟨hk, h8, hrp, hhat, hdet, hcounts, rfl⟩⟩, ?_⟩
  have htot : rounds.total = rounds.rP + rounds.rF := rfl
  obtain ⟨T, hT, -⟩ := arcGenerateOptimized_eq debug hm ha h8 arc mds rounds hdet
    (rounds.total - 1 - rounds.rF / 2) (by omega) (by omega) (by omega)
  exact ⟨T, hT⟩

/-! ## C36: the optimized matrices -/

/-- C36: what `generate_optimized` returns. -/
theorem C36_factors (debug : Bool) (hh : nhat = k * k) (hm : nmds = (k + 1) * (k + 1))
    (mds : Mat F (k + 1) (k + 1) nmds) (rounds : RoundNumbers) (o : OptimizedMds F rounds.rP (k + 1) k nmds nhat)
    (ho : mdsGenerateOptimized debug nhat mds rounds = .ok o) :
    -- blocks
    o.mHat.toM hh = (mds.toM hm).submatrix Fin.succ Fin.succ ∧
    (∀ j : Fin k, o.v.elements[j] = mds.toM hm 0 j.succ) ∧
    (∀ i : Fin k, o.w.elements[i] = mds.toM hm i.succ 0) ∧
    o.m00 = mds.toM hm 0 0 ∧
    -- M = M' M''
    o.mPrime.toM hm = diag1 (o.mHat.toM hh) ∧
    o.mPrime.toM hm * o.mDoublePrime.toM hm = mds.toM hm ∧
    -- two-sided inverses
    (mds.toM hm * o.mInverse.toM hm = 1 ∧ o.mInverse.toM hm * mds.toM hm = 1) ∧
    (o.mHat.toM hh * o.mHatInverse.toM hh = 1 ∧ o.mHatInverse.toM hh * o.mHat.toM hh = 1) ∧
    -- sparse factors of the partial rounds
    (∀ (j : Nat) (hj : j < rounds.rP), diag1 (o.mHat.toM hh ^ j) * mds.toM hm =
      sparseM o.m00 (fun i => o.vCollection[j].elements[i]) (fun i => o.wHatCollection[j].elements[i]) *
        diag1 (o.mHat.toM hh ^ (j + 1))) ∧
    o.mI.toM hm = diag1 (o.mHat.toM hh ^ rounds.rP) := by
  have h := genParams_derivedMds debug hh hm 0 .inverse rounds mds (⟨#v[]⟩ : Mat F 0 (k + 1) 0) ⟨#v[]⟩ o ho
  have hHat : o.mHat.toM hh = (mds.toM hm).submatrix Fin.succ Fin.succ := by ext i j; exact h.mHat i j
  refine ⟨hHat, h.v, h.w, h.m00, h.mPrime, h.factor, ⟨h.mInverse, mul_eq_one_comm.1 h.mInverse⟩,
    ⟨h.mHatInverse, mul_eq_one_comm.1 h.mHatInverse⟩, ?_, h.mI⟩
  intro j hj
  rw [pow_succ, show o.m00 = _ from h.m00]
  apply diag1_mul_mds (o.mHat.toM hh ^ j) (o.mHat.toM hh) (mds.toM hm) (fun i j => h.mHat i j)
  · rw [show (fun i : Fin k => o.vCollection[j].elements[i]) = _ from h.vCollection j hj]
    show (o.mHat.toM hh ^ j).mulVec (fun i => o.w.elements[i]) = _
    congr 1
    funext i
    exact h.w i
  · rw [← pow_succ]
    refine (h.wHatCollection j hj).trans ?_
    funext i; exact h.v i

/-- C36: exactly when `generate_optimized` does not panic.  Besides invertibility of the matrix and of
`M_hat` and a width of 2 to 8 it needs at least one partial round, and that none of `M_00`, the entries
of `v` and the entries of `M_hat⁻¹ w` is 0 or 1 (the generator counts zeros and ones of `M''`). -/
theorem C36_succeeds_iff (debug : Bool) (hh : nhat = k * k) (hm : nmds = (k + 1) * (k + 1))
    (mds : Mat F (k + 1) (k + 1) nmds) (rounds : RoundNumbers) :
    (∃ o, mdsGenerateOptimized debug nhat mds rounds = .ok o) ↔
      2 ≤ k + 1 ∧ k + 1 ≤ 8 ∧ 1 ≤ rounds.rP ∧
      ((mds.toM hm).submatrix Fin.succ Fin.succ).det ≠ 0 ∧ (mds.toM hm).det ≠ 0 ∧
      ∀ x : F, x = 0 ∨ x = 1 → mds.toM hm 0 0 ≠ x ∧ (∀ j : Fin k, mds.toM hm 0 j.succ ≠ x) ∧
        ∀ i, ((mds.toM hm).submatrix Fin.succ Fin.succ)⁻¹.mulVec (fun i => mds.toM hm i.succ 0) i ≠ x := by
  constructor
  · rintro ⟨o, ho⟩
    obtain ⟨h1, h2, h3, h4, h5, h6, -⟩ := (mdsGenerateOptimized_ok_iff debug hh hm mds rounds o).1 ho
    exact ⟨by omega, h2, h3, h4, h5, h6⟩
  · rintro ⟨h1, h2, h3, h4, h5, h6⟩
    exact ⟨_, (mdsGenerateOptimized_ok_iff debug hh hm mds rounds _).2 ⟨by omega, h2, h3, h4, h5, h6, rfl⟩⟩

/-! ## C35: the Cauchy construction -/

/-- C35: over every field of characteristic `p` of at least 128 bits, `v1_generate` returns the matrix
`1/(i + j + t)` for every width from 1 to 8, and all square submatrices of it are invertible; wider
matrices are refused by the determinant check (`unimplemented!`).  No width makes the construction
divide by zero or fail its assertions. -/
theorem C35_cauchy (input : GenInput) [CharP F input.p] (nmds : Nat) (hm : nmds = input.t * input.t)
    (hb : 128 ≤ numBits input.p) (ht : input.t < 2 ^ 64) (h1 : 1 ≤ input.t) :
    (input.t ≤ 8 → ∃ m, mdsGenerate F nmds input = .ok m ∧
      (∀ i j, m.toM hm i j = 1 / ((i.val + j.val + input.t : Nat) : F)) ∧ IsMDS (m.toM hm)) ∧
    (8 < input.t → mdsGenerate F nmds input = .error .unimplemented ∧ IsMDS (cauchyMds F input.t)) := by
  have hp := numBits_ge hb
  have h3 : 3 * input.t ≤ input.p + 1 := by omega
  rw [mdsGenerate, if_neg (by omega), fixedCauchyMatrix_eq input nmds hm h3 hb]
  constructor
  · intro h8
    rw [if_pos ⟨h1, h8⟩]
    refine ⟨_, rfl, ?_, ?_⟩
    · intro i j; rw [Mat.toM_ofM, cauchyMds, Matrix.of_apply, one_div]
    · rw [Mat.toM_ofM]; exact cauchyMds_isMDS _ input.p h3
  · intro h8
    rw [if_neg (by omega), if_neg (by omega)]
    exact ⟨rfl, cauchyMds_isMDS _ input.p h3⟩

/-- C35: smaller fields and too wide matrices are refused. -/
theorem C35_refused (input : GenInput) (nmds : Nat) (h : input.p < 2 * input.t ∨ input.p < 2 ^ 127) :
    mdsGenerate F nmds input = .error .explicit := by
  rw [mdsGenerate]
  split
  · rfl
  · next h2 =>
    rw [fixedCauchyMatrix, if_pos]
    by_contra hb
    have := numBits_ge (Nat.le_of_not_lt hb)
    omega

/-- C36: the generator never rejects its own Cauchy matrices: over every field of characteristic `p` of at
least 128 bits, for every width from 2 to 8, every number of partial rounds but zero and every table of
round constants, `generate_optimized` of both the matrix and the constants succeeds on the matrix
`1/(i + j + t)`. -/
theorem C36_cauchy (debug : Bool) {p : Nat} [CharP F p] (hp : 128 ≤ numBits p) (hk : 2 ≤ k + 1) (h8 : k + 1 ≤ 8)
    (hh : nhat = k * k) (hm : nmds = (k + 1) * (k + 1)) (ha : nround = rows * (k + 1))
    (mds : Mat F (k + 1) (k + 1) nmds)
    (hmds : ∀ i j, mds.toM hm i j = 1 / ((i.val + j.val + (k + 1) : Nat) : F))
    (rounds : RoundNumbers) (hrp : 1 ≤ rounds.rP) (hrows : rounds.total ≤ rows) (arc : Mat F rows (k + 1) nround) :
    (∃ o, mdsGenerateOptimized debug nhat mds rounds = .ok o) ∧
      ∃ oarc, arcGenerateOptimized debug arc mds rounds = .ok oarc := by
  have hp' := numBits_ge hp
  have hM : mds.toM hm = cauchyMds F (k + 1) := by
    ext i j; rw [hmds, cauchyMds, Matrix.of_apply, one_div]
  apply C01_applies debug hh hm ha (by omega) h8 rounds mds arc hrows hrp
  · rw [hM]; exact cauchy_det (p := p) (by omega)
  · rw [hM]; exact cauchy_hat_det (p := p) (by omega)
  · rw [hM]; exact cauchy_countsOk (p := p) hp' (by omega) (by omega)

/-! ## C46: degenerate round numbers -/

/-- C46: with no partial rounds the optimized permutation panics on every state, whatever the tables. -/
theorem C46_no_partial (p : Params F (k + 1) k nmds nhat rows (k + 1) nround npart) (h : p.rounds.rP = 0)
    (s : Vector F (k + 1)) : ∃ e, permute p s = .error e := by
  rw [permute]
  dsimp only
  generalize forRange 0 (p.rounds.full / 2) s _ = x
  cases x with
  | error e => exact ⟨e, rfl⟩
  | ok s =>
    rw [ok_bind]
    generalize addRow p.optimizedArc _ s = x
    cases x with
    | error e => exact ⟨e, rfl⟩
    | ok s =>
      rw [ok_bind]
      generalize mixLayer p.optimizedMds.mI s = x
      cases x with
      | error e => exact ⟨e, rfl⟩
      | ok s =>
        rw [ok_bind, usub, if_neg (by simp [RoundNumbers.partialRounds, h])]
        exact ⟨_, rfl⟩

/-- C46: the unoptimized permutation with no partial rounds and a power S-box does not. -/
theorem C46_no_partial_unoptimized (p : Params F (k + 1) k nmds nhat rows (k + 1) nround npart)
    (hm : nmds = (k + 1) * (k + 1)) (ha : nround = rows * (k + 1)) (h : p.rounds.rP = 0)
    (hrows : p.rounds.rF / 2 + p.rounds.rF / 2 ≤ rows) (e : Nat) (hα : p.alpha = .exponent e)
    (s : Vector F (k + 1)) : ∃ s', unoptimizedPermute p s = .ok s' := by
  obtain ⟨x, rfl⟩ : ∃ x, Vector.ofFn x = s := ⟨_, ofFn_get s⟩
  rw [unoptimizedPermute_eq p (by omega) hm ha (by omega), hα, textbook_exponent]
  exact ⟨_, rfl⟩

/-! ### A concrete instance over `ZMod 7` -/

instance fact7 : Fact (Nat.Prime 7) := ⟨by decide⟩

/-- An MDS matrix the generator accepts. -/
def demoMds : Mat (ZMod 7) 2 2 4 := ⟨#v[2, 3, 2, 4]⟩

/-- Round constants for at most five rounds. -/
def demoArc : Mat (ZMod 7) 5 2 10 := ⟨#v[1, 2, 3, 4, 5, 6, 1, 3, 2, 5]⟩

/-- Run the generator and both permutations, and compare the results. -/
def demoCompare (alpha : Alpha) (rounds : RoundNumbers) (input : Vector (ZMod 7) 2) : R Bool := do
  let o ← mdsGenerateOptimized true 1 demoMds rounds
  let oarc ← arcGenerateOptimized true demoArc demoMds rounds
  let p : Params (ZMod 7) 2 1 4 1 5 2 10 rounds.rP :=
    { security := 0, alpha, rounds, mds := demoMds, arc := demoArc, optimizedArc := oarc, optimizedMds := o }
  let a ← permute p input
  let b ← unoptimizedPermute p input
  return decide (a = b)

/-- Non-vacuity of `C01_generated` and `C36_factors`: the generator succeeds on a concrete matrix. -/
example : demoCompare (.exponent 5) ⟨3, 2⟩ #v[4, 6] = .ok true := by decide +kernel

/-- Non-vacuity with the inverse S-box; some inputs make both panic. -/
example : demoCompare .inverse ⟨3, 2⟩ #v[4, 6] = .ok true := by decide +kernel
example : demoCompare .inverse ⟨3, 2⟩ #v[6, 5] = .error .divZero := by decide +kernel

/-- `C36_succeeds_iff` is not about an empty set, and the count checks do reject an invertible matrix with
invertible `M_hat`. -/
example : (mdsGenerateOptimized true 1 demoMds ⟨3, 2⟩).isOk = true := by decide +kernel
example : mdsGenerateOptimized true 1 (⟨#v[1, 3, 2, 4]⟩ : Mat (ZMod 7) 2 2 4) ⟨3, 2⟩ matches .error .assertFailed := by
  decide +kernel

/-- C46: an odd number of full rounds breaks the equivalence: the generator succeeds, both permutations
succeed, and their results differ. -/
theorem C46_odd_counterexample :
    ∃ (rounds : RoundNumbers) (o : OptimizedMds (ZMod 7) rounds.rP 2 1 4 1) (oarc : Mat (ZMod 7) 5 2 10)
      (x y z : Vector (ZMod 7) 2),
      rounds.rF % 2 = 1 ∧ 1 ≤ rounds.rP ∧ rounds.total = 5 ∧
      mdsGenerateOptimized true 1 demoMds rounds = .ok o ∧
      arcGenerateOptimized true demoArc demoMds rounds = .ok oarc ∧
      permute { security := 0, alpha := .exponent 5, rounds, mds := demoMds, arc := demoArc,
                optimizedArc := oarc, optimizedMds := o } x = .ok y ∧
      unoptimizedPermute { security := 0, alpha := .exponent 5, rounds, mds := demoMds, arc := demoArc,
                           optimizedArc := oarc, optimizedMds := o } x = .ok z ∧
      y ≠ z := by
  refine ⟨⟨2, 3⟩, ?_⟩
  have h : demoCompare (.exponent 5) ⟨2, 3⟩ #v[4, 6] = .ok false := by decide +kernel
  rw [demoCompare] at h
  cases h1 : mdsGenerateOptimized true 1 demoMds ⟨2, 3⟩ with
  | error e => rw [h1] at h; cases h
  | ok o =>
    rw [h1, ok_bind] at h
    cases h2 : arcGenerateOptimized true demoArc demoMds ⟨2, 3⟩ with
    | error e => rw [h2] at h; cases h
    | ok oarc =>
      rw [h2, ok_bind] at h
      dsimp only at h
      cases h3 : permute { security := 0, alpha := .exponent 5, rounds := ⟨2, 3⟩, mds := demoMds, arc := demoArc, optimizedArc := oarc, optimizedMds := o } #v[4, 6] with
      | error e => rw [h3] at h; cases h
      | ok y =>
        rw [h3, ok_bind] at h
        cases h4 : unoptimizedPermute { security := 0, alpha := .exponent 5, rounds := ⟨2, 3⟩, mds := demoMds, arc := demoArc, optimizedArc := oarc, optimizedMds := o } #v[4, 6] with
        | error e => rw [h4] at h; cases h
        | ok z =>
          rw [h4, ok_bind] at h
          refine ⟨o, oarc, #v[4, 6], y, z, rfl, by decide, rfl, rfl, rfl, h3, h4, ?_⟩
          exact of_decide_eq_false (Except.ok.inj h)

/-- C46: `generate_optimized` itself panics when there are no partial rounds. -/
theorem C46_generator_no_partial (debug : Bool) (hh : nhat = k * k) (hm : nmds = (k + 1) * (k + 1))
    (mds : Mat F (k + 1) (k + 1) nmds) (rounds : RoundNumbers) (h : rounds.rP = 0) :
    ∃ e, mdsGenerateOptimized debug nhat mds rounds = .error e := by
  cases hc : mdsGenerateOptimized debug nhat mds rounds with
  | error e => exact ⟨e, rfl⟩
  | ok o =>
    have := ((mdsGenerateOptimized_ok_iff debug hh hm mds rounds o).1 hc).2.2.1
    omega

/-- Non-vacuity of `C35_cauchy`: the modulus of decaf377's base field has 253 bits. -/
example : 128 ≤ numBits 8444461749428370424248824938781546531375899335154063827935233455917409239041 := by
  decide +kernel

end Poseidon
