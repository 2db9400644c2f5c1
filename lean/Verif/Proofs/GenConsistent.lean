import Verif.Proofs.GenArc

/-! # Generated parameter sets have correct derived tables -/

set_option linter.unusedSectionVars false

namespace Poseidon

open scoped Matrix

variable {F : Type} [Field F] [DecidableEq F] {k rows nmds nhat nround : Nat}

/-- The parameter set assembled from generated tables. -/
def genParams (security : Nat) (alpha : Alpha) (rounds : RoundNumbers) (mds : Mat F (k + 1) (k + 1) nmds)
    (arc oarc : Mat F rows (k + 1) nround) (o : OptimizedMds F rounds.rP (k + 1) k nmds nhat) :
    Params F (k + 1) k nmds nhat rows (k + 1) nround rounds.rP :=
  { security, alpha, rounds, mds, arc, optimizedArc := oarc, optimizedMds := o }

theorem genParams_derivedMds (debug : Bool) (hh : nhat = k * k) (hm : nmds = (k + 1) * (k + 1))
    (security : Nat) (alpha : Alpha) (rounds : RoundNumbers) (mds : Mat F (k + 1) (k + 1) nmds)
    (arc oarc : Mat F rows (k + 1) nround) (o : OptimizedMds F rounds.rP (k + 1) k nmds nhat)
    (ho : mdsGenerateOptimized debug nhat mds rounds = .ok o) :
    DerivedMds (genParams security alpha rounds mds arc oarc o) hm hh := by
  rw [mdsGenerateOptimized_ok_iff debug hh hm] at ho
  obtain ⟨hk, h8, hrp, hdet, hdetA, -, rfl⟩ := ho
  set A := mds.toM hm with hA
  have hu : IsUnit (hatM A).det := isUnit_iff_ne_zero.2 hdet
  have huA : IsUnit A.det := isUnit_iff_ne_zero.2 hdetA
  have hHat : (Mat.ofM hh (hatM A) : Mat F k k nhat).toM hh = hatM A := Mat.toM_ofM _ _
  refine
    { mHat := ?_, v := ?_, w := ?_, m00 := ?_, mPrime := ?_, mDoublePrime := ?_, factor := ?_, mInverse := ?_,
      mHatInverse := ?_, vCollection := ?_, wHatCollection := ?_, mI := ?_ }
  · intro i j
    exact congrFun (congrFun hHat i) j
  · intro j
    simp [genParams, optMds, Mat.ofM, rowM, Nat.mod_eq_of_lt j.isLt, hA]
    rfl
  · intro i
    simp [genParams, optMds, Mat.ofM, colM, hA]
  · rfl
  · show (Mat.ofM hm (diag1 (hatM A)) : Mat F _ _ nmds).toM hm = diag1 ((Mat.ofM hh (hatM A) : Mat F k k nhat).toM hh)
    rw [Mat.toM_ofM, Mat.toM_ofM]
  · refine ⟨wHatM A, ?_⟩
    show (Mat.ofM hm (sparseM (A 0 0) (wHatM A) (rowM A)) : Mat F _ _ nmds).toM hm = _
    rw [Mat.toM_ofM]
    show sparseM (A 0 0) (wHatM A) (rowM A) = sparseM (A 0 0) _ _
    congr 1
    funext j
    simp [genParams, optMds, Mat.ofM, Nat.mod_eq_of_lt j.isLt]
  · show (Mat.ofM hm (diag1 (hatM A)) : Mat F _ _ nmds).toM hm *
      (Mat.ofM hm (sparseM (A 0 0) (wHatM A) (rowM A)) : Mat F _ _ nmds).toM hm = A
    rw [Mat.toM_ofM, Mat.toM_ofM, prime_mul_doublePrime A hdet]
  · show A * (Mat.ofM hm A⁻¹ : Mat F _ _ nmds).toM hm = 1
    rw [Mat.toM_ofM, Matrix.mul_nonsing_inv _ huA]
  · show (Mat.ofM hh (hatM A) : Mat F k k nhat).toM hh * (Mat.ofM hh (hatM A)⁻¹ : Mat F k k nhat).toM hh = 1
    rw [Mat.toM_ofM, Mat.toM_ofM, Matrix.mul_nonsing_inv _ hu]
  · intro j hj
    have hw : (fun i : Fin k => (genParams security alpha rounds mds arc oarc
        (optMds hh hm A rounds.rP)).optimizedMds.w.elements[i]) = colM A := by
      funext i; simp [genParams, optMds, Mat.ofM]
    rw [hw]
    show _ = ((Mat.ofM hh (hatM A) : Mat F k k nhat).toM hh ^ j) *ᵥ colM A
    rw [hHat]
    funext i
    simp [genParams, optMds, vColl, Mat.ofM, Nat.mod_eq_of_lt i.isLt]
  · intro j hj
    have hv : (fun i : Fin k => (genParams security alpha rounds mds arc oarc
        (optMds hh hm A rounds.rP)).optimizedMds.v.elements[i]) = rowM A := by
      funext i; simp [genParams, optMds, Mat.ofM, Nat.mod_eq_of_lt i.isLt]
    have hw : (fun i : Fin k => (genParams security alpha rounds mds arc oarc
        (optMds hh hm A rounds.rP)).optimizedMds.wHatCollection[j].elements[i]) =
        ((hatM A)ᵀ ^ (j + 1))⁻¹ *ᵥ rowM A := by
      funext i; simp [genParams, optMds, wColl, Mat.ofM]
    rw [hv, hw]
    show _ ᵥ* (Mat.ofM hh (hatM A) : Mat F k k nhat).toM hh ^ (j + 1) = rowM A
    rw [hHat, ← Matrix.mulVec_transpose, Matrix.transpose_pow, Matrix.mulVec_mulVec,
      Matrix.mul_nonsing_inv, Matrix.one_mulVec]
    rw [Matrix.det_pow, Matrix.det_transpose]
    exact hu.pow _
  · show (Mat.ofM hm (diag1 (hatM A ^ rounds.rP)) : Mat F _ _ nmds).toM hm =
      diag1 ((Mat.ofM hh (hatM A) : Mat F k k nhat).toM hh ^ rounds.rP)
    rw [Mat.toM_ofM, hHat]

theorem tail0_mulVec (A : Matrix (Fin (k + 1)) (Fin (k + 1)) F) (hu : IsUnit A.det) (c d : Fin (k + 1) → F) :
    A *ᵥ (c + tail0 (A⁻¹ *ᵥ d) - c + Pi.single 0 ((A⁻¹ *ᵥ d) 0)) = d := by
  have : c + tail0 (A⁻¹ *ᵥ d) - c + Pi.single 0 ((A⁻¹ *ᵥ d) 0) = A⁻¹ *ᵥ d := by
    funext j
    by_cases hj : j = 0
    · subst hj; simp [tail0]
    · simp [tail0, hj]
  rw [this, Matrix.mulVec_mulVec, Matrix.mul_nonsing_inv _ hu, Matrix.one_mulVec]

theorem genParams_derivedArc (debug : Bool) (hm : nmds = (k + 1) * (k + 1)) (ha : nround = rows * (k + 1))
    (security : Nat) (alpha : Alpha) (rounds : RoundNumbers) (mds : Mat F (k + 1) (k + 1) nmds)
    (arc oarc : Mat F rows (k + 1) nround) (o : OptimizedMds F rounds.rP (k + 1) k nmds nhat)
    (h8 : k + 1 ≤ 8) (hdet : (mds.toM hm).det ≠ 0) (heven : rounds.rF % 2 = 0) (hrp : 1 ≤ rounds.rP)
    (hrows : rounds.total ≤ rows) (ho : arcGenerateOptimized debug arc mds rounds = .ok oarc) :
    DerivedArc (genParams security alpha rounds mds arc oarc o) hm ha := by
  set A := mds.toM hm with hA
  have hu : IsUnit A.det := isUnit_iff_ne_zero.2 hdet
  set f := rounds.rF / 2 with hf
  have htot : rounds.total = rounds.rP + rounds.rF := rfl
  obtain ⟨T, hT, hrow⟩ := arcGenerateOptimized_eq debug hm ha h8 arc mds rounds hdet (f + rounds.rP - 1)
    (by omega) (by omega) (by omega)
  obtain rfl : T = oarc := Except.ok.inj (hT.symm.trans ho)
  rw [show f + rounds.rP - 1 - rounds.rF / 2 = rounds.rP - 1 by omega] at hrow
  set last := f + rounds.rP - 1 with hlast
  have hrow' : ∀ r < rows, rowFn ha T r = optArc A (rowFn ha arc) last (rounds.rP - 1) r := hrow
  refine { full_pre := ?_, full_post := ?_, partial_zero := ?_, moved := ?_ }
  · intro r hr
    show rowFn ha T r = rowFn ha arc r
    have hr' : r < f := hr
    rw [hrow' r (by omega), optArc, if_neg (by omega), if_neg (by omega)]
  · intro r hr1 hr2
    show rowFn ha T r = rowFn ha arc r
    have hr1' : f + rounds.rP ≤ r := hr1
    have hr2' : r < f + rounds.rP + f := hr2
    rw [hrow' r (by omega), optArc, if_neg (by omega), if_neg (by omega)]
  · intro r hr1 hr2 i
    have hr1' : f < r := hr1
    have hr2' : r < f + rounds.rP := hr2
    show rowFn ha T r i.succ = 0
    rw [hrow' r (by omega), optArc, if_pos (by omega)]
    simp
  · refine ⟨fun r => moved A (rowFn ha arc) last (rounds.rP - 1 - r), ?_, ?_, ?_⟩
    · show moved A (rowFn ha arc) last (rounds.rP - 1) = rowFn ha T f
      rw [hrow' f (by omega), optArc, if_neg (by omega), if_pos (by omega)]
    · show moved A (rowFn ha arc) last (rounds.rP - 1 - (rounds.rP - 1)) = rowFn ha arc (f + (rounds.rP - 1))
      rw [Nat.sub_self, moved, show last = f + (rounds.rP - 1) by omega]
    · intro r hr
      have hr' : r < rounds.rP - 1 := hr
      have e : rounds.rP - 1 - r = rounds.rP - 1 - (r + 1) + 1 := by omega
      have e2 : last - (rounds.rP - 1 - (r + 1) + 1) = f + r := by omega
      constructor
      · show moved A (rowFn ha arc) last (rounds.rP - 1 - r) 0 = rowFn ha arc (f + r) 0
        rw [e, moved, e2]
        simp [tail0]
      · show A *ᵥ (moved A (rowFn ha arc) last (rounds.rP - 1 - r) - rowFn ha arc (f + r) +
          Pi.single 0 (rowFn ha T (f + r + 1) 0)) = moved A (rowFn ha arc) last (rounds.rP - 1 - (r + 1))
        rw [hrow' (f + r + 1) (by omega), optArc, if_pos (by omega), Pi.single_eq_same,
          show last - (f + r + 1) = rounds.rP - 1 - (r + 1) by omega, e, moved, e2]
        exact tail0_mulVec A hu _ _

end Poseidon
