import Verif.Proofs.StarkCheck
import Verif.Params.Stark
import Verif.Proofs.GrainTests

/-! # The five runs of `generate_mds.sage`, evaluated by the kernel -/

namespace Poseidon

/-- `"HadesMDS"`, the name of the matrices, generate_mds.sage:307 and 379 -/
def hadesMds : List Char := ['H', 'a', 'd', 'e', 's', 'M', 'D', 'S']

theorem stark2_0 : starkCauchyN Sha256.sha256 hadesMds 2 0 starkT2_0 = true := by decide +kernel
theorem stark2_0_noEigen : noEigenN 2 starkT2_0 starkB2 = true := by decide +kernel
theorem stark3_0 : starkCauchyN Sha256.sha256 hadesMds 3 0 starkT3_0 = true := by decide +kernel
theorem stark3_0_noEigen : noEigenN 3 starkT3_0 starkB3 = true := by decide +kernel
theorem stark4_0 : starkCauchyN Sha256.sha256 hadesMds 4 0 starkT4_0 = true := by decide +kernel
theorem stark4_0_eigen : eigenN 4 starkT4_0 starkC4_0 starkV4_0 starkO4_0 = true := by decide +kernel
theorem stark4_1 : starkCauchyN Sha256.sha256 hadesMds 4 1 starkT4_1 = true := by decide +kernel
theorem stark4_1_eigen : eigenN 4 starkT4_1 starkC4_1 starkV4_1 starkO4_1 = true := by decide +kernel
theorem stark4_2 : starkCauchyN Sha256.sha256 hadesMds 4 2 starkT4_2 = true := by decide +kernel
theorem stark4_2_noEigen : noEigenN 4 starkT4_2 starkB4 = true := by decide +kernel
theorem stark5_0 : starkCauchyN Sha256.sha256 hadesMds 5 0 starkT5_0 = true := by decide +kernel
theorem stark5_0_eigen : eigenN 5 starkT5_0 starkC5_0 starkV5_0 starkO5_0 = true := by decide +kernel
theorem stark5_1 : starkCauchyN Sha256.sha256 hadesMds 5 1 starkT5_1 = true := by decide +kernel
theorem stark5_1_noEigen : noEigenN 5 starkT5_1 starkB5 = true := by decide +kernel
theorem stark6_0 : starkCauchyN Sha256.sha256 hadesMds 6 0 starkT6_0 = true := by decide +kernel
theorem stark6_0_eigen : eigenN 6 starkT6_0 starkC6_0 starkV6_0 starkO6_0 = true := by decide +kernel
theorem stark6_1 : starkCauchyN Sha256.sha256 hadesMds 6 1 starkT6_1 = true := by decide +kernel
theorem stark6_1_noEigen : noEigenN 6 starkT6_1 starkB6 = true := by decide +kernel

/-- From the certificates to the run of the script -/
theorem generate_of_attempts {m k : Nat} (hk : k < 100) (hd : ∀ b ≤ k, StarkDistinct Fq Sha256.sha256 hadesMds m b)
    (he : ∀ b < k, HasEigenvector (starkMatrix Fq Sha256.sha256 hadesMds m b))
    (hn : ¬ HasEigenvector (starkMatrix Fq Sha256.sha256 hadesMds m k)) :
    Stark.generateMdsMatrix Fq Sha256.sha256 hadesMds m false = .ok (starkMatrix Fq Sha256.sha256 hadesMds m k) :=
  (attempts_ok_iff 100 0 _).2 ⟨k, hk, fun b hb => by rw [Nat.zero_add]; exact hd b hb, fun b hb => by rw [Nat.zero_add]; exact he b hb,
    by rw [Nat.zero_add]; exact hn, by rw [Nat.zero_add]⟩

theorem generate2 : Stark.generateMdsMatrix Fq Sha256.sha256 hadesMds 2 false = .ok (starkMatrix Fq Sha256.sha256 hadesMds 2 0) := by
  refine generate_of_attempts (by norm_num) (fun b hb => ?_) (fun b hb => by omega) ?_
  · obtain rfl : b = 0 := by omega
    exact (starkCauchyN_sound stark2_0).1
  · rw [(starkCauchyN_sound stark2_0).2]; exact noEigenN_sound stark2_0_noEigen

theorem generate3 : Stark.generateMdsMatrix Fq Sha256.sha256 hadesMds 3 false = .ok (starkMatrix Fq Sha256.sha256 hadesMds 3 0) := by
  refine generate_of_attempts (by norm_num) (fun b hb => ?_) (fun b hb => by omega) ?_
  · obtain rfl : b = 0 := by omega
    exact (starkCauchyN_sound stark3_0).1
  · rw [(starkCauchyN_sound stark3_0).2]; exact noEigenN_sound stark3_0_noEigen

theorem generate4 : Stark.generateMdsMatrix Fq Sha256.sha256 hadesMds 4 false = .ok (starkMatrix Fq Sha256.sha256 hadesMds 4 2) := by
  refine generate_of_attempts (by norm_num) (fun b hb => ?_) (fun b hb => ?_) ?_
  · obtain rfl | rfl | rfl : b = 0 ∨ b = 1 ∨ b = 2 := by omega
    · exact (starkCauchyN_sound stark4_0).1
    · exact (starkCauchyN_sound stark4_1).1
    · exact (starkCauchyN_sound stark4_2).1
  · obtain rfl | rfl : b = 0 ∨ b = 1 := by omega
    · rw [(starkCauchyN_sound stark4_0).2]; exact eigenN_sound stark4_0_eigen
    · rw [(starkCauchyN_sound stark4_1).2]; exact eigenN_sound stark4_1_eigen
  · rw [(starkCauchyN_sound stark4_2).2]; exact noEigenN_sound stark4_2_noEigen

theorem generate5 : Stark.generateMdsMatrix Fq Sha256.sha256 hadesMds 5 false = .ok (starkMatrix Fq Sha256.sha256 hadesMds 5 1) := by
  refine generate_of_attempts (by norm_num) (fun b hb => ?_) (fun b hb => ?_) ?_
  · obtain rfl | rfl : b = 0 ∨ b = 1 := by omega
    · exact (starkCauchyN_sound stark5_0).1
    · exact (starkCauchyN_sound stark5_1).1
  · obtain rfl : b = 0 := by omega
    rw [(starkCauchyN_sound stark5_0).2]; exact eigenN_sound stark5_0_eigen
  · rw [(starkCauchyN_sound stark5_1).2]; exact noEigenN_sound stark5_1_noEigen

theorem generate6 : Stark.generateMdsMatrix Fq Sha256.sha256 hadesMds 6 false = .ok (starkMatrix Fq Sha256.sha256 hadesMds 6 1) := by
  refine generate_of_attempts (by norm_num) (fun b hb => ?_) (fun b hb => ?_) ?_
  · obtain rfl | rfl : b = 0 ∨ b = 1 := by omega
    · exact (starkCauchyN_sound stark6_0).1
    · exact (starkCauchyN_sound stark6_1).1
  · obtain rfl : b = 0 := by omega
    rw [(starkCauchyN_sound stark6_0).2]; exact eigenN_sound stark6_0_eigen
  · rw [(starkCauchyN_sound stark6_1).2]; exact noEigenN_sound stark6_1_noEigen

/-! ## The tests of the authors -/

/-- The list `L` has the entries of `T`, and these pass the tests. -/
def starkTestsN (m : Nat) (T : List (List Nat)) (L : List Nat) (N NT : List (List Nat)) (a : List Nat) (cs : List (List Nat)) : Bool :=
  (allN m fun i => allN m fun j => Nat.beq (nth (nthL T i) j) (nth L (i * m + j))) && checkTests q m L N NT a cs

theorem starkTestsN_sound {k : Nat} (hk : 1 ≤ k) {T N NT cs : List (List Nat)} {L a : List Nat}
    (h : starkTestsN (k + 1) T L N NT a cs = true) :
    NoInactiveTrail (toFqM (k + 1) T) ∧ algorithm1 (toFqM (k + 1) T) = (true, 0) ∧ algorithm2 (toFqM (k + 1) T) = true ∧
      algorithm3 (toFqM (k + 1) T) = true := by
  rw [starkTestsN, Bool.and_eq_true] at h
  obtain ⟨h1, h2⟩ := h
  have hp : (q : Fq) = 0 := ZMod.natCast_self q
  have hm : ∀ i j : Fin (k + 1), toFqM (k + 1) T i j = (nth L (i * (k + 1) + j) : Fq) := fun i j => by
    rw [toFqM, Matrix.of_apply, Nat.eq_of_beq_eq_true (allN_iff.1 (allN_iff.1 h1 i i.isLt) j j.isLt)]
  refine ⟨?_, checkTests_sound hp hk hm h2⟩
  rw [checkTests, forceLL_eq, forceLL_eq, iterN_eq, iterN_eq, iterN_eq] at h2
  simp only [Bool.and_eq_true] at h2
  obtain ⟨c1, c2, c3⟩ := colsN_spec (k + 1) L
  exact inverse_noInactiveTrail (inverseN_sound hp c1 c2 (fun i j => by rw [c3, Matrix.transpose_apply, hm]) h2.1.1.1)

theorem stark2_tests : starkTestsN 2 starkT2_0 starkM2 starkN2 starkNT2 starkR2 starkP2 = true := by decide +kernel
theorem stark3_tests : starkTestsN 3 starkT3_0 starkM3 starkN3 starkNT3 starkR3 starkP3 = true := by decide +kernel
theorem stark4_tests : starkTestsN 4 starkT4_2 starkM4 starkN4 starkNT4 starkR4 starkP4 = true := by decide +kernel
theorem stark5_tests : starkTestsN 5 starkT5_1 starkM5 starkN5 starkNT5 starkR5 starkP5 = true := by decide +kernel
theorem stark6_tests : starkTestsN 6 starkT6_1 starkM6 starkN6 starkNT6 starkR6 starkP6 = true := by decide +kernel

end Poseidon
