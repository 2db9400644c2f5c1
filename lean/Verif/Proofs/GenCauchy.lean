import Verif.Proofs.GenMds
import Verif.Proofs.Cauchy

/-! # The deterministic Cauchy construction -/

set_option linter.unusedSectionVars false

namespace Poseidon

variable {F : Type} [Field F] [DecidableEq F]

theorem natCast_ne_zero {p : Nat} [CharP F p] {a : Nat} (h0 : 0 < a) (h1 : a < p) : (a : F) ≠ 0 := by
  intro h
  exact Nat.not_dvd_of_pos_of_lt h0 h1 ((CharP.cast_eq_zero_iff F p a).1 h)

/-- The matrix `fixed_cauchy_matrix` builds before its final check. -/
theorem cauchy_elements (t p : Nat) [CharP F p] (hp : 3 * t ≤ p + 1) (i j : Nat) (hi : i < t) (hj : j < t)
    (els : List F) :
    (do
      let xi ← lget ((List.range' 0 t).map (Nat.cast : Nat → F)) i
      let yi ← lget ((List.range' t t).map (Nat.cast : Nat → F)) i
      if xi + yi = 0 then .error .assertFailed
      else
        let yj ← lget ((List.range' t t).map (Nat.cast : Nat → F)) j
        let e ← fdiv 1 (xi + yj)
        return els ++ [e] : R (List F)) = .ok (els ++ [cauchyMds F t ⟨i, hi⟩ ⟨j, hj⟩]) := by
  rw [lget_lt _ (by simpa using hi), ok_bind, lget_lt _ (by simpa using hi), ok_bind]
  simp only [List.getElem_map, List.getElem_range', Nat.one_mul, Nat.zero_add]
  rw [← Nat.cast_add, if_neg (natCast_ne_zero (p := p) (by omega) (by omega)), lget_lt _ (by simpa using hj), ok_bind]
  simp only [List.getElem_map, List.getElem_range', Nat.one_mul]
  rw [← Nat.cast_add, fdiv, if_neg (natCast_ne_zero (p := p) (by omega) (by omega)), ok_bind, one_mul]
  show Except.ok _ = Except.ok _
  rw [cauchyMds, Matrix.of_apply, show i + (t + j) = i + j + t by omega]

theorem numBits_ge {p : Nat} (h : 128 ≤ numBits p) : 2 ^ 127 ≤ p := by
  unfold numBits at h
  split at h
  · omega
  · next h0 =>
    have : 127 ≤ p.log2 := by omega
    exact (Nat.le_log2 h0).1 this

theorem fixedCauchyMatrix_eq (input : GenInput) [CharP F input.p] (nmds : Nat) (hm : nmds = input.t * input.t)
    (hp : 3 * input.t ≤ input.p + 1) (hb : 128 ≤ numBits input.p) :
    fixedCauchyMatrix F nmds input =
      if 1 ≤ input.t ∧ input.t ≤ 8 then .ok (Mat.ofM hm (cauchyMds F input.t))
      else if input.t = 0 then .error .noElements else .error .unimplemented := by
  rw [fixedCauchyMatrix, if_neg (by omega)]
  have h := push2_new hm (Mat.ofM hm (cauchyMds F input.t))
    (body := fun i j els => do
      let xi ← lget ((List.range' 0 input.t).map (Nat.cast : Nat → F)) i
      let yi ← lget ((List.range' input.t input.t).map (Nat.cast : Nat → F)) i
      if xi + yi = 0 then .error .assertFailed
      else
        let yj ← lget ((List.range' input.t input.t).map (Nat.cast : Nat → F)) j
        let e ← fdiv 1 (xi + yj)
        return els ++ [e]) (by
      intro i j els hi hj
      rw [cauchy_elements input.t input.p hp i j hi hj, Mat.toM_ofM])
  rw [← bind_assoc]
  refine Eq.trans (congrArg (· >>= _) h) ?_
  rw [ok_bind]
  by_cases h1 : 1 ≤ input.t ∧ input.t ≤ 8
  · rw [if_pos h1, determinant_eq _ hm _ h1.1 h1.2, ok_bind, Mat.toM_ofM]
    have := cauchyMds_isMDS (F := F) input.t input.p hp _ id id Function.injective_id Function.injective_id
    rw [Matrix.submatrix_id_id] at this
    rw [if_neg this]; rfl
  · rw [if_neg h1]
    by_cases h0 : input.t = 0
    · rw [if_pos h0]
      obtain ⟨_, _, t, _⟩ := input
      dsimp only at h0 hm
      subst h0
      rw [determinant]; rfl
    · rw [if_neg h0, determinant_large (by omega)]; rfl

end Poseidon
