import Verif.Proofs.GenConsistent

/-! # The relations of `Spec/Derived.lean` determine the derived tables -/

set_option linter.unusedSectionVars false

namespace Poseidon

open scoped Matrix

variable {F : Type} [Field F] [DecidableEq F] {k rows nmds nhat nround npart : Nat}

theorem Mat.toM_inj {r c n : Nat} (h : n = r * c) {a b : Mat F r c n} (e : a.toM h = b.toM h) : a = b := by
  rw [← Mat.ofM_toM h a, ← Mat.ofM_toM h b, e]

theorem elements_ext {r c n : Nat} {a b : Mat F r c n} (h : ∀ i : Fin n, a.elements[i] = b.elements[i]) : a = b := by
  obtain ⟨a⟩ := a
  obtain ⟨b⟩ := b
  congr 1
  ext i hi
  exact h ⟨i, hi⟩

/-- Two parameter sets with the same MDS matrix and number of partial rounds, both derived, have the same
optimized matrices. -/
theorem DerivedMds.unique {p p' : Params F (k + 1) k nmds nhat rows (k + 1) nround npart}
    {hm : nmds = (k + 1) * (k + 1)} {hh : nhat = k * k} (h : DerivedMds p hm hh) (h' : DerivedMds p' hm hh)
    (hmds : p.mds = p'.mds) (hr : p.rounds.rP = p'.rounds.rP) : p.optimizedMds = p'.optimizedMds := by
  have eHat : p.optimizedMds.mHat = p'.optimizedMds.mHat := by
    apply Mat.toM_inj hh; ext i j; rw [h.mHat, h'.mHat, hmds]
  have eV : p.optimizedMds.v = p'.optimizedMds.v := elements_ext fun j => by rw [h.v, h'.v, hmds]
  have eW : p.optimizedMds.w = p'.optimizedMds.w := elements_ext fun j => by rw [h.w, h'.w, hmds]
  have e00 : p.optimizedMds.m00 = p'.optimizedMds.m00 := by rw [h.m00, h'.m00, hmds]
  have ePrime : p.optimizedMds.mPrime = p'.optimizedMds.mPrime := by
    apply Mat.toM_inj hm; rw [h.mPrime, h'.mPrime, eHat]
  have uA : IsUnit (p.mds.toM hm) := IsUnit.of_mul_eq_one _ h.mInverse
  have uH : IsUnit (p.optimizedMds.mHat.toM hh) := IsUnit.of_mul_eq_one _ h.mHatInverse
  have eDouble : p.optimizedMds.mDoublePrime = p'.optimizedMds.mDoublePrime := by
    apply Mat.toM_inj hm
    have uP : IsUnit (p.optimizedMds.mPrime.toM hm) := by
      refine isUnit_of_mul_isUnit_left (y := p.optimizedMds.mDoublePrime.toM hm) ?_
      rw [h.factor]; exact uA
    apply uP.mul_left_cancel
    rw [h.factor, ePrime, h'.factor, hmds]
  have eInv : p.optimizedMds.mInverse = p'.optimizedMds.mInverse := by
    apply Mat.toM_inj hm
    apply uA.mul_left_cancel
    rw [h.mInverse, hmds, h'.mInverse]
  have eHatInv : p.optimizedMds.mHatInverse = p'.optimizedMds.mHatInverse := by
    apply Mat.toM_inj hh
    apply uH.mul_left_cancel
    rw [h.mHatInverse, eHat, h'.mHatInverse]
  have eI : p.optimizedMds.mI = p'.optimizedMds.mI := by
    apply Mat.toM_inj hm; rw [h.mI, h'.mI, eHat, hr]
  have eVC : p.optimizedMds.vCollection = p'.optimizedMds.vCollection := by
    ext j hj
    apply elements_ext
    intro i
    have := (h.vCollection j hj).trans ((by rw [eHat, eW] : _ = _).trans (h'.vCollection j hj).symm)
    exact congrFun this i
  have eWC : p.optimizedMds.wHatCollection = p'.optimizedMds.wHatCollection := by
    ext j hj
    apply elements_ext
    intro i
    have h1 := h.wHatCollection j hj
    have h2 := h'.wHatCollection j hj
    rw [← eHat, ← eV, ← h1] at h2
    have uP : IsUnit (p.optimizedMds.mHat.toM hh ^ (j + 1)) := uH.pow _
    exact congrFun (Matrix.vecMul_injective_of_isUnit uP h2.symm) i
  cases hp : p.optimizedMds
  cases hp' : p'.optimizedMds
  simp only [hp, hp'] at eHat eV eW ePrime eDouble eInv eHatInv e00 eI eVC eWC
  simp only [eHat, eV, eW, ePrime, eDouble, eInv, eHatInv, e00, eI, eVC, eWC]

/-- Likewise for the constants. -/
theorem DerivedArc.unique {p p' : Params F (k + 1) k nmds nhat rows (k + 1) nround npart}
    {hm : nmds = (k + 1) * (k + 1)} {ha : nround = rows * (k + 1)} (h : DerivedArc p hm ha) (h' : DerivedArc p' hm ha)
    (hmds : p.mds = p'.mds) (hr : p.rounds = p'.rounds) (harc : p.arc = p'.arc) (hu : IsUnit (p.mds.toM hm))
    (hrows : rows = p.rounds.rF / 2 + p.rounds.rP + p.rounds.rF / 2) (hrp : 1 ≤ p.rounds.rP) :
    p.optimizedArc = p'.optimizedArc := by
  obtain ⟨d, hd0, hdl, hd⟩ := h.moved
  obtain ⟨d', hd0', hdl', hd'⟩ := h'.moved
  rw [← hr] at hd0' hdl' hd'
  rw [← harc] at hdl' hd'
  rw [← hmds] at hd'
  have step : ∀ r, r < p.rounds.rP - 1 → d (r + 1) = d' (r + 1) →
      d r = d' r ∧ rowFn ha p.optimizedArc (p.rounds.rF / 2 + r + 1) 0 =
        rowFn ha p'.optimizedArc (p.rounds.rF / 2 + r + 1) 0 := by
    intro r hr e
    obtain ⟨h1, h2⟩ := hd r hr
    obtain ⟨h1', h2'⟩ := hd' r hr
    rw [← e, ← h2] at h2'
    have h3 := Matrix.mulVec_injective_of_isUnit hu h2'.symm
    constructor
    · funext j
      have := congrFun h3 j
      by_cases hj : j = 0
      · subst hj; rw [h1, h1']
      · simpa [hj] using this
    · have := congrFun h3 0
      simpa [h1, h1'] using this
  have key : ∀ n, n ≤ p.rounds.rP - 1 → d (p.rounds.rP - 1 - n) = d' (p.rounds.rP - 1 - n) := by
    intro n
    induction n with
    | zero => intro _; rw [Nat.sub_zero, hdl, hdl']
    | succ n ih =>
      intro hn
      refine (step _ (by omega) ?_).1
      rw [show p.rounds.rP - 1 - (n + 1) + 1 = p.rounds.rP - 1 - n by omega]
      exact ih (by omega)
  have key' : ∀ r, r ≤ p.rounds.rP - 1 → d r = d' r := by
    intro r hr
    have := key (p.rounds.rP - 1 - r) (by omega)
    rwa [show p.rounds.rP - 1 - (p.rounds.rP - 1 - r) = r by omega] at this
  have rowEq : ∀ r, r < rows → rowFn ha p.optimizedArc r = rowFn ha p'.optimizedArc r := by
    intro r hr'
    rcases Nat.lt_or_ge r (p.rounds.rF / 2) with h1 | h1
    · rw [h.full_pre r h1, h'.full_pre r (by rwa [← hr]), harc]
    rcases Nat.lt_or_ge r (p.rounds.rF / 2 + p.rounds.rP) with h2 | h2
    · rcases Nat.eq_or_lt_of_le h1 with h3 | h3
      · rw [← h3, ← hd0, ← hd0']; exact key' 0 (by omega)
      · funext j
        cases j using Fin.cases with
        | succ j => rw [h.partial_zero r h3 h2, h'.partial_zero r (by rwa [← hr]) (by rwa [← hr])]
        | zero =>
          obtain ⟨s, rfl⟩ : ∃ s, r = p.rounds.rF / 2 + s + 1 := ⟨r - p.rounds.rF / 2 - 1, by omega⟩
          exact (step s (by omega) (key' _ (by omega))).2
    · rw [h.full_post r h2 (by omega), h'.full_post r (by rwa [← hr]) (by rw [← hr]; omega), harc]
  apply Mat.toM_inj ha
  funext i
  have := rowEq i i.isLt
  simpa [rowFn] using this

end Poseidon
