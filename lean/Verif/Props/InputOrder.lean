import Verif.Props.Native

/-!
# C08: hash inputs are absorbed in order, domain separator first

`C02_hash_n` already says that `hash_n ds v` is word 1 of the permuted state `[ds, v1, .., vn]`.
Here: that state is a faithful record of the call.  Two calls reach the same permuted state only if
domain separator and all values agree position by position, so nothing is dropped, duplicated or
reordered.
-/

set_option linter.unusedSectionVars false

namespace Poseidon

/-- C08: `hash_1` keeps every argument in its place. -/
theorem C08_hash_1 (ds ds' : Fq) (v v' : Fq) (y y' : Fin 2 → Fq)
    (h : spec377 0 ![ds, v] = some y) (h' : spec377 0 ![ds', v'] = some y') :
    hash1 ds v = .ok (y 1) ∧ (y = y' ↔ ds = ds' ∧ v = v') := by
  constructor
  · obtain ⟨z, hz, hd⟩ := C02_hash_1 ds v
    rw [h] at hz
    rw [hd, Option.some.inj hz]
  · constructor
    · intro e
      subst e
      rw [spec377_eq] at h h'
      have hs := (perm377_bijective 0).injective ((Option.some.inj h).trans (Option.some.inj h').symm)
      have e0 := congrFun hs (0 : Fin 2)
      have e1 := congrFun hs (1 : Fin 2)
      exact ⟨e0, e1⟩
    · rintro ⟨rfl, rfl⟩
      rw [h] at h'
      exact Option.some.inj h'

/-- C08: `hash_2` keeps every argument in its place. -/
theorem C08_hash_2 (ds ds' : Fq) (v v' : Fq × Fq) (y y' : Fin 3 → Fq)
    (h : spec377 1 ![ds, v.1, v.2] = some y) (h' : spec377 1 ![ds', v'.1, v'.2] = some y') :
    hash2 ds v = .ok (y 1) ∧ (y = y' ↔ ds = ds' ∧ v = v') := by
  constructor
  · obtain ⟨z, hz, hd⟩ := C02_hash_2 ds v
    rw [h] at hz
    rw [hd, Option.some.inj hz]
  · constructor
    · intro e
      subst e
      rw [spec377_eq] at h h'
      have hs := (perm377_bijective 1).injective ((Option.some.inj h).trans (Option.some.inj h').symm)
      have e0 := congrFun hs (0 : Fin 3)
      have e1 := congrFun hs (1 : Fin 3)
      have e2 := congrFun hs (2 : Fin 3)
      exact ⟨e0, (Prod.ext e1 e2)⟩
    · rintro ⟨rfl, rfl⟩
      rw [h] at h'
      exact Option.some.inj h'

/-- C08: `hash_3` keeps every argument in its place. -/
theorem C08_hash_3 (ds ds' : Fq) (v v' : Fq × Fq × Fq) (y y' : Fin 4 → Fq)
    (h : spec377 2 ![ds, v.1, v.2.1, v.2.2] = some y) (h' : spec377 2 ![ds', v'.1, v'.2.1, v'.2.2] = some y') :
    hash3 ds v = .ok (y 1) ∧ (y = y' ↔ ds = ds' ∧ v = v') := by
  constructor
  · obtain ⟨z, hz, hd⟩ := C02_hash_3 ds v
    rw [h] at hz
    rw [hd, Option.some.inj hz]
  · constructor
    · intro e
      subst e
      rw [spec377_eq] at h h'
      have hs := (perm377_bijective 2).injective ((Option.some.inj h).trans (Option.some.inj h').symm)
      have e0 := congrFun hs (0 : Fin 4)
      have e1 := congrFun hs (1 : Fin 4)
      have e2 := congrFun hs (2 : Fin 4)
      have e3 := congrFun hs (3 : Fin 4)
      exact ⟨e0, (Prod.ext e1 (Prod.ext e2 e3))⟩
    · rintro ⟨rfl, rfl⟩
      rw [h] at h'
      exact Option.some.inj h'

/-- C08: `hash_4` keeps every argument in its place. -/
theorem C08_hash_4 (ds ds' : Fq) (v v' : Fq × Fq × Fq × Fq) (y y' : Fin 5 → Fq)
    (h : spec377 3 ![ds, v.1, v.2.1, v.2.2.1, v.2.2.2] = some y) (h' : spec377 3 ![ds', v'.1, v'.2.1, v'.2.2.1, v'.2.2.2] = some y') :
    hash4 ds v = .ok (y 1) ∧ (y = y' ↔ ds = ds' ∧ v = v') := by
  constructor
  · obtain ⟨z, hz, hd⟩ := C02_hash_4 ds v
    rw [h] at hz
    rw [hd, Option.some.inj hz]
  · constructor
    · intro e
      subst e
      rw [spec377_eq] at h h'
      have hs := (perm377_bijective 3).injective ((Option.some.inj h).trans (Option.some.inj h').symm)
      have e0 := congrFun hs (0 : Fin 5)
      have e1 := congrFun hs (1 : Fin 5)
      have e2 := congrFun hs (2 : Fin 5)
      have e3 := congrFun hs (3 : Fin 5)
      have e4 := congrFun hs (4 : Fin 5)
      exact ⟨e0, (Prod.ext e1 (Prod.ext e2 (Prod.ext e3 e4)))⟩
    · rintro ⟨rfl, rfl⟩
      rw [h] at h'
      exact Option.some.inj h'

/-- C08: `hash_5` keeps every argument in its place. -/
theorem C08_hash_5 (ds ds' : Fq) (v v' : Fq × Fq × Fq × Fq × Fq) (y y' : Fin 6 → Fq)
    (h : spec377 4 ![ds, v.1, v.2.1, v.2.2.1, v.2.2.2.1, v.2.2.2.2] = some y) (h' : spec377 4 ![ds', v'.1, v'.2.1, v'.2.2.1, v'.2.2.2.1, v'.2.2.2.2] = some y') :
    hash5 ds v = .ok (y 1) ∧ (y = y' ↔ ds = ds' ∧ v = v') := by
  constructor
  · obtain ⟨z, hz, hd⟩ := C02_hash_5 ds v
    rw [h] at hz
    rw [hd, Option.some.inj hz]
  · constructor
    · intro e
      subst e
      rw [spec377_eq] at h h'
      have hs := (perm377_bijective 4).injective ((Option.some.inj h).trans (Option.some.inj h').symm)
      have e0 := congrFun hs (0 : Fin 6)
      have e1 := congrFun hs (1 : Fin 6)
      have e2 := congrFun hs (2 : Fin 6)
      have e3 := congrFun hs (3 : Fin 6)
      have e4 := congrFun hs (4 : Fin 6)
      have e5 := congrFun hs (5 : Fin 6)
      exact ⟨e0, (Prod.ext e1 (Prod.ext e2 (Prod.ext e3 (Prod.ext e4 e5))))⟩
    · rintro ⟨rfl, rfl⟩
      rw [h] at h'
      exact Option.some.inj h'

/-- C08: `hash_6` keeps every argument in its place. -/
theorem C08_hash_6 (ds ds' : Fq) (v v' : Fq × Fq × Fq × Fq × Fq × Fq) (y y' : Fin 7 → Fq)
    (h : spec377 5 ![ds, v.1, v.2.1, v.2.2.1, v.2.2.2.1, v.2.2.2.2.1, v.2.2.2.2.2] = some y) (h' : spec377 5 ![ds', v'.1, v'.2.1, v'.2.2.1, v'.2.2.2.1, v'.2.2.2.2.1, v'.2.2.2.2.2] = some y') :
    hash6 ds v = .ok (y 1) ∧ (y = y' ↔ ds = ds' ∧ v = v') := by
  constructor
  · obtain ⟨z, hz, hd⟩ := C02_hash_6 ds v
    rw [h] at hz
    rw [hd, Option.some.inj hz]
  · constructor
    · intro e
      subst e
      rw [spec377_eq] at h h'
      have hs := (perm377_bijective 5).injective ((Option.some.inj h).trans (Option.some.inj h').symm)
      have e0 := congrFun hs (0 : Fin 7)
      have e1 := congrFun hs (1 : Fin 7)
      have e2 := congrFun hs (2 : Fin 7)
      have e3 := congrFun hs (3 : Fin 7)
      have e4 := congrFun hs (4 : Fin 7)
      have e5 := congrFun hs (5 : Fin 7)
      have e6 := congrFun hs (6 : Fin 7)
      exact ⟨e0, (Prod.ext e1 (Prod.ext e2 (Prod.ext e3 (Prod.ext e4 (Prod.ext e5 e6)))))⟩
    · rintro ⟨rfl, rfl⟩
      rw [h] at h'
      exact Option.some.inj h'

/-- C08: `hash_7` keeps every argument in its place. -/
theorem C08_hash_7 (ds ds' : Fq) (v v' : Fq × Fq × Fq × Fq × Fq × Fq × Fq) (y y' : Fin 8 → Fq)
    (h : spec377 6 ![ds, v.1, v.2.1, v.2.2.1, v.2.2.2.1, v.2.2.2.2.1, v.2.2.2.2.2.1, v.2.2.2.2.2.2] = some y) (h' : spec377 6 ![ds', v'.1, v'.2.1, v'.2.2.1, v'.2.2.2.1, v'.2.2.2.2.1, v'.2.2.2.2.2.1, v'.2.2.2.2.2.2] = some y') :
    hash7 ds v = .ok (y 1) ∧ (y = y' ↔ ds = ds' ∧ v = v') := by
  constructor
  · obtain ⟨z, hz, hd⟩ := C02_hash_7 ds v
    rw [h] at hz
    rw [hd, Option.some.inj hz]
  · constructor
    · intro e
      subst e
      rw [spec377_eq] at h h'
      have hs := (perm377_bijective 6).injective ((Option.some.inj h).trans (Option.some.inj h').symm)
      have e0 := congrFun hs (0 : Fin 8)
      have e1 := congrFun hs (1 : Fin 8)
      have e2 := congrFun hs (2 : Fin 8)
      have e3 := congrFun hs (3 : Fin 8)
      have e4 := congrFun hs (4 : Fin 8)
      have e5 := congrFun hs (5 : Fin 8)
      have e6 := congrFun hs (6 : Fin 8)
      have e7 := congrFun hs (7 : Fin 8)
      exact ⟨e0, (Prod.ext e1 (Prod.ext e2 (Prod.ext e3 (Prod.ext e4 (Prod.ext e5 (Prod.ext e6 e7))))))⟩
    · rintro ⟨rfl, rfl⟩
      rw [h] at h'
      exact Option.some.inj h'

/-- Swapping the two values of `hash_2` reaches a different state (the hypotheses are met). -/
example : ∃ y y', spec377 1 ![5, 1, 2] = some y ∧ spec377 1 ![5, 2, 1] = some y' ∧ y ≠ y' := by
  obtain ⟨y, hy, -⟩ := C02_hash_2 5 (1, 2)
  obtain ⟨y', hy', -⟩ := C02_hash_2 5 (2, 1)
  refine ⟨y, y', hy, hy', fun e => ?_⟩
  have := congrArg Prod.fst (((C08_hash_2 5 5 (1, 2) (2, 1) y y' hy hy').2.1 e).2)
  have h12 : ((1 : ℕ) : Fq) = ((2 : ℕ) : Fq) := by exact_mod_cast this
  rw [ZMod.natCast_eq_natCast_iff'] at h12
  rw [Nat.mod_eq_of_lt (by norm_num [q]), Nat.mod_eq_of_lt (by norm_num [q])] at h12
  omega

end Poseidon
