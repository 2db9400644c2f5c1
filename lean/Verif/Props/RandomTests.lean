import Verif.Proofs.RandomTests

/-!
# Property C92: the tests on random inputs, on all inputs

The project tests two of its claims on random inputs.  Here: for which inputs the tests pass, and how the inputs are distributed.
`number` (Spec/KeyFile.lean) is the number that bytes denote, least significant first.
-/

namespace Poseidon

open Poseidon.Groth16

/-- **C92, the test of the two permutations passes for every input.** -/
theorem C92_consistent (b1 b2 b3 b4 b5 : Vector UInt8 32) : consistentTest b1 b2 b3 b4 b5 = .ok () := by
  obtain ⟨y, h1, h2⟩ := C02_instance 3 (Vector.replicate _ 0) ![fqStrategy b1, fqStrategy b2, fqStrategy b3, fqStrategy b4, fqStrategy b5]
  obtain ⟨y', h1', h2'⟩ := C02_unoptimized 3 (Vector.replicate _ 0)
    ![fqStrategy b1, fqStrategy b2, fqStrategy b3, fqStrategy b4, fqStrategy b5]
  have h3 : Instance.nTo1FixedHash (Instance.new rate4Params) #v[fqStrategy b1, fqStrategy b2, fqStrategy b3, fqStrategy b4, fqStrategy b5] =
      .ok (y 1, ⟨rate4Params, Vector.ofFn y⟩) := h2
  have h3' : Instance.unoptimizedNTo1FixedHash (Instance.new rate4Params)
      #v[fqStrategy b1, fqStrategy b2, fqStrategy b3, fqStrategy b4, fqStrategy b5] = .ok (y' 1, ⟨rate4Params, Vector.ofFn y'⟩) := h2'
  have e : y' = y := Option.some.inj (h1'.symm.trans h1)
  rw [consistentTest]
  dsimp only
  rw [h3, ok_bind, h3', ok_bind]
  dsimp only
  rw [assertEq, if_pos (by rw [e])]

/-- **C92, the inputs of that test.** Every field element is drawn, each from 13 or 14 of the `2^256` arrays of 32 bytes. -/
theorem C92_uniform (x : Fq) : {b : Vector UInt8 32 | fqStrategy b = x}.ncard = 13 + if x.val < 256 ^ 32 % q then 1 else 0 := by
  have e : {b : Vector UInt8 32 | fqStrategy b = x} = {b | number b.toList ≡ x.val [MOD q]} := by
    ext b
    rw [Set.mem_ofPred_eq, Set.mem_ofPred_eq, fqStrategy_eq, ← ZMod.natCast_eq_natCast_iff, ZMod.natCast_zmod_val]
  rw [e, ncard_residue 32 q x.val q_prime.pos, Nat.mod_eq_of_lt (ZMod.val_lt x)]
  congr 1

/-- **C92, the test of the inverse.** It passes if and only if `a d ≠ b c` in the field; otherwise `unwrap` panics. -/
theorem C92_inverse (debug : Bool) (a b c d : Vector UInt8 16) :
    inverseTest debug a b c d =
      if number a.toList * number d.toList ≡ number b.toList * number c.toList [MOD q] then .error .unwrapNone else .ok () := by
  have key : (number a.toList * number d.toList ≡ number b.toList * number c.toList [MOD q]) ↔
      fqStrategy a * fqStrategy d = fqStrategy b * fqStrategy c := by
    rw [fqStrategy_eq, fqStrategy_eq, fqStrategy_eq, fqStrategy_eq, ← ZMod.natCast_eq_natCast_iff, Nat.cast_mul, Nat.cast_mul]
  rw [if_congr key rfl rfl, inverseTest]
  generalize fqStrategy a = a
  generalize fqStrategy b = b
  generalize fqStrategy c = c
  generalize fqStrategy d = d
  have hn : Mat.new 2 2 4 [a, b, c, d] = .ok (⟨#v[a, b, c, d]⟩ : Mat Fq 2 2 4) := rfl
  rw [hn, ok_bind]
  have hdet : ((⟨#v[a, b, c, d]⟩ : Mat Fq 2 2 4).toM rfl).det = a * d - b * c := by
    rw [Matrix.det_fin_two]
    rfl
  rcases C27_inverse debug rfl (by omega) (by omega) (⟨#v[a, b, c, d]⟩ : Mat Fq 2 2 4) with ⟨h, r, hr, h1, -⟩ | ⟨h, hr⟩
  · rw [hr, ok_bind, unwrap, ok_bind, matMul_eq rfl rfl rfl (by omega), ok_bind, identity_eq rfl, ok_bind, h1, assertEq, if_pos rfl, if_neg]
    rw [hdet] at h
    exact sub_ne_zero.1 h
  · rw [hr, ok_bind, unwrap, if_pos]
    · rfl
    · rw [hdet] at h
      exact sub_eq_zero.1 h

/-- **C92, how often the test of the inverse fails.** For at most `2^384 + 2^257` of the `2^512` inputs, a share below `2^-127`. -/
theorem C92_rare (debug : Bool) :
    Nat.card (Vector UInt8 16 × Vector UInt8 16 × Vector UInt8 16 × Vector UInt8 16) = 256 ^ 64 ∧
    {x : Vector UInt8 16 × Vector UInt8 16 × Vector UInt8 16 × Vector UInt8 16 |
      inverseTest debug x.1 x.2.1 x.2.2.1 x.2.2.2 ≠ .ok ()}.ncard ≤ 256 ^ 48 + 2 * 256 ^ 32 := by
  constructor
  · rw [Nat.card_prod, Nat.card_prod, Nat.card_prod, card_bytes]
    generalize (256 : Nat) = x
    ring
  · have := ncard_singular (fqStrategy : Vector UInt8 16 → Fq) fqStrategy16_inj
    rw [card_bytes, ← pow_mul, ← pow_mul] at this
    refine le_trans (le_of_eq ?_) this
    congr 1
    ext ⟨a, b, c, d⟩
    rw [Set.mem_ofPred_eq, Set.mem_ofPred_eq, C92_inverse]
    dsimp only
    have key : (number a.toList * number d.toList ≡ number b.toList * number c.toList [MOD q]) ↔
        fqStrategy a * fqStrategy d = fqStrategy b * fqStrategy c := by
      rw [fqStrategy_eq, fqStrategy_eq, fqStrategy_eq, fqStrategy_eq, ← ZMod.natCast_eq_natCast_iff, Nat.cast_mul, Nat.cast_mul]
    rw [if_congr key rfl rfl]
    split_ifs with h
    · exact ⟨fun _ => h, fun _ => nofun⟩
    · exact ⟨fun h' => absurd rfl h', fun h' => absurd h' h⟩

/-- **C92, the inputs of the test of the inverse.** Only entries below `2^128` are drawn, each from one array: the test does not see other
matrices, although `inverse` is used for matrices with larger entries. -/
theorem C92_small (x : Fq) : {b : Vector UInt8 16 | fqStrategy b = x}.ncard = if x.val < 2 ^ 128 then 1 else 0 := by
  have e : {b : Vector UInt8 16 | fqStrategy b = x} = {b | number b.toList ≡ x.val [MOD q]} := by
    ext b
    rw [Set.mem_ofPred_eq, Set.mem_ofPred_eq, fqStrategy_eq, ← ZMod.natCast_eq_natCast_iff, ZMod.natCast_zmod_val]
  rw [e, ncard_residue 16 q x.val q_prime.pos, Nat.mod_eq_of_lt (ZMod.val_lt x), Nat.div_eq_of_lt pow16_lt_q, zero_add,
    Nat.mod_eq_of_lt pow16_lt_q]
  congr 1

/-! ### Non-vacuity: inputs for which the tests pass and fail -/

/-- Sixteen bytes that denote a small number. -/
def sixteen (x : UInt8) : Vector UInt8 16 := #v[x, 0, 0, 0, 0, 0, 0, 0, 0, 0, 0, 0, 0, 0, 0, 0]

theorem number_sixteen (x : UInt8) : number (sixteen x).toList = x.toNat := by
  simp [number, sixteen, Nat.ofDigits]

/-- The matrix with rows 1, 2 and 3, 4 passes. -/
example : inverseTest true (sixteen 1) (sixteen 2) (sixteen 3) (sixteen 4) = .ok () := by
  rw [C92_inverse, number_sixteen, number_sixteen, number_sixteen, number_sixteen, if_neg]
  decide +kernel

/-- The matrix with rows 1, 2 and 2, 4 makes the test fail. -/
example : inverseTest true (sixteen 1) (sixteen 2) (sixteen 2) (sixteen 4) = .error .unwrapNone := by
  rw [C92_inverse, number_sixteen, number_sixteen, number_sixteen, if_pos]
  decide +kernel

/-- Some field elements are drawn from 13 arrays, others from 14. -/
example : {b : Vector UInt8 32 | fqStrategy b = 0}.ncard = 14 ∧ {b : Vector UInt8 32 | fqStrategy b = -1}.ncard = 13 := by
  rw [C92_uniform, C92_uniform]
  constructor <;> decide +kernel

end Poseidon
