import Verif.Spec.AuthorVectors
import Verif.Proofs.Layers
import Verif.Proofs.Hash
import Verif.Proofs.ShippedCheck

/-!
# The authors' test vectors

Not properties of the crate: the specification `textbook`, and the crate's unoptimized permutation, give the test vectors
published by the authors of Poseidon for their four instances with exponent 5 (over the scalar fields of BLS12-381
and BN254).  Evaluated by the kernel.
-/

namespace Poseidon.Authors

open Matrix

theorem prime_639533339 : Nat.Prime 639533339 := by
  apply lucas_of_check _ 2 [(2, 1), (229, 1), (853, 1), (1637, 1)] (by decide +kernel) (by decide +kernel)
  · intro f hf
    fin_cases hf <;> norm_num
  · decide +kernel
  · decide +kernel
  · decide +kernel

theorem prime_405928799 : Nat.Prime 405928799 := by
  apply lucas_of_check _ 22 [(2, 1), (11, 1), (3691, 1), (4999, 1)] (by decide +kernel) (by decide +kernel)
  · intro f hf
    fin_cases hf <;> norm_num
  · decide +kernel
  · decide +kernel
  · decide +kernel

theorem prime_52437899 : Nat.Prime 52437899 := by
  apply lucas_of_check _ 2 [(2, 1), (43, 1), (609743, 1)] (by decide +kernel) (by decide +kernel)
  · intro f hf
    fin_cases hf <;> norm_num
  · decide +kernel
  · decide +kernel
  · decide +kernel

theorem prime_254760293 : Nat.Prime 254760293 := by
  apply lucas_of_check _ 2 [(2, 2), (63690073, 1)] (by decide +kernel) (by decide +kernel)
  · intro f hf
    fin_cases hf <;> norm_num
  · decide +kernel
  · decide +kernel
  · decide +kernel

theorem prime_12048837557 : Nat.Prime 12048837557 := by
  apply lucas_of_check _ 2 [(2, 2), (7, 2), (661, 1), (93001, 1)] (by decide +kernel) (by decide +kernel)
  · intro f hf
    fin_cases hf <;> norm_num
  · decide +kernel
  · decide +kernel
  · decide +kernel

theorem prime_5156902474397 : Nat.Prime 5156902474397 := by
  apply lucas_of_check _ 2 [(2, 2), (107, 1), (12048837557, 1)] (by decide +kernel) (by decide +kernel)
  · intro f hf
    fin_cases hf <;> first | exact prime_12048837557 | norm_num
  · decide +kernel
  · decide +kernel
  · decide +kernel

theorem prime_1670836401704629 : Nat.Prime 1670836401704629 := by
  apply lucas_of_check _ 2 [(2, 2), (3, 4), (5156902474397, 1)] (by decide +kernel) (by decide +kernel)
  · intro f hf
    fin_cases hf <;> first | exact prime_5156902474397 | norm_num
  · decide +kernel
  · decide +kernel
  · decide +kernel

theorem prime_65865678001877903 : Nat.Prime 65865678001877903 := by
  apply lucas_of_check _ 5 [(2, 1), (83, 1), (379, 1), (1637, 1), (639533339, 1)] (by decide +kernel) (by decide +kernel)
  · intro f hf
    fin_cases hf <;> first | exact prime_639533339 | norm_num
  · decide +kernel
  · decide +kernel
  · decide +kernel

theorem prime_13818364434197438864469338081 : Nat.Prime 13818364434197438864469338081 := by
  apply lucas_of_check _ 3 [(2, 5), (5, 1), (823, 1), (1593227, 1), (65865678001877903, 1)] (by decide +kernel) (by decide +kernel)
  · intro f hf
    fin_cases hf <;> first | exact prime_65865678001877903 | norm_num
  · decide +kernel
  · decide +kernel
  · decide +kernel

/-- The modulus of the scalar field of BLS12-381, `prime` in poseidonperm_x5_255_3.sage:7 -/
def bls381 : Nat := 0x73eda753299d7d483339d80809a1d80553bda402fffe5bfeffffffff00000001

theorem bls381_prime : Nat.Prime bls381 := by
  apply lucas_of_check _ 7 [(2, 32), (3, 1), (11, 1), (19, 1), (10177, 1), (125527, 1), (859267, 1), (906349, 2), (2508409, 1),
    (2529403, 1), (52437899, 1), (254760293, 2)] (by decide +kernel) (by decide +kernel)
  · intro f hf
    fin_cases hf <;> first | exact prime_52437899 | exact prime_254760293 | norm_num
  · decide +kernel
  · decide +kernel
  · decide +kernel

/-- The modulus of the scalar field of BN254, `prime` in poseidonperm_x5_254_3.sage:7 -/
def bn254 : Nat := 0x30644e72e131a029b85045b68181585d2833e84879b9709143e1f593f0000001

theorem bn254_prime : Nat.Prime bn254 := by
  apply lucas_of_check _ 5 [(2, 28), (3, 2), (13, 1), (29, 1), (983, 1), (11003, 1), (237073, 1), (405928799, 1),
    (1670836401704629, 1), (13818364434197438864469338081, 1)] (by decide +kernel) (by decide +kernel)
  · intro f hf
    fin_cases hf <;> first | exact prime_405928799 | exact prime_1670836401704629 | exact prime_13818364434197438864469338081 | norm_num
  · decide +kernel
  · decide +kernel
  · decide +kernel

instance : Fact (Nat.Prime bls381) := ⟨bls381_prime⟩
instance : Fact (Nat.Prime bn254) := ⟨bn254_prime⟩

variable {p : Nat} [Fact p.Prime]

/-- The vector of a list of naturals. -/
def vec (p t : Nat) (l : List Nat) : Fin t → ZMod p := fun i => ((nth l i : Nat) : ZMod p)

/-- The matrix with the rows of a list of naturals. -/
def mat (p r c : Nat) (l : List Nat) : Matrix (Fin r) (Fin c) (ZMod p) :=
  Matrix.of fun i j => ((ent c l i j : Nat) : ZMod p)

/-- `a ^ 5` modulo `p` -/
def pow5N (p a : Nat) : Nat :=
  force a fun a => force (a * a % p) fun a2 => force (a2 * a2 % p) fun a4 => a4 * a % p

theorem pow5N_cast (a : Nat) : ((pow5N p a : Nat) : ZMod p) = (a : ZMod p) ^ 5 := by
  simp only [pow5N, force_eq, ZMod.natCast_mod, Nat.cast_mul]
  ring

/-- One round on naturals. -/
def roundN (p t : Nat) (m : List Nat) (full : Bool) (c : Nat → Nat) (x : List Nat) : List Nat :=
  forceL (tabN t fun i => bif full || Nat.beq i 0 then pow5N p (nth x i + c i) else nth x i + c i) fun y =>
    forceL (tabN t fun i => sumN t (fun j => ent t m i j * nth y j) % p) fun z => z

theorem roundN_cast (t : Nat) (m : List Nat) (full : Bool) (c : Nat → Nat) (x : List Nat) :
    vec p t (roundN p t m full c x) = roundE 5 (mat p t t m) full (fun i => ((c i : Nat) : ZMod p)) (vec p t x) := by
  rw [roundN, forceL_eq, forceL_eq, roundE]
  funext i
  rw [vec, nth_tabN _ i.isLt, ZMod.natCast_mod, sumN_cast, Matrix.mulVec, _root_.dotProduct]
  apply Finset.sum_congr rfl
  intro j _
  rw [nth_tabN _ j.isLt, Nat.cast_mul, mat, Matrix.of_apply]
  congr 1
  by_cases h : Active full j
  · rw [if_pos h]
    have : (full || Nat.beq j.val 0) = true := by
      rcases h with h | h
      · rw [h]; rfl
      · rw [h]; simp
    rw [this, cond_true, pow5N_cast]
    simp [vec]
  · rw [if_neg h]
    have : (full || Nat.beq j.val 0) = false := by
      have h1 : ¬ full = true := fun hh => h (Or.inl hh)
      have h2 : ¬ j.val = 0 := fun hh => h (Or.inr hh)
      have h3 : Nat.beq j.val 0 = false := Bool.eq_false_iff.2 fun hh => h2 (Nat.eq_of_beq_eq_true hh)
      rw [Bool.eq_false_iff.2 h1, h3]; rfl
    rw [this, cond_false]
    simp [vec]

/-- The permutation on naturals, with 4, `rp` and 4 rounds. -/
def permN (p t rp : Nat) (m c : List Nat) (x : List Nat) : List Nat :=
  (List.range (4 + rp + 4)).foldl
    (fun x r => roundN p t m (Nat.blt r 4 || Nat.ble (4 + rp) r) (fun i => nth c (r * t + i)) x) x

theorem permN_cast (t rp : Nat) (m c x : List Nat) :
    textbook (.exponent 5) (mat p t t m) 4 rp (fun r => mat p (4 + rp + 4) t c r) (vec p t x) =
      some (vec p t (permN p t rp m c x)) := by
  rw [textbook_exponent, permE, permN, ← List.map_coe_finRange_eq_range]
  congr 1
  generalize List.finRange (4 + rp + 4) = l
  induction l generalizing x with
  | nil => rfl
  | cons r l ih =>
    rw [List.foldl_cons, List.map_cons, List.foldl_cons, ← ih, roundN_cast]
    congr 2
    rw [Bool.eq_iff_iff]
    simp [Nat.blt, Nat.ble_eq]

/-- The crate's unoptimized permutation, for any parameters with the authors' matrix, constants, rounds and exponent. -/
def Reproduces (p t rp : Nat) [Fact p.Prime] (m c out : List Nat) : Prop :=
  ∀ (tm1 nhat npart : Nat) (P : Params (ZMod p) t tm1 (t * t) nhat (4 + rp + 4) t ((4 + rp + 4) * t) npart),
    P.alpha = .exponent 5 → P.rounds = ⟨rp, 8⟩ → P.mds.toM rfl = mat p t t m → P.arc.toM rfl = mat p (4 + rp + 4) t c →
      unoptimizedPermute P (Vector.ofFn fun i : Fin t => ((i.val : Nat) : ZMod p)) =
        .ok (Vector.ofFn (vec p t out))

theorem reproduces {t rp : Nat} {m c out : List Nat} (ht : 0 < t)
    (h : permN p t rp m c (List.range t) = out) : Reproduces p t rp m c out := by
  intro tm1 nhat npart P h1 h2 h3 h4
  have hin : (fun i : Fin t => ((i.val : Nat) : ZMod p)) = vec p t (List.range t) := by
    funext i
    rw [vec, nth_lt (by simp)]
    simp
  obtain ⟨security, alpha, rounds, mds, arc, arc', opt⟩ := P
  dsimp only at h1 h2 h3 h4
  subst h1 h2
  rw [unoptimizedPermute_eq _ ht rfl rfl (by simp), h3, hin]
  have hc := permN_cast (p := p) t rp m c (List.range t)
  rw [h] at hc
  have key : ∀ (rf : Nat) (hrf : rf = 4) (C : Fin (rf + rp + rf) → Fin t → ZMod p),
      (∀ r, C r = mat p (4 + rp + 4) t c ⟨r.val, by omega⟩) →
      textbook (.exponent 5) (mat p t t m) rf rp C (vec p t (List.range t)) = some (vec p t out) := by
    rintro rf rfl C hC
    rw [← hc]
    congr 1
    funext r
    exact hC r
  rw [key _ (by norm_num) _ fun r => by rw [h4]]
  rfl

theorem value_255_3 : permN bls381 3 57 mds_255_3 arc_255_3 (List.range 3) = out_255_3 := by decide +kernel

/-- The specification gives the authors' test vector for `poseidonperm_x5_255_3`. -/
theorem textbook_255_3 :
    textbook (.exponent 5) (mat bls381 3 3 mds_255_3) 4 57 (fun r => mat bls381 65 3 arc_255_3 r)
      (vec bls381 3 (List.range 3)) = some (vec bls381 3 out_255_3) :=
  (permN_cast 3 57 mds_255_3 arc_255_3 (List.range 3)).trans (congrArg (fun l => some (vec bls381 3 l)) value_255_3)

/-- So does the crate's unoptimized permutation. -/
theorem crate_255_3 : Reproduces bls381 3 57 mds_255_3 arc_255_3 out_255_3 :=
  reproduces (by norm_num) value_255_3

theorem value_255_5 : permN bls381 5 60 mds_255_5 arc_255_5 (List.range 5) = out_255_5 := by decide +kernel

/-- The specification gives the authors' test vector for `poseidonperm_x5_255_5`. -/
theorem textbook_255_5 :
    textbook (.exponent 5) (mat bls381 5 5 mds_255_5) 4 60 (fun r => mat bls381 68 5 arc_255_5 r)
      (vec bls381 5 (List.range 5)) = some (vec bls381 5 out_255_5) :=
  (permN_cast 5 60 mds_255_5 arc_255_5 (List.range 5)).trans (congrArg (fun l => some (vec bls381 5 l)) value_255_5)

/-- So does the crate's unoptimized permutation. -/
theorem crate_255_5 : Reproduces bls381 5 60 mds_255_5 arc_255_5 out_255_5 :=
  reproduces (by norm_num) value_255_5

theorem value_254_3 : permN bn254 3 57 mds_254_3 arc_254_3 (List.range 3) = out_254_3 := by decide +kernel

/-- The specification gives the authors' test vector for `poseidonperm_x5_254_3`. -/
theorem textbook_254_3 :
    textbook (.exponent 5) (mat bn254 3 3 mds_254_3) 4 57 (fun r => mat bn254 65 3 arc_254_3 r)
      (vec bn254 3 (List.range 3)) = some (vec bn254 3 out_254_3) :=
  (permN_cast 3 57 mds_254_3 arc_254_3 (List.range 3)).trans (congrArg (fun l => some (vec bn254 3 l)) value_254_3)

/-- So does the crate's unoptimized permutation. -/
theorem crate_254_3 : Reproduces bn254 3 57 mds_254_3 arc_254_3 out_254_3 :=
  reproduces (by norm_num) value_254_3

theorem value_254_5 : permN bn254 5 60 mds_254_5 arc_254_5 (List.range 5) = out_254_5 := by decide +kernel

/-- The specification gives the authors' test vector for `poseidonperm_x5_254_5`. -/
theorem textbook_254_5 :
    textbook (.exponent 5) (mat bn254 5 5 mds_254_5) 4 60 (fun r => mat bn254 68 5 arc_254_5 r)
      (vec bn254 5 (List.range 5)) = some (vec bn254 5 out_254_5) :=
  (permN_cast 5 60 mds_254_5 arc_254_5 (List.range 5)).trans (congrArg (fun l => some (vec bn254 5 l)) value_254_5)

/-- So does the crate's unoptimized permutation. -/
theorem crate_254_5 : Reproduces bn254 5 60 mds_254_5 arc_254_5 out_254_5 :=
  reproduces (by norm_num) value_254_5

end Poseidon.Authors
