import Verif.Proofs.GenV2
import Verif.Proofs.GenV1
import Verif.Spec.Mds
import Verif.Props.Native
import Verif.Proofs.SmallMds
import Verif.Props.Rounds
import Verif.Props.Alpha
import Verif.Props.Transcript
import Verif.Props.Tables
import Mathlib.Algebra.Field.ZMod
import Mathlib.Tactic.NormNum.Prime

/-!
# Properties of `v2::generate` (C41, C42, C45, C52 - C54)
-/

set_option linter.unusedSectionVars false

namespace Poseidon

open scoped Matrix

variable {F : Type} [Field F] [DecidableEq F]

local instance v2fact3 : Fact (Nat.Prime 3) := ⟨by norm_num⟩
local instance v2fact5 : Fact (Nat.Prime 5) := ⟨by norm_num⟩
local instance v2fact7 : Fact (Nat.Prime 7) := ⟨by norm_num⟩

/-! ## C41: the internal matrix -/

/-- C41: width 2 gives the paper's matrix, unless 5 vanishes in the field: then the assertion fails. -/
theorem C41_two (debug : Bool) :
    ((5 : F) ≠ 0 → ∃ m, internalGenerate debug F 2 4 = .ok m ∧ m.toM rfl = !![2, 1; 1, 3]) ∧
    ((5 : F) = 0 → internalGenerate debug F 2 4 = .error .assertFailed) := by
  obtain ⟨m, h1, h2⟩ := internal2_new (F := F) 4 rfl
  have hd : (m.toM rfl).det = 5 := by rw [h2, internal2_det]
  constructor
  · intro h
    refine ⟨m, ?_, h2⟩
    rw [internalGenerate, if_pos rfl, h1, ok_bind]
    dsimp only
    rw [inverse_regular debug rfl le_rfl (by norm_num) m (by rw [hd]; exact h), ok_bind]
    rfl
  · intro h
    rw [internalGenerate, if_pos rfl, h1, ok_bind]
    dsimp only
    rw [inverse_singular debug rfl le_rfl (by norm_num) m (by rw [hd]; exact h), ok_bind]

/-- C41: width 3 gives the paper's matrix, unless 7 vanishes in the field: then the assertion fails. -/
theorem C41_three (debug : Bool) :
    ((7 : F) ≠ 0 → ∃ m, internalGenerate debug F 3 9 = .ok m ∧ m.toM rfl = !![2, 1, 1; 1, 2, 1; 1, 1, 3]) ∧
    ((7 : F) = 0 → internalGenerate debug F 3 9 = .error .assertFailed) := by
  obtain ⟨m, h1, h2⟩ := internal3_new (F := F) 9 rfl
  have hd : (m.toM rfl).det = 7 := by rw [h2, internal3_det]
  constructor
  · intro h
    refine ⟨m, ?_, h2⟩
    rw [internalGenerate, if_neg (by norm_num), if_pos rfl, h1, ok_bind]
    dsimp only
    rw [inverse_regular debug rfl (by norm_num) (by norm_num) m (by rw [hd]; exact h), ok_bind]
    rfl
  · intro h
    rw [internalGenerate, if_neg (by norm_num), if_pos rfl, h1, ok_bind]
    dsimp only
    rw [inverse_singular debug rfl (by norm_num) (by norm_num) m (by rw [hd]; exact h), ok_bind]

/-- C41: every other width is refused. -/
theorem C41_other (debug : Bool) (t n : Nat) (h2 : t ≠ 2) (h3 : t ≠ 3) :
    internalGenerate debug F t n = .error .unimplemented := by
  rw [internalGenerate, if_neg h2, if_neg h3]; rfl

/-- C41: whatever `internal::generate` returns is invertible. -/
theorem C41_invertible (debug : Bool) (t n : Nat) (m : Mat F t t n) (h : internalGenerate debug F t n = .ok m) :
    ∃ hn : n = t * t, (m.toM hn).det ≠ 0 := by
  have key : ∀ l : List F, t = 2 ∨ t = 3 → (Mat.new t t n l >>= fun m => m.inverse debug >>= fun x => match x with
      | .ok _ => pure m
      | .error _ => .error .assertFailed) = .ok m → ∃ hn : n = t * t, (m.toM hn).det ≠ 0 := by
    intro l ht h
    obtain ⟨m', h1, h⟩ := bind_eq_ok h
    obtain ⟨x, h3, h⟩ := bind_eq_ok h
    have hn : n = t * t := by
      by_contra hne
      rw [Mat.new, if_pos hne] at h1
      exact absurd h1 (by simp)
    refine ⟨hn, fun hdet => ?_⟩
    cases x with
    | error e => exact absurd h (by simp)
    | ok y =>
      obtain rfl : m' = m := Except.ok.inj h
      rw [inverse_singular debug hn (by omega) (by omega) m' hdet] at h3
      exact absurd (Except.ok.inj h3) (by simp)
  unfold internalGenerate at h
  by_cases h2 : t = 2
  · rw [if_pos h2] at h
    exact key _ (Or.inl h2) h
  · by_cases h3 : t = 3
    · rw [if_neg h2, if_pos h3] at h
      exact key _ (Or.inr h3) h
    · rw [if_neg h2, if_neg h3] at h
      exact absurd h (by intro h; cases h)

/-- Non-vacuity: both outcomes occur. -/
example : ∃ m, internalGenerate true (ZMod 7) 2 4 = .ok m ∧ m.toM rfl = !![2, 1; 1, 3] :=
  (C41_two true).1 (by decide)
example : internalGenerate true (ZMod 7) 3 9 = .error .assertFailed :=
  (C41_three true).2 (by decide)

/-! ## C42: the external matrix -/

/-- C42: for a positive multiple of 4 the result is the paper's matrix: `M_4` for `t = 4`, else
`circ(2 M_4, M_4, …, M_4)`. -/
theorem C42_external (d : Nat) (hd : 1 ≤ d) :
    ∃ m, externalGenerate F (4 * d) (4 * d * (4 * d)) = .ok m ∧
      ∀ (i j : Nat) (hi : i < 4 * d) (hj : j < 4 * d),
        m.toM rfl ⟨i, hi⟩ ⟨j, hj⟩ = (if d = 1 then 1 else if i / 4 = j / 4 then 2 else 1) *
          (!![5, 7, 1, 3; 4, 6, 1, 1; 1, 3, 5, 7; 1, 1, 4, 6] : Matrix (Fin 4) (Fin 4) F)
            ⟨i % 4, Nat.mod_lt _ (by norm_num)⟩ ⟨j % 4, Nat.mod_lt _ (by norm_num)⟩ := by
  obtain ⟨m4, h1, h2⟩ := m4_new (F := F)
  by_cases h : d = 1
  · subst h
    refine ⟨m4, ?_, ?_⟩
    · rw [externalGenerate, if_neg (by norm_num), if_neg (by norm_num), if_pos rfl]; exact h1
    · intro i j hi hj
      have := congrFun (congrFun h2 ⟨i, hi⟩) ⟨j, hj⟩
      refine this.trans ?_
      rw [if_pos rfl, one_mul]
      simp only [Nat.mod_eq_of_lt hi, Nat.mod_eq_of_lt hj]
      rfl
  · obtain ⟨m, h3, h4⟩ := external_loops (n := 4 * d * (4 * d)) rfl rfl m4 h2
      (Mat.ofM rfl (1 : Matrix (Fin (4 * d)) (Fin (4 * d)) F))
    refine ⟨m, ?_, ?_⟩
    · rw [externalGenerate, if_neg (by omega), if_neg (by omega), if_neg (by omega), h1, ok_bind,
        identity_eq rfl, ok_bind]
      simp only [show 4 * d / 4 = d by omega]
      exact h3
    · intro i j hi hj
      rw [h4, if_neg h]
      rfl

/-- C42: its determinant, hence it is invertible iff neither 2 nor `d + 1` vanishes in the field (`d ≥ 2`). -/
theorem C42_det (d : Nat) (hd : 2 ≤ d) (m : Mat F (4 * d) (4 * d) (4 * d * (4 * d)))
    (h : externalGenerate F (4 * d) (4 * d * (4 * d)) = .ok m) :
    (m.toM rfl).det = ((d : F) + 1) ^ 4 * (-64) ^ d ∧
    ((m.toM rfl).det ≠ 0 ↔ (2 : F) ≠ 0 ∧ ((d + 1 : ℕ) : F) ≠ 0) := by
  obtain ⟨m', h1, h2⟩ := C42_external (F := F) d (by omega)
  obtain rfl : m' = m := Except.ok.inj (h1.symm.trans h)
  have e : m'.toM rfl = Spec.External F (4 * d) := by
    ext i j
    rw [h2 i.val j.val i.isLt j.isLt, if_neg (by omega)]
    rfl
  have hdet : (m'.toM rfl).det = ((d : F) + 1) ^ 4 * (-64) ^ d := by
    rw [e, ← external_det]
    have : ∀ a b : Nat, a = b → (Spec.External F a).det = (Spec.External F b).det := by rintro a _ rfl; rfl
    exact this _ _ (by ring)
  refine ⟨hdet, ?_⟩
  rw [hdet, show (-64 : F) = -(2 ^ 6) by norm_num]
  simp [show d ≠ 0 by omega, and_comm]

/-- C42: for `t = 4` the matrix is invertible iff the characteristic is not 2. -/
theorem C42_det_four (m : Mat F 4 4 16) (h : externalGenerate F 4 16 = .ok m) :
    (m.toM rfl).det = -64 ∧ ((m.toM rfl).det ≠ 0 ↔ (2 : F) ≠ 0) := by
  obtain ⟨m4, h1, h2⟩ := m4_new (F := F)
  rw [externalGenerate, if_neg (by norm_num), if_neg (by norm_num), if_pos rfl] at h
  obtain rfl : m4 = m := Except.ok.inj (h1.symm.trans h)
  have hdet : (m4.toM rfl).det = -64 := (congrArg _ h2).trans m4_det
  refine ⟨hdet, ?_⟩
  rw [hdet, show (-64 : F) = -(2 ^ 6) by norm_num]
  simp

/-- C42: other widths panic. -/
theorem C42_refused (t n : Nat) (h : t < 4 ∨ t % 4 ≠ 0) : externalGenerate F t n = .error .explicit := by
  rw [externalGenerate]
  by_cases h4 : t < 4
  · rw [if_pos h4]
  · rw [if_neg h4, if_pos (by tauto)]

/-- Non-vacuity: width 8 over `ZMod 5` is invertible, over `ZMod 3` it is generated but singular. -/
example : ∃ m, externalGenerate (ZMod 5) 8 64 = .ok m ∧ (m.toM rfl).det ≠ 0 := by
  obtain ⟨m, h, -⟩ := C42_external (F := ZMod 5) 2 (by norm_num)
  exact ⟨m, h, (C42_det 2 le_rfl m h).2.2 ⟨by decide, by decide⟩⟩
example : ∃ m, externalGenerate (ZMod 3) 8 64 = .ok m ∧ (m.toM rfl).det = 0 := by
  obtain ⟨m, h, -⟩ := C42_external (F := ZMod 3) 2 (by norm_num)
  refine ⟨m, h, ?_⟩
  by_contra hne
  exact absurd ((C42_det 2 le_rfl m h).2.1 hne).2 (by decide)

/-! ## C45: supported widths -/

/-- C45: `v2::generate` panics for every width other than 2 and 3, whatever the field, the security level, the
modulus, the platform's logarithms and the const generics. -/
theorem C45_widths (L : Libm) (debug : Bool) (nlimbs t nmds nround security p : Nat) (allow : Bool)
    (h2 : t ≠ 2) (h3 : t ≠ 3) : ∃ e, v2Generate L debug F nlimbs t nmds nround security p allow = .error e := by
  cases h : v2Generate L debug F nlimbs t nmds nround security p allow with
  | error e => exact ⟨e, rfl⟩
  | ok P =>
    rw [v2Generate] at h
    obtain ⟨_, _, h⟩ := bind_eq_ok h
    obtain ⟨_, _, h⟩ := bind_eq_ok h
    obtain ⟨_, _, h⟩ := bind_eq_ok h
    obtain ⟨_, h', _⟩ := bind_eq_ok h
    rw [C41_other debug t nmds h2 h3] at h'
    exact absurd h' (by simp)

/-- The external matrices for these widths do exist, e.g. for width 8. -/
example : ∃ m, externalGenerate F 8 64 = .ok m :=
  let ⟨m, h, _⟩ := C42_external (F := F) 2 (by norm_num)
  ⟨m, h⟩

/-! ## C52: which of these matrices are MDS -/

theorem nat_cast_ne {a b : Nat} (h : ((a * b : ℕ) : F) ≠ 0) : (a : F) ≠ 0 ∧ (b : F) ≠ 0 := by
  rw [Nat.cast_mul] at h
  exact ⟨left_ne_zero_of_mul h, right_ne_zero_of_mul h⟩

/-- C52: the external matrix of width 4 is MDS iff none of these eight primes vanishes in the field. -/
theorem C52_four (m : Mat F 4 4 16) (h : externalGenerate F 4 16 = .ok m) :
    IsMDS (m.toM rfl) ↔ ∀ p ∈ [2, 3, 5, 7, 11, 13, 19, 23], ((p : ℕ) : F) ≠ 0 := by
  obtain ⟨m4, h1, h2⟩ := m4_new (F := F)
  have h' := h
  rw [externalGenerate, if_neg (by norm_num), if_neg (by norm_num), if_pos rfl] at h'
  obtain rfl : m4 = m := Except.ok.inj (h1.symm.trans h')
  change m4.toM rfl = Spec.M4 F at h2
  rw [h2]
  constructor
  · intro hM p hp
    have e : ∀ (a b c d : Fin 4) (z : ℤ), a ≠ b → c ≠ d → minor2 zM4 a b c d = z → (z : F) ≠ 0 := by
      rintro a b c d _ hab hcd rfl
      have := hM.minor2 hab hcd
      rwa [zM4_map, minor2_map] at this
    have n6 : (6 : F) ≠ 0 := hM.entry 1 1
    simp only [List.mem_cons, List.not_mem_nil, or_false] at hp
    rcases hp with rfl | rfl | rfl | rfl | rfl | rfl | rfl | rfl
    · exact (nat_cast_ne (F := F) (a := 2) (b := 3) (by exact_mod_cast n6)).1
    · exact (nat_cast_ne (F := F) (a := 2) (b := 3) (by exact_mod_cast n6)).2
    · exact_mod_cast (show (5 : F) ≠ 0 from hM.entry 0 0)
    · exact_mod_cast (show (7 : F) ≠ 0 from hM.entry 0 1)
    · exact_mod_cast e 2 3 1 3 11 (by decide) (by decide) (by decide +kernel)
    · exact (nat_cast_ne (F := F) (a := 3) (b := 13)
        (by exact_mod_cast e 0 3 1 3 39 (by decide) (by decide) (by decide +kernel))).2
    · exact_mod_cast e 0 3 0 2 19 (by decide) (by decide) (by decide +kernel)
    · exact_mod_cast e 1 3 0 3 23 (by decide) (by decide) (by decide +kernel)
  · intro hp
    simp only [List.forall_mem_cons, List.not_mem_nil, false_imp_iff, implies_true, and_true] at hp
    obtain ⟨p2, p3, p5, p7, p11, p13, p19, p23⟩ := hp
    have hN : ((nM4 : ℤ) : F) ≠ 0 := by
      have : ((nM4 : ℤ) : F) = ((2 : ℕ) : F) ^ 6 * ((3 : ℕ) : F) ^ 3 * ((5 : ℕ) : F) * ((7 : ℕ) : F) * ((11 : ℕ) : F) *
          ((13 : ℕ) : F) * ((19 : ℕ) : F) * ((23 : ℕ) : F) := by
        rw [nM4]; push_cast; norm_num
      rw [this]
      simp only [ne_eq, mul_eq_zero, pow_eq_zero_iff, OfNat.ofNat_ne_zero, not_false_eq_true, not_or]
      exact ⟨⟨⟨⟨⟨⟨⟨p2, p3⟩, p5⟩, p7⟩, p11⟩, p13⟩, p19⟩, p23⟩
    refine m4_mds hN ?_
    rw [m4_det, show (-64 : F) = -((2 : ℕ) : F) ^ 6 by norm_num]
    exact neg_ne_zero.2 (pow_ne_zero _ p2)

/-- C52: the matrix of width 2 is MDS iff 2, 3 and 5 do not vanish in the field, -/
theorem C52_two (debug : Bool) (m : Mat F 2 2 4) (h : internalGenerate debug F 2 4 = .ok m) :
    IsMDS (m.toM rfl) ↔ (2 : F) ≠ 0 ∧ (3 : F) ≠ 0 ∧ (5 : F) ≠ 0 := by
  have h5 : (5 : F) ≠ 0 := by
    intro h5
    rw [(C41_two debug).2 h5] at h
    cases h
  obtain ⟨m', h1, h2⟩ := (C41_two (F := F) debug).1 h5
  obtain rfl : m' = m := Except.ok.inj (h1.symm.trans h)
  change m'.toM rfl = Spec.Internal2 F at h2
  rw [h2]
  constructor
  · intro hM
    exact ⟨hM.entry 0 0, hM.entry 1 1, h5⟩
  · rintro ⟨p2, p3, p5⟩
    refine i2_mds ?_ (by rw [internal2_det]; exact p5)
    rw [show ((30 : ℤ) : F) = 2 * 3 * 5 by norm_num]
    exact mul_ne_zero (mul_ne_zero p2 p3) p5

/-- C52: and the one of width 3 iff 2, 3, 5 and 7 do not. -/
theorem C52_three (debug : Bool) (m : Mat F 3 3 9) (h : internalGenerate debug F 3 9 = .ok m) :
    IsMDS (m.toM rfl) ↔ (2 : F) ≠ 0 ∧ (3 : F) ≠ 0 ∧ (5 : F) ≠ 0 ∧ (7 : F) ≠ 0 := by
  have h7 : (7 : F) ≠ 0 := by
    intro h7
    rw [(C41_three debug).2 h7] at h
    cases h
  obtain ⟨m', h1, h2⟩ := (C41_three (F := F) debug).1 h7
  obtain rfl : m' = m := Except.ok.inj (h1.symm.trans h)
  change m'.toM rfl = Spec.Internal3 F at h2
  rw [h2]
  constructor
  · intro hM
    refine ⟨hM.entry 0 0, hM.entry 2 2, ?_, h7⟩
    have := hM.minor2 (a := 0) (b := 2) (c := 0) (d := 2) (by decide) (by decide)
    rw [zI3_map, minor2_map, show minor2 zI3 0 2 0 2 = 5 by decide +kernel] at this
    exact_mod_cast this
  · rintro ⟨p2, p3, p5, p7⟩
    refine i3_mds ?_ (by rw [internal3_det]; exact p7)
    rw [show ((210 : ℤ) : F) = 2 * 3 * 5 * 7 by norm_num]
    exact mul_ne_zero (mul_ne_zero (mul_ne_zero p2 p3) p5) p7

/-- C52: no external matrix of width 8 or more is MDS, over any field. -/
theorem C52_external_not_mds (d : Nat) (hd : 2 ≤ d) (m : Mat F (4 * d) (4 * d) (4 * d * (4 * d)))
    (h : externalGenerate F (4 * d) (4 * d * (4 * d)) = .ok m) : ¬ IsMDS (m.toM rfl) := by
  obtain ⟨m', h1, h2⟩ := C42_external (F := F) d (by omega)
  obtain rfl : m' = m := Except.ok.inj (h1.symm.trans h)
  intro hM
  have := hM.minor2 (a := ⟨0, by omega⟩) (b := ⟨4, by omega⟩) (c := ⟨0, by omega⟩) (d := ⟨1, by omega⟩)
    (by simp) (by simp)
  apply this
  unfold minor2
  rw [h2, h2, h2, h2]
  simp [show d ≠ 1 by omega]
  ring

theorem fq_small (n : Nat) (h0 : 0 < n) (h1 : n < 1000) : ((n : ℕ) : Fq) ≠ 0 := by
  intro hz
  have := Nat.le_of_dvd h0 ((ZMod.natCast_eq_zero_iff n q).1 hz)
  have := q_large
  omega

/-- Non-vacuity: for the field of the curve all three matrices are MDS. -/
theorem C52_shipped (debug : Bool) :
    (∃ m, internalGenerate debug Fq 2 4 = .ok m ∧ IsMDS (m.toM rfl)) ∧
    (∃ m, internalGenerate debug Fq 3 9 = .ok m ∧ IsMDS (m.toM rfl)) ∧
    (∃ m, externalGenerate Fq 4 16 = .ok m ∧ IsMDS (m.toM rfl)) := by
  have s2 : (2 : Fq) ≠ 0 := by exact_mod_cast fq_small 2 (by norm_num) (by norm_num)
  have s3 : (3 : Fq) ≠ 0 := by exact_mod_cast fq_small 3 (by norm_num) (by norm_num)
  have s5 : (5 : Fq) ≠ 0 := by exact_mod_cast fq_small 5 (by norm_num) (by norm_num)
  have s7 : (7 : Fq) ≠ 0 := by exact_mod_cast fq_small 7 (by norm_num) (by norm_num)
  refine ⟨?_, ?_, ?_⟩
  · obtain ⟨m, h, -⟩ := (C41_two (F := Fq) debug).1 s5
    exact ⟨m, h, (C52_two debug m h).2 ⟨s2, s3, s5⟩⟩
  · obtain ⟨m, h, -⟩ := (C41_three (F := Fq) debug).1 s7
    exact ⟨m, h, (C52_three debug m h).2 ⟨s2, s3, s5, s7⟩⟩
  · obtain ⟨m, h, -⟩ := C42_external (F := Fq) 1 le_rfl
    refine ⟨m, h, (C52_four m h).2 fun p hp => fq_small p ?_ ?_⟩ <;>
      (simp only [List.mem_cons, List.not_mem_nil, or_false] at hp; omega)

/-! ## C53: no difference passes the partial rounds unnoticed -/

/-- C53: for widths 2 and 3 and over every field, two different states are told apart by word 0, the only word the
partial S-box touches, after fewer than `t` applications of the internal matrix. -/
theorem C53_internal (debug : Bool) (t n : Nat) (m : Mat F t t n) (hn : n = t * t)
    (h : internalGenerate debug F t n = .ok m) (i0 : Fin t) (h0 : i0.val = 0) (x y : Fin t → F) (hxy : x ≠ y) :
    ∃ k < t, ((m.toM hn) ^ k *ᵥ x) i0 ≠ ((m.toM hn) ^ k *ᵥ y) i0 := by
  by_contra hcon
  push Not at hcon
  apply hxy
  subst hn
  by_cases h2 : t = 2
  · subst h2
    obtain rfl : i0 = 0 := Fin.ext h0
    have h5 : (5 : F) ≠ 0 := by
      intro h5
      rw [(C41_two debug).2 h5] at h
      cases h
    obtain ⟨m', h1, hm⟩ := (C41_two (F := F) debug).1 h5
    obtain rfl : m' = m := Except.ok.inj (h1.symm.trans h)
    have e0 := hcon 0 (by norm_num)
    have e1 := hcon 1 (by norm_num)
    rw [hm] at e0 e1
    simp [Matrix.mulVec, _root_.dotProduct, Fin.sum_univ_succ] at e0 e1
    rw [e0] at e1
    funext i
    fin_cases i
    · exact e0
    · exact add_left_cancel e1
  · by_cases h3 : t = 3
    · subst h3
      obtain rfl : i0 = 0 := Fin.ext h0
      have h7 : (7 : F) ≠ 0 := by
        intro h7
        rw [(C41_three debug).2 h7] at h
        cases h
      obtain ⟨m', h1, hm⟩ := (C41_three (F := F) debug).1 h7
      obtain rfl : m' = m := Except.ok.inj (h1.symm.trans h)
      have e0 := hcon 0 (by norm_num)
      have e1 := hcon 1 (by norm_num)
      have e2 := hcon 2 (by norm_num)
      rw [hm] at e0 e1 e2
      rw [pow_two, ← Matrix.mulVec_mulVec, ← Matrix.mulVec_mulVec] at e2
      simp [Matrix.mulVec, _root_.dotProduct, Fin.sum_univ_succ] at e0 e1 e2
      have y1 : x 1 = y 1 := by linear_combination (-6) * e0 + 6 * e1 - e2
      have y2 : x 2 = y 2 := by linear_combination (4) * e0 - 5 * e1 + e2
      funext i
      fin_cases i
      · exact e0
      · exact y1
      · exact y2
    · rw [C41_other debug t (t * t) h2 h3] at h
      cases h

/-- Non-vacuity: over `ZMod 7`, width 2. -/
example : ∃ m, internalGenerate true (ZMod 7) 2 4 = .ok m ∧
    ∀ x y : Fin 2 → ZMod 7, x ≠ y → ∃ k < 2, ((m.toM rfl) ^ k *ᵥ x) 0 ≠ ((m.toM rfl) ^ k *ᵥ y) 0 := by
  obtain ⟨m, h, -⟩ := (C41_two (F := ZMod 7) true).1 (by decide)
  exact ⟨m, h, fun x y => C53_internal true 2 4 m rfl h 0 rfl x y⟩

/-! ## C54: round numbers and parameters of Poseidon2 -/

theorem secureV2_secureV1 {L : Libm} {input : GenInput} {lp : ℝ} {e : Nat} {r : RoundNumbers}
    (h : isSecureV2 L input lp (.exponent e) r = .ok true) : isSecureV1 L input lp (.exponent e) r = .ok true := by
  rw [isSecureV2] at h
  rw [isSecureV1]
  split at h
  · cases h
  · next h1 =>
    rw [if_neg h1]
    split at h
    · cases h
    · next h2 =>
      rw [if_neg h2]
      obtain ⟨g, hg, h⟩ := bind_eq_ok h
      rw [hg, ok_bind]
      split at h
      · cases h
      · next h3 => rw [if_neg h3]; rfl

/-- C54: the round numbers of Poseidon2 never cost fewer S-boxes than those of Poseidon (`t r_F + r_P`). -/
theorem C54_not_cheaper (L : Libm) (input : GenInput) (lp : ℝ) (e : Nat) (ht : 1 ≤ input.t) (ht' : input.t < 2 ^ 50)
    (a b : RoundNumbers) (h1 : roundsV1Generate L input lp (.exponent e) = .ok a)
    (h2 : roundsV2Generate L input lp (.exponent e) = .ok b) :
    input.t * a.rF + a.rP ≤ input.t * b.rF + b.rP := by
  have hM : input.security ≤ 256 := by
    by_contra h
    rw [C37_v1_refused L input lp _ (by omega)] at h1
    cases h1
  rcases C37_v1 L input lp (.exponent e) hM ht ht' with ⟨-, h⟩ | ⟨rP, rF, hb, h⟩
  · rw [h] at h1; cases h1
  · rcases C37_v2 L input lp e ht ht' with ⟨-, h'⟩ | ⟨sP, sF, hb', h'⟩
    · rw [h'] at h2; cases h2
    · obtain rfl := Except.ok.inj (h.symm.trans h1)
      obtain rfl := Except.ok.inj (h'.symm.trans h2)
      have := hb.2.2 sP sF hb'.1 (secureV2_secureV1 hb'.2.1)
      simp only [Spec.Preferred, Spec.cost] at this
      dsimp only
      omega

/-- C54: and they are the same whenever the additional Gröbner-basis attack does not apply to the choice made for
Poseidon. -/
theorem C54_same (L : Libm) (input : GenInput) (lp : ℝ) (e : Nat) (hM : input.security ≤ 256) (ht : 1 ≤ input.t)
    (ht' : input.t < 2 ^ 50) (rP rF : Nat)
    (hb : Spec.IsBest (fun rP rF => isSecureV1 L input lp (.exponent e) ⟨rP, rF⟩ = .ok true) input.t rP rF)
    (ha : algebraicAttackGrobnerBasisV2Possible input (.exponent e) ⟨rP, rF⟩ = .ok false) :
    roundsV2Generate L input lp (.exponent e) = roundsV1Generate L input lp (.exponent e) := by
  have hs2 : isSecureV2 L input lp (.exponent e) ⟨rP, rF⟩ = .ok true := by
    have h : isSecureV1 L input lp (.exponent e) ⟨rP, rF⟩ = .ok true := hb.2.1
    rw [isSecureV1] at h
    rw [isSecureV2]
    split at h
    · cases h
    · next h1 =>
      rw [if_neg h1]
      split at h
      · cases h
      · next h2 =>
        rw [if_neg h2]
        obtain ⟨g, hg, h⟩ := bind_eq_ok h
        rw [hg, ok_bind]
        split at h
        · cases h
        · next h3 => rw [if_neg h3, ha]; rfl
  have hb2 : Spec.IsBest (fun rP rF => isSecureV2 L input lp (.exponent e) ⟨rP, rF⟩ = .ok true) input.t rP rF :=
    ⟨hb.1, hs2, fun sP sF h1 h2 => hb.2.2 sP sF h1 (secureV2_secureV1 h2)⟩
  rcases C37_v1 L input lp (.exponent e) hM ht ht' with ⟨h, -⟩ | ⟨aP, aF, h1, h2⟩
  · have := h rP rF hb.1
    rw [hb.2.1] at this
    cases this
  · rcases C37_v2 L input lp e ht ht' with ⟨h, -⟩ | ⟨bP, bF, h3, h4⟩
    · have := h rP rF hb.1
      rw [hs2] at this
      cases this
    · obtain ⟨rfl, rfl⟩ := best_unique hb h1
      obtain ⟨rfl, rfl⟩ := best_unique hb2 h3
      rw [h2, h4]

/-- C54: for the field of the curve, 128 bits of security and widths 2 to 8 they are 8 and 31 as for Poseidon. -/
theorem C54_rounds (L : Libm) (hL : L.Accurate) (allow : Bool) (t : Nat) (ht : 2 ≤ t) (ht8 : t ≤ 8) :
    roundsV2Generate L ⟨allow, 128, t, q⟩ (log2Big L q) (.exponent 17) = .ok ⟨31, 8⟩ := by
  have h1 := C39_rounds L hL allow t ht ht8
  rcases C37_v1 L ⟨allow, 128, t, q⟩ (log2Big L q) (.exponent 17) (show 128 ≤ 256 by norm_num) (show 1 ≤ t by omega)
    (show t < 2 ^ 50 by omega) with ⟨-, h⟩ | ⟨rP, rF, hb, h⟩
  · rw [h] at h1; cases h1
  · have h' := Except.ok.inj (h.symm.trans h1)
    injection h' with hP hF
    have hr := hb.1
    obtain rfl : rF = 6 := by omega
    obtain rfl : rP = 28 := by
      unfold Spec.partialWithMargin at hP
      rw [Nat.ceil_eq_iff (by norm_num)] at hP
      norm_num at hP
      obtain ⟨a, b⟩ := hP
      have a' : (27 : ℚ) < rP := by linarith
      have b' : (rP : ℚ) < 29 := by linarith
      have a'' : 27 < rP := by exact_mod_cast a'
      have b'' : rP < 29 := by exact_mod_cast b'
      omega
    rw [C54_same L ⟨allow, 128, t, q⟩ (log2Big L q) 17 (show 128 ≤ 256 by norm_num) (show 1 ≤ t by omega)
      (show t < 2 ^ 50 by omega) 28 6 hb, h1]
    obtain ⟨b, hb1, hb2⟩ := C40_binomial ⟨allow, 128, t, q⟩ 17 ⟨28, 6⟩ (show t < 2 ^ 50 by omega) (by norm_num)
    rw [hb1]
    cases b
    · rfl
    · exfalso
      have hb3 := (hb2 _ _ rfl rfl).1 rfl
      dsimp only at hb3
      have c1 : Nat.choose 83 30 ≤ Nat.choose ((6 - 1) * t + 28 + t / 3 + (t / 3 * (6 / 2) + 28 + 17)) 30 :=
        Nat.choose_le_choose 30 (by omega)
      have c2 : 64 ≤ numBits (Nat.choose 83 30) := by
        rw [Nat.choose_eq_factorial_div_factorial (by norm_num)]
        decide +kernel
      have c3 := numBits_mono (Nat.choose_pos (by norm_num)).ne' c1
      have := hb3 30 _ (by norm_num) (by omega) (numBits_spec (Nat.choose_pos (by omega)).ne')
      omega

/-- C54: `v2::generate` on the field of the curve, 128 bits of security and width 2 or 3: it returns `alpha = 17`, 8 full
and 31 partial rounds, the paper's matrix in both places, and as round constants the first `8 t + 31` of the shipped
Poseidon constants of the same width. -/
theorem C54_generate (L : Libm) (hL : L.Accurate) (debug allow : Bool) (i : Fin 7) (hi : i.val < 2) :
    ∃ P, v2Generate L debug Fq 4 (i.val + 2) ((i.val + 2) * (i.val + 2)) (8 * (i.val + 2) + 31) 128 q allow = .ok P ∧
      P.security = 128 ∧ P.alpha = .exponent 17 ∧ P.rounds = ⟨31, 8⟩ ∧ P.external = P.internal ∧
      (∀ a b : Fin (i.val + 2), P.internal.toM rfl a b =
        if a ≠ b then 1 else if a.val = i.val + 1 then 3 else 2) ∧
      P.arc.elements.toList = (shippedParams i).arc.elements.toList.take (8 * (i.val + 2) + 31) := by
  obtain ⟨a, b, h1, h2, h3⟩ := C48_v2_prefix Fq 4 (by norm_num) ⟨allow, 128, i.val + 2, q⟩ (show 1 ≤ i.val + 2 by omega)
    (show numBits q < 2 ^ 32 by decide +kernel) ⟨31, 8⟩ (.exponent 17)
  obtain rfl : a = (shippedParams i).arc := Except.ok.inj (h1.symm.trans (C19_arc i allow))
  change Mat Fq (8 * (i.val + 2) + 31) 1 (8 * (i.val + 2) + 31) at b
  change arcV2Generate Fq 4 (8 * (i.val + 2) + 31) ⟨allow, 128, i.val + 2, q⟩ ⟨31, 8⟩ (.exponent 17) = .ok b at h2
  have hsmall : (5 : Fq) ≠ 0 ∧ (7 : Fq) ≠ 0 := by
    refine ⟨?_, ?_⟩
    · exact_mod_cast fq_small 5 (by norm_num) (by norm_num)
    · exact_mod_cast fq_small 7 (by norm_num) (by norm_num)
  have hmat : ∃ m, internalGenerate debug Fq (i.val + 2) ((i.val + 2) * (i.val + 2)) = .ok m ∧
      ∀ a b : Fin (i.val + 2), m.toM rfl a b = if a ≠ b then 1 else if a.val = i.val + 1 then 3 else 2 := by
    have : i = 0 ∨ i = 1 := by omega
    rcases this with rfl | rfl
    · obtain ⟨m, e1, e2⟩ := (C41_two (F := Fq) debug).1 hsmall.1
      refine ⟨m, e1, fun a b => ?_⟩
      refine (congrFun (congrFun e2 a) b).trans ?_
      fin_cases a <;> fin_cases b <;> rfl
    · obtain ⟨m, e1, e2⟩ := (C41_three (F := Fq) debug).1 hsmall.2
      refine ⟨m, e1, fun a b => ?_⟩
      refine (congrFun (congrFun e2 a) b).trans ?_
      fin_cases a <;> fin_cases b <;> rfl
  obtain ⟨m, hm1, hm2⟩ := hmat
  refine ⟨⟨128, .exponent 17, ⟨31, 8⟩, m, m, b⟩, ?_, rfl, rfl, rfl, rfl, hm2, h3⟩
  rw [v2Generate]
  refine Eq.trans (congrArg (· >>= _) (C31_shipped allow)) ?_
  rw [ok_bind]
  refine Eq.trans (congrArg (· >>= _) (C54_rounds L hL allow (i.val + 2) (by omega) (by omega))) ?_
  rw [ok_bind]
  refine Eq.trans (congrArg (· >>= _) h2) ?_
  rw [ok_bind, hm1, ok_bind, if_pos (by omega)]
  rfl

/-- Non-vacuity: with correctly rounded logarithms. -/
example : ∃ P, v2Generate roundedLibm true Fq 4 3 9 55 128 q false = .ok P ∧ P.rounds = ⟨31, 8⟩ :=
  let ⟨P, h, _, _, hr, _⟩ := C54_generate roundedLibm roundedLibm_accurate true false 1 (by norm_num)
  ⟨P, h, hr⟩

end Poseidon
