import Verif.Proofs.Grain

/-! # Proofs about the constants and the matrix drawn from the Grain generator -/

namespace Poseidon

open Grain

variable {s : Nat → Bool} {ini : List Bool} {n : Nat}

/-- The register `b` after `B` numbers of `n` bits -/
abbrev AtBlock (s : Nat → Bool) (n B : Nat) (b : List Bool) : Prop := At s (n * B) b

variable (h : IsRegister ini s) (hinf : (Set.ofPred (Taken s)).Infinite) (hn : n ≠ 0)

include h hinf hn

theorem randomBits_block {B : Nat} {b : List Bool} (hb : AtBlock s n B b) :
    ∃ f0 b', AtBlock s n (B + 1) b' ∧ (∀ fuel, f0 ≤ fuel → randomBits fuel n b = some (grainBlock s n B, b')) ∧
      ∀ fuel, randomBits fuel n b = none ∨ randomBits fuel n b = some (grainBlock s n B, b') :=
  randomBits_draws h hinf hn (n * B) b hb

theorem collect_block {m B : Nat} {b : List Bool} (hb : AtBlock s n B b) :
    ∃ f0 b', AtBlock s n (B + m) b' ∧
      (∀ fuel, f0 ≤ fuel → collect (randomBits fuel n) m b = some (fun i : Fin m => grainBlock s n (B + i), b')) ∧
      ∀ fuel, collect (randomBits fuel n) m b = none ∨
        collect (randomBits fuel n) m b = some (fun i : Fin m => grainBlock s n (B + i), b') := by
  obtain ⟨f0, b', h1, h2, h3⟩ := collect_at (randomBits_draws h hinf hn) m (n * B) b hb
  beta_reduce at h2 h3
  simp only [← Nat.mul_add] at h1 h2 h3
  exact ⟨f0, b', h1, h2, h3⟩

/-! ## Constants -/

variable {p : Nat}

theorem drawBelow_at : ∀ (d B : Nat) (b : List Bool), AtBlock s n B b → (∀ i, i < d → p ≤ grainBlock s n (B + i)) →
    grainBlock s n (B + d) < p → ∃ f0 b', AtBlock s n (B + d + 1) b' ∧
      (∀ fuel i, f0 ≤ fuel → d < i → drawBelow fuel n p i b = some (grainBlock s n (B + d), b')) ∧
      ∀ fuel i, drawBelow fuel n p i b = none ∨ drawBelow fuel n p i b = some (grainBlock s n (B + d), b')
  | 0, B, b, hb, _, h1 => by
    obtain ⟨f0, b', h2, h3, h4⟩ := randomBits_block h hinf hn hb
    have hlt : ¬ p ≤ grainBlock s n B := not_le.2 h1
    refine ⟨f0, b', h2, fun fuel i hf hi => ?_, fun fuel i => ?_⟩
    · obtain ⟨i, rfl⟩ := Nat.exists_eq_add_of_lt hi
      rw [Nat.zero_add, drawBelow, h3 fuel hf]
      simp only [Option.bind_eq_bind, Option.bind_some]
      rw [if_neg hlt]; rfl
    · cases i with
      | zero => exact Or.inl rfl
      | succ i =>
        rw [drawBelow]
        rcases h4 fuel with h5 | h5
        · left; rw [h5]; rfl
        · right
          rw [h5]
          simp only [Option.bind_eq_bind, Option.bind_some]
          rw [if_neg hlt]; rfl
  | d + 1, B, b, hb, h0, h1 => by
    obtain ⟨f0, b1, h2, h3, h4⟩ := randomBits_block h hinf hn hb
    have hge : p ≤ grainBlock s n B := h0 0 (Nat.succ_pos _)
    obtain ⟨f1, b', h5, h6, h7⟩ := drawBelow_at d (B + 1) b1 h2 (fun i hi => by
      have := h0 (i + 1) (by omega)
      rwa [show B + (i + 1) = B + 1 + i by omega] at this) (by rwa [show B + (d + 1) = B + 1 + d by omega] at h1)
    rw [show B + 1 + d = B + (d + 1) by omega] at h5 h6 h7
    refine ⟨max f0 f1, b', h5, fun fuel i hf hi => ?_, fun fuel i => ?_⟩
    · obtain ⟨i, rfl⟩ := Nat.exists_eq_add_of_lt hi
      rw [drawBelow, h3 fuel (le_trans (le_max_left _ _) hf)]
      simp only [Option.bind_eq_bind, Option.bind_some]
      rw [if_pos hge]
      exact h6 fuel _ (le_trans (le_max_right _ _) hf) (by omega)
    · cases i with
      | zero => exact Or.inl rfl
      | succ i =>
        rw [drawBelow]
        rcases h4 fuel with h8 | h8
        · left; rw [h8]; rfl
        · rw [h8]
          simp only [Option.bind_eq_bind, Option.bind_some]
          rw [if_pos hge]
          exact h7 fuel i

theorem drawBelow_never {fuel : Nat} : ∀ (i B : Nat) (b : List Bool), AtBlock s n B b → (∀ d, p ≤ grainBlock s n (B + d)) →
    drawBelow fuel n p i b = none
  | 0, _, _, _, _ => rfl
  | i + 1, B, b, hb, h0 => by
    obtain ⟨f0, b1, h2, h3, h4⟩ := randomBits_block h hinf hn hb
    rw [drawBelow]
    rcases h4 fuel with h8 | h8
    · rw [h8]; rfl
    · rw [h8]
      simp only [Option.bind_eq_bind, Option.bind_some]
      rw [if_pos (show p ≤ grainBlock s n B from h0 0)]
      exact drawBelow_never i (B + 1) b1 h2 fun d => by
        have := h0 (d + 1)
        rwa [show B + (d + 1) = B + 1 + d by omega] at this

theorem drawBelow_sound {fuel i B : Nat} {b : List Bool} (hb : AtBlock s n B b) {x : Nat} {b' : List Bool}
    (hx : drawBelow fuel n p i b = some (x, b')) :
    ∃ d, (∀ i, i < d → p ≤ grainBlock s n (B + i)) ∧ grainBlock s n (B + d) < p ∧ x = grainBlock s n (B + d) ∧
      AtBlock s n (B + d + 1) b' := by
  by_cases hex : ∃ d, grainBlock s n (B + d) < p
  · classical
    have h1 := Nat.find_spec hex
    have h0 : ∀ i, i < Nat.find hex → p ≤ grainBlock s n (B + i) := fun i hi => not_lt.1 (Nat.find_min hex hi)
    obtain ⟨f0, b1, h2, h3, h4⟩ := drawBelow_at h hinf hn _ B b hb h0 h1
    refine ⟨Nat.find hex, h0, h1, ?_⟩
    rcases h4 fuel i with h5 | h5
    · rw [h5] at hx; cases hx
    · rw [h5] at hx
      obtain ⟨rfl, rfl⟩ := Prod.mk.inj (Option.some.inj hx)
      exact ⟨rfl, h2⟩
  · push Not at hex
    rw [drawBelow_never h hinf hn i B b hb hex] at hx
    cases hx

omit h hinf hn in
theorem below_gap {d B : Nat} (h0 : ∀ i, i < d → p ≤ grainBlock s n (B + i)) (h1 : grainBlock s n (B + d) < p) :
    Nat.nth (Below s n p) (Nat.count (Below s n p) B) = B + d ∧
      Nat.count (Below s n p) (B + d + 1) = Nat.count (Below s n p) B + 1 := by
  have hc : Nat.count (Below s n p) (B + d) = Nat.count (Below s n p) B := by
    rw [Nat.count_add]
    rw [show Nat.count (fun k => Below s n p (B + k)) d = 0 from (Nat.count_iff_forall_not).2 fun i hi hb => absurd hb (not_lt.2 (h0 i hi))]
    rfl
  refine ⟨?_, ?_⟩
  · rw [← hc]; exact Nat.nth_count h1
  · rw [Nat.count_succ _ (B + d), if_pos (show Below s n p (B + d) from h1), hc]

/-- The constants that are returned, and where the generator stands then -/
theorem constants_sound {fuel : Nat} : ∀ (N B : Nat) (b : List Bool) (l : Fin N → Nat) (b' : List Bool), AtBlock s n B b →
    collect (drawBelow fuel n p fuel) N b = some (l, b') →
    ∃ B', AtBlock s n B' b' ∧ Nat.count (Below s n p) B' = Nat.count (Below s n p) B + N ∧
      (∀ B'' < B', B ≤ B'' → Nat.count (Below s n p) B'' < Nat.count (Below s n p) B + N) ∧ B ≤ B' ∧
      ∀ i : Fin N, l i = grainBlock s n (Nat.nth (Below s n p) (Nat.count (Below s n p) B + i)) ∧ l i < p
  | 0, B, b, l, b', hb, hc => by
    obtain ⟨-, rfl⟩ := Prod.mk.inj (Option.some.inj hc)
    exact ⟨B, hb, rfl, fun B'' h1 h2 => absurd h1 (by omega), le_rfl, fun i => i.elim0⟩
  | N + 1, B, b, l, b', hb, hc => by
    rw [collect] at hc
    simp only [Option.bind_eq_bind, Option.bind_eq_some_iff] at hc
    obtain ⟨⟨x, b1⟩, h1, ⟨l1, b2⟩, h2, h3⟩ := hc
    obtain ⟨rfl, rfl⟩ := Prod.mk.inj (Option.some.inj h3)
    obtain ⟨d, h4, h5, rfl, h6⟩ := drawBelow_sound h hinf hn hb h1
    obtain ⟨g1, g2⟩ := below_gap h4 h5
    obtain ⟨B', h7, h8, h9, h10, h11⟩ := constants_sound N _ b1 l1 b2 h6 h2
    rw [g2] at h8 h9 h11
    refine ⟨B', h7, by omega, fun B'' hB hB' => ?_, by omega, fun i => ?_⟩
    · by_cases hle : B + d + 1 ≤ B''
      · have := h9 B'' hB hle; omega
      · have h12 : Nat.count (Below s n p) B'' ≤ Nat.count (Below s n p) (B + d) := Nat.count_monotone _ (by omega)
        have h13 : Nat.count (Below s n p) (B + d) < Nat.count (Below s n p) (B + d + 1) := by
          rw [Nat.count_succ _ (B + d), if_pos (show Below s n p (B + d) from h5)]; omega
        omega
    · refine Fin.cases ?_ (fun i => ?_) i
      · rw [Fin.cons_zero, Fin.val_zero, Nat.add_zero, g1]; exact ⟨rfl, h5⟩
      · rw [Fin.cons_succ, Fin.val_succ, show Nat.count (Below s n p) B + (i.val + 1) = Nat.count (Below s n p) B + 1 + i.val by omega]
        exact h11 i

/-- When there are enough numbers below `p` the constants are returned. -/
theorem constants_complete : ∀ (N B : Nat) (b : List Bool), AtBlock s n B b →
    (∃ J, Nat.count (Below s n p) B + N ≤ Nat.count (Below s n p) J) →
    ∃ f0 l b', ∀ fuel, f0 ≤ fuel → collect (drawBelow fuel n p fuel) N b = some (l, b')
  | 0, B, b, _, _ => ⟨0, _, b, fun _ _ => rfl⟩
  | N + 1, B, b, hb, ⟨J, hJ⟩ => by
    classical
    have hex : ∃ d, grainBlock s n (B + d) < p := by
      by_contra hcon
      push Not at hcon
      have : Nat.count (Below s n p) J ≤ Nat.count (Below s n p) (B + J) := Nat.count_monotone _ (by omega)
      rw [Nat.count_add, show Nat.count (fun k => Below s n p (B + k)) J = 0 from
        (Nat.count_iff_forall_not).2 fun i hi hb => absurd hb (not_lt.2 (hcon i))] at this
      omega
    have h1 := Nat.find_spec hex
    have h0 : ∀ i, i < Nat.find hex → p ≤ grainBlock s n (B + i) := fun i hi => not_lt.1 (Nat.find_min hex hi)
    obtain ⟨f0, b1, h2, h3, h4⟩ := drawBelow_at h hinf hn _ B b hb h0 h1
    obtain ⟨g1, g2⟩ := below_gap h0 h1
    obtain ⟨f1, l, b', h5⟩ := constants_complete N _ b1 h2 ⟨J, by rw [g2]; omega⟩
    refine ⟨max (max f0 f1) (Nat.find hex + 1), Fin.cons (grainBlock s n (B + Nat.find hex)) l, b', fun fuel hf => ?_⟩
    have hf0 : f0 ≤ fuel := le_trans (le_max_left _ _) (le_trans (le_max_left _ _) hf)
    have hf1 : f1 ≤ fuel := le_trans (le_max_right _ _) (le_trans (le_max_left _ _) hf)
    have hf2 : Nat.find hex < fuel := le_trans (le_max_right _ _) hf
    rw [collect, h3 fuel fuel hf0 hf2]
    simp only [Option.bind_eq_bind, Option.bind_some]
    rw [h5 fuel hf1]
    rfl

/-! ## The matrix -/

variable [Fact p.Prime] {t : Nat}

theorem createMds_at : ∀ (e B : Nat) (b : List Bool), AtBlock s n B b → (∀ i, i < e → ¬ GrainAdmissible s p n t (B + 2 * t * i)) →
    GrainAdmissible s p n t (B + 2 * t * e) → ∃ f0 b', AtBlock s n (B + 2 * t * (e + 1)) b' ∧
      (∀ fuel i, f0 ≤ fuel → e < i → createMds p fuel n t i b = some (grainMatrix s p n t (B + 2 * t * e), b')) ∧
      ∀ fuel i, createMds p fuel n t i b = none ∨ createMds p fuel n t i b = some (grainMatrix s p n t (B + 2 * t * e), b')
  | 0, B, b, hb, _, h1 => by
    obtain ⟨f0, b', h2, h3, h4⟩ := collect_block h hinf hn (m := 2 * t) hb
    rw [Nat.mul_zero, Nat.add_zero] at h1
    have hinj : Function.Injective fun i : Fin (2 * t) => ((grainBlock s n (B + i) : Nat) : ZMod p) := fun i j => h1.1 i j
    refine ⟨f0, b', by simpa using h2, fun fuel i hf hi => ?_, fun fuel i => ?_⟩
    · obtain ⟨i, rfl⟩ := Nat.exists_eq_add_of_lt hi
      rw [Nat.zero_add, createMds, h3 fuel hf]
      simp only [Option.bind_eq_bind, Option.bind_some]
      rw [if_neg (not_not.2 hinj), if_neg (fun ⟨i, j, hij⟩ => h1.2 i j hij)]
      rfl
    · cases i with
      | zero => exact Or.inl rfl
      | succ i =>
        rw [createMds]
        rcases h4 fuel with h5 | h5
        · left; rw [h5]; rfl
        · right
          rw [h5]
          simp only [Option.bind_eq_bind, Option.bind_some]
          rw [if_neg (not_not.2 hinj), if_neg (fun ⟨i, j, hij⟩ => h1.2 i j hij)]
          rfl
  | e + 1, B, b, hb, h0, h1 => by
    obtain ⟨f0, b1, h2, h3, h4⟩ := collect_block h hinf hn (m := 2 * t) hb
    have hbad : ¬ GrainAdmissible s p n t B := by simpa using h0 0 (Nat.succ_pos _)
    obtain ⟨f1, b', h5, h6, h7⟩ := createMds_at e (B + 2 * t) b1 h2 (fun i hi => by
      have := h0 (i + 1) (by omega)
      rwa [show B + 2 * t * (i + 1) = B + 2 * t + 2 * t * i by ring] at this)
      (by rwa [show B + 2 * t * (e + 1) = B + 2 * t + 2 * t * e by ring] at h1)
    rw [show B + 2 * t + 2 * t * (e + 1) = B + 2 * t * (e + 1 + 1) by ring] at h5
    rw [show B + 2 * t + 2 * t * e = B + 2 * t * (e + 1) by ring] at h6 h7
    have step : ∀ fuel i, collect (randomBits fuel n) (2 * t) b = some (fun i : Fin (2 * t) => grainBlock s n (B + i), b1) →
        createMds p fuel n t (i + 1) b = createMds p fuel n t i b1 := by
      intro fuel i h8
      rw [createMds, h8]
      simp only [Option.bind_eq_bind, Option.bind_some]
      by_cases hinj : Function.Injective fun i : Fin (2 * t) => ((grainBlock s n (B + i) : Nat) : ZMod p)
      · rw [if_neg (not_not.2 hinj)]
        rw [if_pos]
        by_contra hcon
        push Not at hcon
        exact hbad ⟨fun i j hij => hinj hij, hcon⟩
      · rw [if_pos hinj]
    refine ⟨max f0 f1, b', h5, fun fuel i hf hi => ?_, fun fuel i => ?_⟩
    · obtain ⟨i, rfl⟩ := Nat.exists_eq_add_of_lt hi
      rw [step fuel _ (h3 fuel (le_trans (le_max_left _ _) hf))]
      exact h6 fuel _ (le_trans (le_max_right _ _) hf) (by omega)
    · cases i with
      | zero => exact Or.inl rfl
      | succ i =>
        rcases h4 fuel with h8 | h8
        · left; rw [createMds, h8]; rfl
        · rw [step fuel i h8]
          exact h7 fuel i

theorem createMds_never {fuel : Nat} : ∀ (i B : Nat) (b : List Bool), AtBlock s n B b →
    (∀ e, ¬ GrainAdmissible s p n t (B + 2 * t * e)) → createMds p fuel n t i b = none
  | 0, _, _, _, _ => rfl
  | i + 1, B, b, hb, h0 => by
    obtain ⟨f0, b1, h2, h3, h4⟩ := collect_block h hinf hn (m := 2 * t) hb
    have hbad : ¬ GrainAdmissible s p n t B := by simpa using h0 0
    rw [createMds]
    rcases h4 fuel with h8 | h8
    · rw [h8]; rfl
    · have ih := createMds_never (fuel := fuel) i (B + 2 * t) b1 h2 fun e => by
        have := h0 (e + 1)
        rwa [show B + 2 * t * (e + 1) = B + 2 * t + 2 * t * e by ring] at this
      rw [h8]
      simp only [Option.bind_eq_bind, Option.bind_some]
      by_cases hinj : Function.Injective fun i : Fin (2 * t) => ((grainBlock s n (B + i) : Nat) : ZMod p)
      · rw [if_neg (not_not.2 hinj), if_pos]
        · exact ih
        · by_contra hcon
          push Not at hcon
          exact hbad ⟨fun i j hij => hinj hij, hcon⟩
      · rw [if_pos hinj]; exact ih

theorem createMds_sound {fuel i B : Nat} {b : List Bool} (hb : AtBlock s n B b) {M : Matrix (Fin t) (Fin t) (ZMod p)} {b' : List Bool}
    (hx : createMds p fuel n t i b = some (M, b')) :
    ∃ e, (∀ i, i < e → ¬ GrainAdmissible s p n t (B + 2 * t * i)) ∧ GrainAdmissible s p n t (B + 2 * t * e) ∧
      M = grainMatrix s p n t (B + 2 * t * e) ∧ AtBlock s n (B + 2 * t * (e + 1)) b' := by
  by_cases hex : ∃ e, GrainAdmissible s p n t (B + 2 * t * e)
  · classical
    have h1 := Nat.find_spec hex
    have h0 : ∀ i, i < Nat.find hex → ¬ GrainAdmissible s p n t (B + 2 * t * i) := fun i hi => Nat.find_min hex hi
    obtain ⟨f0, b1, h2, h3, h4⟩ := createMds_at h hinf hn _ B b hb h0 h1
    refine ⟨Nat.find hex, h0, h1, ?_⟩
    rcases h4 fuel i with h5 | h5
    · rw [h5] at hx; cases hx
    · rw [h5] at hx
      obtain ⟨rfl, rfl⟩ := Prod.mk.inj (Option.some.inj hx)
      exact ⟨rfl, h2⟩
  · push Not at hex
    rw [createMds_never h hinf hn i B b hb hex] at hx
    cases hx

/-- The matrix passes the three tests. -/
def PassesTests {F : Type} [Field F] {k : Nat} (M : Matrix (Fin (k + 1)) (Fin (k + 1)) F) : Prop :=
  (algorithm1 M).1 = true ∧ algorithm2 M = true ∧ algorithm3 M = true

omit h hinf hn [Fact p.Prime] in
theorem not_passesTests {F : Type} [Field F] {k : Nat} (M : Matrix (Fin (k + 1)) (Fin (k + 1)) F) :
    ((algorithm1 M).1 = false ∨ algorithm2 M = false ∨ algorithm3 M = false) ↔ ¬ PassesTests M := by
  rw [PassesTests]
  cases (algorithm1 M).1 <;> cases algorithm2 M <;> cases algorithm3 M <;> simp

variable {k : Nat}

theorem generateMatrix_sound {fuel : Nat} : ∀ (i B : Nat) (b : List Bool) (M : Matrix (Fin (k + 1)) (Fin (k + 1)) (ZMod p)),
    AtBlock s n B b → generateMatrix p fuel n k i b = some M →
    ∃ e, GrainAdmissible s p n (k + 1) (B + 2 * (k + 1) * e) ∧ M = grainMatrix s p n (k + 1) (B + 2 * (k + 1) * e) ∧ PassesTests M ∧
      ∀ i, i < e → GrainAdmissible s p n (k + 1) (B + 2 * (k + 1) * i) → ¬ PassesTests (grainMatrix s p n (k + 1) (B + 2 * (k + 1) * i))
  | 0, _, _, _, _, hM => by cases hM
  | i + 1, B, b, M, hb, hM => by
    rw [generateMatrix] at hM
    simp only [Option.bind_eq_bind, Option.bind_eq_some_iff] at hM
    obtain ⟨⟨M1, b1⟩, h1, h2⟩ := hM
    dsimp only at h2
    obtain ⟨e, h3, h4, rfl, h5⟩ := createMds_sound h hinf hn hb h1
    by_cases hp : PassesTests (grainMatrix s p n (k + 1) (B + 2 * (k + 1) * e))
    · rw [if_neg (by rw [not_passesTests]; exact not_not.2 hp)] at h2
      obtain rfl := Option.some.inj h2
      exact ⟨e, h4, rfl, hp, fun i hi ha => absurd ha (h3 i hi)⟩
    · rw [if_pos ((not_passesTests _).2 hp)] at h2
      obtain ⟨e', g1, g2, g3, g4⟩ := generateMatrix_sound i _ b1 M h5 h2
      have key : ∀ x, B + 2 * (k + 1) * (e + 1) + 2 * (k + 1) * x = B + 2 * (k + 1) * (e + 1 + x) := fun x => by ring
      rw [key] at g1 g2
      refine ⟨e + 1 + e', g1, g2, g3, fun i hi ha => ?_⟩
      rcases lt_trichotomy i e with hlt | rfl | hgt
      · exact absurd ha (h3 i hlt)
      · exact hp
      · obtain ⟨x, rfl⟩ := Nat.exists_eq_add_of_lt hgt
        have := g4 x (by omega)
        rw [key, show e + 1 + x = e + x + 1 by omega] at this
        exact this ha

/-- When the first attempt is good the matrix is returned. -/
theorem generateMatrix_first {B : Nat} {b : List Bool} (hb : AtBlock s n B b) (ha : GrainAdmissible s p n (k + 1) B)
    (hp : PassesTests (grainMatrix s p n (k + 1) B)) :
    ∃ f0, ∀ fuel, f0 ≤ fuel → generateMatrix p fuel n k fuel b = some (grainMatrix s p n (k + 1) B) := by
  obtain ⟨f0, b', h1, h2, h3⟩ := createMds_at h hinf hn 0 B b hb (fun i hi => absurd hi (by omega)) (by simpa using ha)
  rw [Nat.mul_zero, Nat.add_zero] at h2
  refine ⟨f0 + 1, fun fuel hf => ?_⟩
  obtain ⟨i, rfl⟩ : ∃ i, fuel = i + 1 := ⟨fuel - 1, by omega⟩
  rw [generateMatrix, h2 (i + 1) (i + 1) (by omega) (by omega)]
  simp only [Option.bind_eq_bind, Option.bind_some]
  rw [if_neg (by rw [not_passesTests]; exact not_not.2 hp)]
  rfl

/-- When some attempt is good a matrix is returned. -/
theorem generateMatrix_complete : ∀ (e B : Nat) (b : List Bool), AtBlock s n B b → GrainAdmissible s p n (k + 1) (B + 2 * (k + 1) * e) →
    PassesTests (grainMatrix s p n (k + 1) (B + 2 * (k + 1) * e)) →
    ∃ f0, ∀ fuel i, f0 ≤ fuel → f0 ≤ i → ∃ M, generateMatrix p fuel n k i b = some M := by
  intro e
  induction e using Nat.strongRecOn with
  | ind e ih =>
    intro B b hb ha hp
    classical
    have hex : ∃ e, GrainAdmissible s p n (k + 1) (B + 2 * (k + 1) * e) := ⟨e, ha⟩
    have hle : Nat.find hex ≤ e := Nat.find_min' hex ha
    obtain ⟨f1, b1, h1, h2, -⟩ := createMds_at h hinf hn _ B b hb (fun i hi => Nat.find_min hex hi) (Nat.find_spec hex)
    by_cases hp1 : PassesTests (grainMatrix s p n (k + 1) (B + 2 * (k + 1) * Nat.find hex))
    · refine ⟨max (f1 + 1) (Nat.find hex + 1), fun fuel i hf hi => ?_⟩
      have g1 : f1 + 1 ≤ fuel := le_trans (le_max_left _ _) hf
      have g2 : Nat.find hex + 1 ≤ fuel := le_trans (le_max_right _ _) hf
      have g3 : f1 + 1 ≤ i := le_trans (le_max_left _ _) hi
      obtain ⟨i, rfl⟩ : ∃ i', i = i' + 1 := ⟨i - 1, by omega⟩
      rw [generateMatrix, h2 fuel fuel (by omega) (by omega)]
      simp only [Option.bind_eq_bind, Option.bind_some]
      rw [if_neg (by rw [not_passesTests]; exact not_not.2 hp1)]
      exact ⟨_, rfl⟩
    · have hlt : Nat.find hex < e := lt_of_le_of_ne hle fun he => hp1 (by rw [he]; exact hp)
      have key : B + 2 * (k + 1) * (Nat.find hex + 1) + 2 * (k + 1) * (e - Nat.find hex - 1) = B + 2 * (k + 1) * e := by
        rw [Nat.add_assoc, ← Nat.mul_add]; congr 2; omega
      obtain ⟨f2, h3⟩ := ih (e - Nat.find hex - 1) (by omega) _ b1 h1 (by rw [key]; exact ha) (by rw [key]; exact hp)
      refine ⟨max (f1 + f2 + 1) (Nat.find hex + 1), fun fuel i hf hi => ?_⟩
      have g1 : f1 + f2 + 1 ≤ fuel := le_trans (le_max_left _ _) hf
      have g2 : Nat.find hex + 1 ≤ fuel := le_trans (le_max_right _ _) hf
      have g3 : f1 + f2 + 1 ≤ i := le_trans (le_max_left _ _) hi
      obtain ⟨i, rfl⟩ : ∃ i', i = i' + 1 := ⟨i - 1, by omega⟩
      rw [generateMatrix, h2 fuel fuel (by omega) (by omega)]
      simp only [Option.bind_eq_bind, Option.bind_some]
      rw [if_pos ((not_passesTests _).2 hp1)]
      exact h3 fuel i (by omega) (by omega)

omit h hinf hn in
theorem grainMatrix_isMDS {B : Nat} (ha : GrainAdmissible s p n t B) : IsMDS (grainMatrix s p n t B) := by
  refine cauchy_isMDS _ _ (fun i j hij => ?_) (fun i j hij => ?_) ha.2
  · have := ha.1 ⟨i, by omega⟩ ⟨j, by omega⟩ hij
    exact Fin.ext (by simpa using this)
  · have := ha.1 ⟨t + i, by omega⟩ ⟨t + j, by omega⟩ hij
    exact Fin.ext (by simpa using this)

omit h hinf hn in
/-- There are not enough elements for a wide matrix. -/
theorem not_admissible {B : Nat} (hp : p < 2 * t) : ¬ GrainAdmissible s p n t B := by
  intro ha
  have := Fintype.card_le_of_injective (fun i : Fin (2 * t) => ((grainBlock s n (B + i) : Nat) : ZMod p)) fun i j => ha.1 i j
  rw [Fintype.card_fin, ZMod.card] at this
  omega

end Poseidon
