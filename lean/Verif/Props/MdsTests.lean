import Verif.Proofs.MdsTestsCert
import Verif.Props.Trail

/-!
# The matrix tests of the Poseidon authors (C71)

The authors' script draws matrices until one passes three tests against long subspace trails.  The generator of this repository takes the
Cauchy matrix `1 / (i + j + t)` and runs none of them.
-/

set_option linter.unusedSectionVars false

namespace Poseidon

open Matrix

/-! ## What the tests decide -/

/-- **C71, test 1.** For an invertible matrix, the first test accepts exactly if word 0 observes every non-zero difference within fewer than
`t` multiplications. -/
theorem C71_test1_iff {F : Type} [Field F] {k : Nat} (M : Matrix (Fin (k + 1)) (Fin (k + 1)) F) (hM : IsUnit M.det) :
    (algorithm1 M).1 = true ↔ ∀ x : Fin (k + 1) → F, x ≠ 0 → ∃ n, n < k + 1 ∧ (M ^ n).mulVec x 0 ≠ 0 := by
  have e : NoInactiveTrail M ↔ ∀ x : Fin (k + 1) → F, x ≠ 0 → ∃ n, n < k + 1 ∧ (M ^ n).mulVec x 0 ≠ 0 := by
    constructor
    · intro h x hx
      obtain ⟨n, hn, i, hi, h1⟩ := h x hx
      rw [show i = 0 from Fin.ext hi] at h1
      exact ⟨n, hn, h1⟩
    · intro h x hx
      obtain ⟨n, hn, h1⟩ := h x hx
      exact ⟨n, hn, 0, rfl, h1⟩
  rw [← e]
  constructor
  · intro h
    exact noInactiveTrail_of_algorithm1 hM (c := (algorithm1 M).2) (Prod.ext h rfl)
  · intro h
    rw [algorithm1_of_noInactiveTrail h]

/-- **C71, test 2.** The second test accepts exactly if the multiples of the state `(1, 0, …, 0)` by the powers of the matrix span all
states. -/
theorem C71_test2_iff {F : Type} [Field F] {k : Nat} (M : Matrix (Fin (k + 1)) (Fin (k + 1)) F) :
    algorithm2 M = true ↔ Submodule.span F (Set.range fun n : Nat => (M ^ n).mulVec (Pi.single 0 1)) = ⊤ := algorithm2_iff

/-- **C71, test 3.** The third test accepts exactly if that holds for the `r`-th power of the matrix, `2 ≤ r ≤ 4t`. -/
theorem C71_test3_iff {F : Type} [Field F] {k : Nat} (M : Matrix (Fin (k + 1)) (Fin (k + 1)) F) :
    algorithm3 M = true ↔ ∀ r, 2 ≤ r → r ≤ 4 * (k + 1) →
      Submodule.span F (Set.range fun n : Nat => ((M ^ r) ^ n).mulVec (Pi.single 0 1)) = ⊤ := algorithm3_iff

/-- Non-vacuity: the identity fails all three tests for two words. -/
example : (algorithm1 (1 : Matrix (Fin 2) (Fin 2) Fq)).1 = false ∧ algorithm2 (1 : Matrix (Fin 2) (Fin 2) Fq) = false ∧
    algorithm3 (1 : Matrix (Fin 2) (Fin 2) Fq) = false := by
  have hx : ∀ n, ((1 : Matrix (Fin 2) (Fin 2) Fq) ^ n).mulVec (Pi.single 1 1) 0 = 0 := by
    intro n; rw [one_pow, Matrix.one_mulVec]; rfl
  have h2 : ¬ Submodule.span Fq (Set.range fun n : Nat => ((1 : Matrix (Fin 2) (Fin 2) Fq) ^ n).mulVec (Pi.single 0 1)) = ⊤ := by
    intro h
    have h1 : (Pi.single 1 1 : Fin 2 → Fq) ∈
        Submodule.span Fq (Set.range fun n : Nat => ((1 : Matrix (Fin 2) (Fin 2) Fq) ^ n).mulVec (Pi.single 0 1)) := by
      rw [h]; trivial
    have h3 : Submodule.span Fq (Set.range fun n : Nat => ((1 : Matrix (Fin 2) (Fin 2) Fq) ^ n).mulVec (Pi.single 0 1)) ≤
        LinearMap.ker (LinearMap.proj (R := Fq) (φ := fun _ : Fin 2 => Fq) 1) := by
      rw [Submodule.span_le]
      rintro _ ⟨n, rfl⟩
      rw [SetLike.mem_coe, LinearMap.mem_ker]
      dsimp only
      rw [one_pow, Matrix.one_mulVec]
      rfl
    have h4 : (Pi.single 1 1 : Fin 2 → Fq) 1 = 0 := h3 h1
    rw [Pi.single_eq_same] at h4
    exact one_ne_zero h4
  refine ⟨?_, ?_, ?_⟩
  · rw [← Bool.not_eq_true, C71_test1_iff _ (by rw [Matrix.det_one]; exact isUnit_one)]
    intro h
    obtain ⟨n, -, h1⟩ := h (Pi.single 1 1) (fun h0 => one_ne_zero (α := Fq) (by simpa using congrFun h0 1))
    exact h1 (hx n)
  · rw [← Bool.not_eq_true, C71_test2_iff]; exact h2
  · rw [← Bool.not_eq_true, C71_test3_iff]
    intro h
    apply h2
    have := h 2 (le_refl _) (by norm_num)
    rwa [one_pow] at this

/-! ## The Cauchy matrix -/

theorem cauchy_transpose {F : Type} [Field F] (t : Nat) : (cauchyMds F t)ᵀ = cauchyMds F t := by
  ext i j
  rw [Matrix.transpose_apply, cauchyMds, Matrix.of_apply, Matrix.of_apply, Nat.add_comm j.val i.val]

section
variable {F : Type} [Field F] [DecidableEq F] {k : Nat}

theorem cauchy_cyclic {p : Nat} [CharP F p] (hb : 128 ≤ numBits p) (h2 : 2 ≤ k + 1) (h8 : k + 1 ≤ 8) : Cyclic (cauchyMds F (k + 1)) := by
  apply cyclic_of_noInactiveTrail
  rw [cauchy_transpose]
  exact cauchy_noInactiveTrail (p := p) hb h2 h8

theorem small_ne_zero {p : Nat} [CharP F p] (hb : 128 ≤ numBits p) {n : Nat} (h0 : 0 < n) (hn : n < 2 ^ 127) : (n : F) ≠ 0 := by
  intro h
  have h1 := Nat.le_of_dvd h0 ((CharP.cast_eq_zero_iff F p n).1 h)
  have h2 := numBits_ge hb
  omega

theorem prod_ne_zero {p : Nat} [CharP F p] (hb : 128 ≤ numBits p) (l : List Nat) (h : ∀ n ∈ l, 0 < n ∧ n < 2 ^ 127) :
    ((l.prod : Nat) : F) ≠ 0 := by
  induction l with
  | nil => rw [List.prod_nil, Nat.cast_one]; exact one_ne_zero
  | cons a l ih =>
    rw [List.prod_cons, Nat.cast_mul]
    have ha := h a List.mem_cons_self
    exact mul_ne_zero (small_ne_zero (p := p) hb ha.1 ha.2) (ih fun n hn => h n (List.mem_cons_of_mem _ hn))

/-- All factors of the denominators are below `2^127`. -/
def smallFactors (den : List (List Nat)) : Bool := den.all fun l => l.all fun n => Nat.ble 1 n && Nat.ble (n + 1) (2 ^ 127)

theorem den_ne_zero {p : Nat} [CharP F p] (hb : 128 ≤ numBits p) {den : List (List Nat)} (h : smallFactors den = true) (r : Nat) :
    (((nthL den r).prod : Nat) : F) ≠ 0 := by
  apply prod_ne_zero (p := p) hb
  intro n hn
  rw [nthL_eq, List.getD_eq_getElem?_getD] at hn
  cases hr : den[r]? with
  | none => rw [hr, Option.getD_none] at hn; cases hn
  | some l =>
    rw [hr, Option.getD_some] at hn
    have h1 := List.all_eq_true.1 (List.all_eq_true.1 h l (List.mem_of_getElem? hr)) n hn
    rw [Bool.and_eq_true] at h1
    exact ⟨Nat.le_of_ble_eq_true h1.1, Nat.le_of_ble_eq_true h1.2⟩

end

/-! ## The shipped matrices -/

theorem shipped_test3 (i : Fin 7) : algorithm3 (cauchyMds Fq (i.val + 1 + 1)) = true := by
  have hb : 128 ≤ numBits q := by decide +kernel
  have hq : ((q : Nat) : Fq) = 0 := CharP.cast_eq_zero Fq q
  have hden : ∀ (t r : Nat), r < t → (((nthL [] r).prod : Nat) : Fq) ≠ 0 := fun _ r _ => den_ne_zero (p := q) hb rfl r
  have hc := cauchy_cyclic (F := Fq) (k := i.val + 1) hb (by omega) (by omega)
  have hl : ∀ l : Nat, 0 < l → l < 2 ^ 127 → (l : Fq) ≠ 0 := fun l h1 h2 => small_ne_zero (p := q) hb h1 h2
  fin_cases i
  · exact algorithm3_of_check (l := 12) (pos := mdsCoef2) (neg := []) (by norm_num) (by decide +kernel) (hl _ (by norm_num) (by norm_num)) hq (hden _) hc
  · exact algorithm3_of_check (l := 420) (pos := mdsCoef3) (neg := []) (by norm_num) (by decide +kernel) (hl _ (by norm_num) (by norm_num)) hq (hden _) hc
  · exact algorithm3_of_check (l := 2520) (pos := mdsCoef4) (neg := []) (by norm_num) (by decide +kernel) (hl _ (by norm_num) (by norm_num)) hq (hden _) hc
  · exact algorithm3_of_check (l := 360360) (pos := mdsCoef5) (neg := []) (by norm_num) (by decide +kernel) (hl _ (by norm_num) (by norm_num)) hq (hden _) hc
  · exact algorithm3_of_check (l := 720720) (pos := mdsCoef6) (neg := []) (by norm_num) (by decide +kernel) (hl _ (by norm_num) (by norm_num)) hq (hden _) hc
  · exact algorithm3_of_check (l := 232792560) (pos := mdsCoef7) (neg := []) (by norm_num) (by decide +kernel) (hl _ (by norm_num) (by norm_num)) hq (hden _) hc
  · exact algorithm3_of_check (l := 232792560) (pos := mdsCoef8) (neg := []) (by norm_num) (by decide +kernel) (hl _ (by norm_num) (by norm_num)) hq (hden _) hc

/-- **C71, shipped parameters.** The shipped matrices of all seven rates pass the three tests. -/
theorem C71_shipped (i : Fin 7) :
    algorithm1 ((shippedParams i).mds.toM rfl) = (true, 0) ∧ algorithm2 ((shippedParams i).mds.toM rfl) = true ∧
      algorithm3 ((shippedParams i).mds.toM rfl) = true := by
  have hb : 128 ≤ numBits q := by decide +kernel
  rw [shipped_mds_cauchy i]
  exact ⟨algorithm1_of_noInactiveTrail (cauchy_noInactiveTrail (p := q) hb (by omega) (by omega)),
    algorithm2_iff.2 (cauchy_cyclic (p := q) hb (by omega) (by omega)), shipped_test3 i⟩

/-! ## Generated matrices -/

section
variable {F : Type} [Field F] [DecidableEq F] {k rows nmds nhat nround npart : Nat}

/-- **C71, generated parameters.** Whatever `v1::generate` returns passes the first two tests; widths 2 and 3 also pass the third. -/
theorem C71_generated {L : Libm} {debug : Bool} {nlimbs p security : Nat} [CharP F p] {allow : Bool}
    {P : Params F (k + 1) k nmds nhat rows (k + 1) nround npart} (g : GeneratedBy L debug nlimbs p security allow P) :
    algorithm1 (P.mds.toM g.nmds_eq) = (true, 0) ∧ algorithm2 (P.mds.toM g.nmds_eq) = true ∧
      (k + 1 ≤ 3 → algorithm3 (P.mds.toM g.nmds_eq) = true) := by
  have r := v1Generate_result g.accurate g.log2_two debug g.limbs g.bits g.nmds_eq g.nhat_eq g.nround_eq g.run
  have hb := r.bits
  have hw := r.width
  rw [r.mds]
  have hc := cauchy_cyclic (F := F) (k := k) (p := p) hb hw.1 hw.2
  refine ⟨algorithm1_of_noInactiveTrail (cauchy_noInactiveTrail (p := p) hb hw.1 hw.2), algorithm2_iff.2 hc, fun h3 => ?_⟩
  have hl : ∀ l : Nat, 0 < l → l < 2 ^ 127 → (l : F) ≠ 0 := fun l h1 h2 => small_ne_zero (p := p) hb h1 h2
  obtain rfl | rfl : k = 1 ∨ k = 2 := by omega
  · exact algorithm3_of_check (l := 12) (m := 0) (den := mdsDen2) (pos := mdsPos2) (neg := mdsNeg2) (by norm_num) (by decide +kernel)
      (hl _ (by norm_num) (by norm_num)) Nat.cast_zero (fun r _ => den_ne_zero (p := p) hb (by decide +kernel) r) hc
  · exact algorithm3_of_check (l := 420) (m := 0) (den := mdsDen3) (pos := mdsPos3) (neg := mdsNeg3) (by norm_num) (by decide +kernel)
      (hl _ (by norm_num) (by norm_num)) Nat.cast_zero (fun r _ => den_ne_zero (p := p) hb (by decide +kernel) r) hc

end

/-- Non-vacuity of `C71_generated`: the shipped parameters are generated. -/
example (i : Fin 7) : GeneratedBy roundedLibm true 4 q 128 true (shippedParams i) :=
  ⟨roundedLibm_accurate, by
    show rne (Real.logb 2 2) = 1
    rw [Real.logb_self_eq_one (by norm_num)]
    simpa using rne_natCast (n := 1) (by norm_num), by norm_num, by decide +kernel, rfl, rfl, rfl,
    C20_shipped _ roundedLibm_accurate true true i⟩

/-! ## A field whose matrix the authors would reject -/

theorem prime_9507096040609681 : Nat.Prime 9507096040609681 := by
  apply lucas_of_check _ 11 [(2, 4), (3, 1), (5, 1), (293, 1), (719, 1), (1213, 1), (155017, 1)] (by decide +kernel) (by decide +kernel)
  · intro f hf
    fin_cases hf <;> norm_num
  · decide +kernel
  · decide +kernel
  · decide +kernel

theorem prime_2433816586396078337 : Nat.Prime 2433816586396078337 := by
  apply lucas_of_check _ 3 [(2, 8), (9507096040609681, 1)] (by decide +kernel) (by decide +kernel)
  · intro f hf
    fin_cases hf <;> first | exact prime_9507096040609681 | norm_num
  · decide +kernel
  · decide +kernel
  · decide +kernel

theorem prime_20661026051 : Nat.Prime 20661026051 := by
  apply lucas_of_check _ 7 [(2, 1), (5, 2), (7, 1), (59031503, 1)] (by decide +kernel) (by decide +kernel)
  · intro f hf
    fin_cases hf <;> norm_num
  · decide +kernel
  · decide +kernel
  · decide +kernel

theorem prime_455184759133717183 : Nat.Prime 455184759133717183 := by
  apply lucas_of_check _ 10 [(2, 1), (3, 3), (17, 1), (103, 1), (233, 1), (20661026051, 1)] (by decide +kernel) (by decide +kernel)
  · intro f hf
    fin_cases hf <;> first | exact prime_20661026051 | norm_num
  · decide +kernel
  · decide +kernel
  · decide +kernel

theorem prime_1820739036534868733 : Nat.Prime 1820739036534868733 := by
  apply lucas_of_check _ 2 [(2, 2), (455184759133717183, 1)] (by decide +kernel) (by decide +kernel)
  · intro f hf
    fin_cases hf <;> first | exact prime_455184759133717183 | norm_num
  · decide +kernel
  · decide +kernel
  · decide +kernel

theorem prime_65546605315255274389 : Nat.Prime 65546605315255274389 := by
  apply lucas_of_check _ 2 [(2, 2), (3, 2), (1820739036534868733, 1)] (by decide +kernel) (by decide +kernel)
  · intro f hf
    fin_cases hf <;> first | exact prime_1820739036534868733 | norm_num
  · decide +kernel
  · decide +kernel
  · decide +kernel

theorem p172_prime : Nat.Prime p172 := by
  apply lucas_of_check _ 2 [(2, 2), (3, 1), (307, 1), (401, 1), (463, 1), (46147, 1), (2433816586396078337, 1), (65546605315255274389, 1)]
    (by decide +kernel) (by decide +kernel)
  · intro f hf
    fin_cases hf <;> first | exact prime_2433816586396078337 | exact prime_65546605315255274389 | norm_num
  · decide +kernel
  · decide +kernel
  · decide +kernel

instance : Fact (Nat.Prime p172) := ⟨p172_prime⟩

/-- **C71, limit.** Over the field of this 172-bit prime order, `v1::generate` returns parameters for width 5 at every security level up to
256, and their matrix fails the third test: the authors' script would have drawn another one. -/
theorem C71_rejected (L : Libm) (hL : L.Accurate) (hl2 : L.log2 2 = 1) (debug : Bool) (nlimbs : Nat) (hn : nlimbs < 2 ^ 28)
    (security : Nat) (hs : security ≤ 256) (allow : Bool) :
    ∃ rows npart, ∃ P : Params (ZMod p172) 5 4 25 16 rows 5 (rows * 5) npart,
      v1Generate L debug (ZMod p172) nlimbs 4 25 16 rows (rows * 5) npart security p172 allow = .ok P ∧
      algorithm3 (P.mds.toM rfl) = false := by
  have hb : 128 ≤ numBits p172 := by decide +kernel
  have hb' : numBits p172 < 2 ^ 32 := by decide +kernel
  obtain ⟨rows, npart, P, h⟩ := (C50_succeeds_iff (F := ZMod p172) (k := 4) (nmds := 25) (nhat := 16) L hL hl2 debug nlimbs hn p172
    p172_prime hb' security allow rfl rfl).2 ⟨hs, ⟨by norm_num, by norm_num⟩, numBits_ge hb, Or.inr (by
      rw [← find_none_iff]
      decide +kernel)⟩
  refine ⟨rows, npart, P, h, ?_⟩
  have r := v1Generate_result (F := ZMod p172) (k := 4) hL hl2 debug hn hb' rfl rfl rfl h
  rw [r.mds]
  exact algorithm3_fails (l := 360360) (m := p172) (r := 3) (n := 3) (pos := mdsDep5) (by decide +kernel) (by norm_num) (by norm_num)
    (by norm_num) (small_ne_zero (p := p172) hb (by norm_num) (by norm_num)) (CharP.cast_eq_zero _ _)

/-- Non-vacuity of `C71_rejected`. -/
example : ∃ rows npart, ∃ P : Params (ZMod p172) 5 4 25 16 rows 5 (rows * 5) npart,
    v1Generate roundedLibm true (ZMod p172) 3 4 25 16 rows (rows * 5) npart 128 p172 false = .ok P ∧
    algorithm3 (P.mds.toM rfl) = false :=
  C71_rejected roundedLibm roundedLibm_accurate (by
    show rne (Real.logb 2 2) = 1
    rw [Real.logb_self_eq_one (by norm_num)]
    simpa using rne_natCast (n := 1) (by norm_num)) true 3 (by norm_num) 128 (by norm_num) false

end Poseidon
