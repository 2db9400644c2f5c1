import Verif.Model.MdsTests
import Verif.Proofs.Trail
import Mathlib.LinearAlgebra.Dual.Lemmas

/-! # What the matrix tests of the Poseidon authors decide -/

namespace Poseidon

open Module Matrix

variable {F : Type} [Field F] {k : Nat} {M : Matrix (Fin (k + 1)) (Fin (k + 1)) F}

/-- The state with a one in word 0 -/
def e0 (F : Type) [Field F] (k : Nat) : Fin (k + 1) → F := Pi.single 0 1

/-- The multiples of `e0` by the powers of `M` -/
def orbit (M : Matrix (Fin (k + 1)) (Fin (k + 1)) F) (n : Nat) : Fin (k + 1) → F := (M ^ n).mulVec (e0 F k)

/-- Every state is a combination of the `M ^ n e0`. -/
def Cyclic (M : Matrix (Fin (k + 1)) (Fin (k + 1)) F) : Prop := Submodule.span F (Set.range (orbit M)) = ⊤

theorem orbit_zero : orbit M 0 = e0 F k := by rw [orbit, pow_zero, Matrix.one_mulVec]

theorem orbit_succ (n : Nat) : M.mulVec (orbit M n) = orbit M (n + 1) := by
  rw [orbit, orbit, Matrix.mulVec_mulVec, pow_succ']

theorem orbit_add (m n : Nat) : (M ^ m).mulVec (orbit M n) = orbit M (m + n) := by
  rw [orbit, orbit, Matrix.mulVec_mulVec, pow_add]

theorem orbit_pow (r n : Nat) : orbit (M ^ r) n = orbit M (r * n) := by rw [orbit, orbit, pow_mul]

/-! ## Test 2 -/

/-- The space the loop of test 2 holds after `n` iterations -/
def orbitSpan (M : Matrix (Fin (k + 1)) (Fin (k + 1)) F) (n : Nat) : Submodule F (Fin (k + 1) → F) :=
  Submodule.span F (orbit M '' Set.Iic n)

theorem orbitSpan_succ (n : Nat) : orbitSpan M (n + 1) = orbitSpan M n ⊔ Submodule.span F {orbit M (n + 1)} := by
  have : Set.Iic (n + 1) = Set.Iic n ∪ {n + 1} := by
    ext m; simp only [Set.mem_Iic, Set.union_singleton, Set.mem_insert_iff]; omega
  rw [orbitSpan, this, Set.image_union, Submodule.span_union, Set.image_singleton, orbitSpan]

theorem orbitSpan_le (n : Nat) : orbitSpan M n ≤ Submodule.span F (Set.range (orbit M)) :=
  Submodule.span_mono (Set.image_subset_range _ _)

/-- A space with `e0` in it and closed under `M` contains all multiples. -/
theorem span_le_of_closed {U : Submodule F (Fin (k + 1) → F)} (h0 : e0 F k ∈ U) (hc : ∀ x ∈ U, M.mulVec x ∈ U) :
    Submodule.span F (Set.range (orbit M)) ≤ U := by
  rw [Submodule.span_le]
  rintro _ ⟨n, rfl⟩
  induction n with
  | zero => rw [orbit_zero]; exact h0
  | succ n ih => rw [← orbit_succ]; exact hc _ ih

/-- A span is closed under `M` if its generators are mapped into it. -/
theorem closed_of_gen {ι : Type} {g : ι → Fin (k + 1) → F} {s : Set ι}
    (h : ∀ i ∈ s, M.mulVec (g i) ∈ Submodule.span F (g '' s)) : ∀ x ∈ Submodule.span F (g '' s), M.mulVec x ∈ Submodule.span F (g '' s) := by
  intro x hx
  have h1 : Submodule.span F (g '' s) ≤ (Submodule.span F (g '' s)).comap M.mulVecLin := by
    rw [Submodule.span_le]
    rintro _ ⟨i, hi, rfl⟩
    exact h i hi
  exact h1 hx

theorem orbitSpan_stable {n : Nat} (h : orbit M (n + 1) ∈ orbitSpan M n) :
    Submodule.span F (Set.range (orbit M)) ≤ orbitSpan M n := by
  apply span_le_of_closed
  · rw [← orbit_zero]; exact Submodule.subset_span ⟨0, Nat.zero_le _, rfl⟩
  · apply closed_of_gen
    intro m hm
    rw [orbit_succ]
    rcases Nat.lt_or_ge m n with h1 | h1
    · exact Submodule.subset_span ⟨m + 1, h1, rfl⟩
    · have : m = n := le_antisymm hm h1
      rw [this]; exact h

theorem algorithm2Loop_iff (n : Nat) : algorithm2Loop M (orbitSpan M n) (orbit M n) = true ↔ Cyclic M := by
  have hfull : Submodule.span F (Set.range fun i : Fin (k + 1) => (Pi.single i 1 : Fin (k + 1) → F)) = ⊤ := by
    have := (Pi.basisFun F (Fin (k + 1))).span_eq
    rw [← this]; congr 1
    ext x; simp
  generalize hd : k + 1 - finrank F (orbitSpan M n) = d
  induction d using Nat.strong_induction_on generalizing n with
  | _ d ih =>
    rw [algorithm2Loop]
    simp only [hfull, inf_top_eq, ne_eq, not_true_eq_false, or_false]
    have hs : orbitSpan M n ⊔ Submodule.span F {M.mulVec (orbit M n)} = orbitSpan M (n + 1) := by rw [orbit_succ, orbitSpan_succ]
    rw [hs, orbit_succ]
    split_ifs with h1 h2
    · simp only [true_iff]
      have : orbitSpan M (n + 1) = ⊤ := Submodule.eq_top_of_finrank_eq (by rw [h1, finrank_fin_fun])
      rw [Cyclic, eq_top_iff, ← this]
      exact orbitSpan_le _
    · rw [false_iff]
      intro hc
      have hle : orbitSpan M n ≤ orbitSpan M (n + 1) := by rw [orbitSpan_succ]; exact le_sup_left
      have heq : orbitSpan M n = orbitSpan M (n + 1) := Submodule.eq_of_le_of_finrank_le hle h2
      have hmem : orbit M (n + 1) ∈ orbitSpan M n := by
        rw [heq]; exact Submodule.subset_span ⟨n + 1, Set.mem_Iic.2 (le_refl _), rfl⟩
      have h3 := orbitSpan_stable hmem
      rw [Cyclic] at hc
      rw [hc, top_le_iff, heq] at h3
      apply h1
      rw [h3, finrank_top, finrank_fin_fun]
    · have h3 := Submodule.finrank_le (R := F) (orbitSpan M (n + 1))
      rw [finrank_fin_fun] at h3
      exact ih _ (by omega) (n + 1) rfl

theorem algorithm2_iff : algorithm2 M = true ↔ Cyclic M := by
  rw [← algorithm2Loop_iff 0]
  have : orbitSpan M 0 = Submodule.span F {e0 F k} := by
    rw [orbitSpan]
    have : Set.Iic 0 = ({0} : Set Nat) := by ext; simp
    rw [this, Set.image_singleton, orbit_zero]
  rw [this, orbit_zero]
  rfl

/-! ## Test 3 -/

theorem algorithm3_iff : algorithm3 M = true ↔ ∀ r, 2 ≤ r → r ≤ 4 * (k + 1) → Cyclic (M ^ r) := by
  rw [algorithm3, List.all_eq_true]
  simp only [algorithm2_iff, List.mem_range'_1]
  exact ⟨fun h r h1 h2 => h r ⟨h1, by omega⟩, fun h r hr => h r hr.1 (by omega)⟩

/-- If `M e0` is a combination of the multiples by powers of `M ^ r`, they span what the multiples by powers of `M` span. -/
theorem cyclic_pow {r : Nat} (hc : Cyclic M) (h : orbit M 1 ∈ Submodule.span F (Set.range (orbit (M ^ r)))) : Cyclic (M ^ r) := by
  rw [Cyclic, eq_top_iff, ← show _ = ⊤ from hc]
  apply span_le_of_closed
  · exact Submodule.subset_span ⟨0, orbit_zero⟩
  · have hg := closed_of_gen (M := M) (g := orbit (M ^ r)) (s := Set.univ)
    rw [Set.image_univ] at hg
    apply hg
    rintro n -
    rw [orbit_pow, orbit_succ, ← orbit_add (r * n) 1, pow_mul]
    have h1 : Submodule.span F (Set.range (orbit (M ^ r))) ≤
        (Submodule.span F (Set.range (orbit (M ^ r)))).comap (((M ^ r) ^ n).mulVecLin) := by
      rw [Submodule.span_le]
      rintro _ ⟨m, rfl⟩
      rw [SetLike.mem_coe, Submodule.mem_comap, Matrix.mulVecLin_apply, orbit_add]
      exact Submodule.subset_span ⟨n + m, rfl⟩
    exact h1 h

/-- If one of the first `k` multiples by powers of `M` is a combination of the ones before it, they do not span everything. -/
theorem not_cyclic {n : Nat} (hn : n < k) (h : orbit M (n + 1) ∈ orbitSpan M n) : ¬ Cyclic M := by
  intro hc
  have h1 := orbitSpan_stable h
  rw [show Submodule.span F (Set.range (orbit M)) = ⊤ from hc, top_le_iff] at h1
  have h2 : finrank F (orbitSpan M n) = k + 1 := by rw [h1, finrank_top, finrank_fin_fun]
  have h3 : orbitSpan M n = Submodule.span F (Set.range fun i : Fin (n + 1) => orbit M i) := by
    rw [orbitSpan]; congr 1
    ext x; constructor
    · rintro ⟨m, hm, rfl⟩; exact ⟨⟨m, Nat.lt_succ_of_le hm⟩, rfl⟩
    · rintro ⟨m, rfl⟩; exact ⟨m, Nat.le_of_lt_succ m.isLt, rfl⟩
  rw [h3] at h2
  have h4 := finrank_range_le_card (R := F) (fun i : Fin (n + 1) => orbit M i)
  rw [Set.finrank, h2, Fintype.card_fin] at h4
  omega

/-! ## Observability of word 0 -/

theorem orbit_dot (x : Fin (k + 1) → F) (n : Nat) : x ⬝ᵥ orbit M n = (Mᵀ ^ n).mulVec x 0 := by
  rw [orbit, Matrix.dotProduct_mulVec, e0, dotProduct_single, mul_one, ← Matrix.mulVec_transpose, Matrix.transpose_pow]

/-- Word 0 observes every difference under `Mᵀ` exactly if the multiples of `e0` span everything. -/
theorem cyclic_of_noInactiveTrail (h : NoInactiveTrail Mᵀ) : Cyclic M := by
  by_contra hc
  obtain ⟨f, hf, hle⟩ := Submodule.exists_le_ker_of_lt_top _ (lt_top_iff_ne_top.2 hc)
  set x : Fin (k + 1) → F := fun i => f (Pi.single i 1) with hx
  have hfx : ∀ y, f y = x ⬝ᵥ y := by
    intro y
    rw [LinearMap.pi_apply_eq_sum_univ f y, _root_.dotProduct]
    refine Finset.sum_congr rfl fun i _ => ?_
    rw [smul_eq_mul, mul_comm, hx]
    congr 2
    ext j
    simp [Pi.single_apply, eq_comm]
  obtain ⟨n, -, i, hi, hne⟩ := h x (by
    intro h0
    apply hf
    ext i
    simpa [h0] using hfx (Pi.single i 1))
  have hi0 : i = 0 := Fin.ext hi
  apply hne
  rw [hi0, ← orbit_dot, ← hfx]
  exact hle (Submodule.subset_span ⟨n, rfl⟩)

/-! ## Test 1 -/

theorem mem_generateVectorspace (i : Nat) (x : Fin (k + 1) → F) :
    x ∈ generateVectorspace M i ↔ ∀ j, j < i → (M ^ j).mulVec x 0 = 0 := by
  let T (i : Nat) : Submodule F (Fin (k + 1) → F) :=
    { carrier := {x | ∀ j, j < i → (M ^ j).mulVec x 0 = 0}
      add_mem' := by
        intro a b ha hb j hj
        rw [Matrix.mulVec_add, Pi.add_apply, ha j hj, hb j hj, add_zero]
      zero_mem' := by intro j _; rw [Matrix.mulVec_zero]; rfl
      smul_mem' := by
        intro c a ha j hj
        rw [Matrix.mulVec_smul, Pi.smul_apply, ha j hj, smul_zero] }
  suffices h : generateVectorspace M i = T i by rw [h]; rfl
  match i with
  | 0 =>
    symm
    rw [generateVectorspace, eq_top_iff]
    intro x _ j hj
    exact absurd hj (Nat.not_lt_zero j)
  | 1 =>
    rw [generateVectorspace]
    apply le_antisymm
    · rw [Submodule.span_le]
      rintro _ ⟨i, rfl⟩ j hj
      obtain rfl : j = 0 := by omega
      rw [pow_zero, Matrix.one_mulVec]
      simp
    · intro x hx
      have h0 : x 0 = 0 := by simpa using hx 0 (by norm_num)
      have : x = ∑ i : Fin k, x i.succ • (Pi.single i.succ 1 : Fin (k + 1) → F) := by
        rw [← Finset.univ_sum_single x, Fin.sum_univ_succ, h0, Pi.single_zero, zero_add]
        refine Finset.sum_congr rfl fun i _ => ?_
        rw [← Pi.single_smul, smul_eq_mul, mul_one, Finset.sum_apply]
        simp [Pi.single_apply]
      rw [this]
      exact Submodule.sum_mem _ fun i _ => Submodule.smul_mem _ _ (Submodule.subset_span ⟨i, rfl⟩)
  | n + 2 =>
    rw [generateVectorspace]
    have key : ∀ (v : Fin k → F) (j : Fin (n + 1)), (M ^ (j.val + 1)).mulVec (Fin.cons 0 v : Fin (k + 1) → F) 0 =
        (Matrix.of fun (i : Fin (n + 1)) (j : Fin k) => (M ^ (i.val + 1)) 0 j.succ).mulVec v j := by
      intro v j
      rw [Matrix.mulVec, _root_.dotProduct, Fin.sum_univ_succ, Fin.cons_zero, mul_zero, zero_add]
      rfl
    apply le_antisymm
    · rw [Submodule.span_le]
      rintro _ ⟨v, hv, rfl⟩ j hj
      cases j with
      | zero => rw [pow_zero, Matrix.one_mulVec]; rfl
      | succ j =>
        rw [key v ⟨j, by omega⟩]
        exact congrFun hv _
    · intro x hx
      have h0 : x 0 = 0 := by simpa using hx 0 (by omega)
      apply Submodule.subset_span
      have hx' : (Fin.cons 0 (Fin.tail x) : Fin (k + 1) → F) = x := by rw [← h0]; exact Fin.cons_self_tail x
      refine ⟨Fin.tail x, ?_, hx'⟩
      funext j
      rw [← key, hx']
      exact hx (j.val + 1) (by omega)

/-- A space within `S_i` that a power `M ^ j`, `1 ≤ j ≤ i`, maps to itself stays unobserved for ever. -/
theorem closed_unobserved (hM : NoInactiveTrail M) {i j : Nat} (hj : 1 ≤ j) (hji : j ≤ i) {x : Fin (k + 1) → F}
    (h : ∀ m, ((M ^ j) ^ m).mulVec x ∈ generateVectorspace M i) : x = 0 := by
  by_contra hx
  obtain ⟨n, -, i0, hi0, hne⟩ := hM x hx
  apply hne
  rw [show i0 = 0 from Fin.ext hi0]
  have h1 := (mem_generateVectorspace i _).1 (h (n / j)) (n % j) (lt_of_lt_of_le (Nat.mod_lt _ hj) hji)
  rw [Matrix.mulVec_mulVec, ← pow_mul, ← pow_add, Nat.mod_add_div] at h1
  exact h1

theorem finrank_generateVectorspace (i : Nat) : k + 1 ≤ finrank F (generateVectorspace M i) + i := by
  let f : (Fin (k + 1) → F) →ₗ[F] (Fin i → F) := LinearMap.pi fun j => (LinearMap.proj 0).comp (M ^ j.val).mulVecLin
  have hk : generateVectorspace M i = LinearMap.ker f := by
    ext x
    rw [mem_generateVectorspace, LinearMap.mem_ker]
    constructor
    · intro h; funext j; exact h j j.isLt
    · intro h j hj; exact congrFun h ⟨j, hj⟩
  have h1 := LinearMap.finrank_range_add_finrank_ker f
  have h2 := Submodule.finrank_le (R := F) (LinearMap.range f)
  rw [finrank_fin_fun] at h1 h2
  rw [hk]
  omega

theorem algorithm1_of_noInactiveTrail (hM : NoInactiveTrail M) : algorithm1 M = (true, 0) := by
  have hstep : ∀ i ∈ List.range' 1 k, algorithm1Step M i = none := by
    intro i hi
    rw [List.mem_range'_1] at hi
    obtain ⟨x, hxm, hx0⟩ : ∃ x ∈ generateVectorspace M i, x ≠ 0 := by
      by_contra hn
      push Not at hn
      have h1 : generateVectorspace M i = ⊥ := (Submodule.eq_bot_iff _).2 hn
      have h2 := finrank_generateVectorspace (M := M) i
      rw [h1, finrank_bot] at h2
      omega
    have hscal : ∀ (c : F) (y : Fin (k + 1) → F), y ∈ generateVectorspace M i → (M ^ i).mulVec y = c • y → y = 0 := by
      intro c y hy hc
      apply closed_unobserved hM hi.1 (le_refl i)
      intro m
      have : ((M ^ i) ^ m).mulVec y = c ^ m • y := by
        induction m with
        | zero => rw [pow_zero, pow_zero, Matrix.one_mulVec, one_smul]
        | succ m ih => rw [pow_succ, ← Matrix.mulVec_mulVec, hc, Matrix.mulVec_smul, ih, smul_smul, pow_succ']
      rw [this]
      exact Submodule.smul_mem _ _ hy
    rw [algorithm1Step]
    have hIS : (⨆ μ : F, generateVectorspace M i ⊓ End.eigenspace (M ^ i).mulVecLin μ) = ⊥ := by
      rw [iSup_eq_bot]
      intro μ
      rw [Submodule.eq_bot_iff]
      rintro y ⟨hy, he⟩
      exact hscal μ y hy (End.mem_eigenspace_iff.1 he)
    dsimp only
    rw [if_neg, if_neg, if_neg]
    · rintro ⟨j, hj1, hji, hS⟩
      apply hx0
      apply closed_unobserved hM hj1 hji
      intro m
      induction m with
      | zero => rwa [pow_zero, Matrix.one_mulVec]
      | succ m ih =>
        rw [hS, subspaceTimesMatrix, pow_succ', ← Matrix.mulVec_mulVec]
        exact ⟨_, ih, rfl⟩
    · rintro ⟨h1, -⟩
      rw [hIS, finrank_bot] at h1
      omega
    · intro h1
      apply hx0
      apply hscal ((M ^ i) 0 0) x hxm
      rw [sub_eq_zero] at h1
      conv_lhs => rw [h1]
      rw [Matrix.smul_mulVec, Matrix.one_mulVec]
  rw [algorithm1, List.findSome?_eq_none_iff.2 hstep]

theorem noInactiveTrail_of_algorithm1 (hdet : IsUnit M.det) {c : Nat} (h : algorithm1 M = (true, c)) : NoInactiveTrail M := by
  by_contra hn
  rw [NoInactiveTrail] at hn
  push Not at hn
  obtain ⟨x, hx, hall⟩ := hn
  have hstep : ∀ i, 1 ≤ i → i ≤ k → algorithm1Step M i = none := by
    intro i h1 h2
    have h3 : (List.range' 1 k).findSome? (algorithm1Step M) = none := by
      cases hf : (List.range' 1 k).findSome? (algorithm1Step M) with
      | none => rfl
      | some c' => rw [algorithm1, hf] at h; cases h
    exact List.findSome?_eq_none_iff.1 h3 i (List.mem_range'_1.2 ⟨h1, by omega⟩)
  have hlt : ∀ i, i ≤ k + 1 → finrank F (generateVectorspace M i) + i ≤ k + 1 := by
    intro i
    induction i with
    | zero => intro _; rw [generateVectorspace, finrank_top, finrank_fin_fun]
    | succ i ih =>
      intro hi
      have hle : generateVectorspace M (i + 1) ≤ generateVectorspace M i := by
        intro y hy
        rw [mem_generateVectorspace] at hy ⊢
        exact fun j hj => hy j (by omega)
      by_cases heq : generateVectorspace M (i + 1) = generateVectorspace M i
      · exfalso
        rcases Nat.eq_zero_or_pos i with h0 | h0
        · subst h0
          have h1 : e0 F k ∈ generateVectorspace M (0 + 1) := by rw [heq]; trivial
          have := (mem_generateVectorspace _ _).1 h1 0 (by omega)
          rw [pow_zero, Matrix.one_mulVec, e0, Pi.single_eq_same] at this
          exact one_ne_zero this
        · have hs := hstep i h0 (by omega)
          have hinv : generateVectorspace M i = subspaceTimesMatrix (generateVectorspace M i) (M ^ 1) := by
            symm
            apply Submodule.eq_of_le_of_finrank_le
            · rintro _ ⟨y, hy, rfl⟩
              rw [← heq] at hy
              rw [mem_generateVectorspace]
              intro j hj
              rw [pow_one, Matrix.mulVecLin_apply, Matrix.mulVec_mulVec, ← pow_succ]
              exact (mem_generateVectorspace _ _).1 hy (j + 1) (by omega)
            · have hinj : Function.Injective (M ^ 1).mulVecLin := by
                rw [pow_one]
                exact Matrix.mulVec_injective_iff_isUnit.2 ((Matrix.isUnit_iff_isUnit_det _).2 hdet)
              exact ((Submodule.equivMapOfInjective _ hinj (generateVectorspace M i)).finrank_eq).le
          rw [algorithm1Step] at hs
          dsimp only at hs
          split_ifs at hs with h1 h2 h3
          exact h3 ⟨1, le_refl _, h0, hinv⟩
      · have := Submodule.finrank_lt_finrank_of_lt (lt_of_le_of_ne hle heq)
        have := ih (by omega)
        omega
  have h1 := hlt (k + 1) (le_refl _)
  have h2 : generateVectorspace M (k + 1) = ⊥ := Submodule.finrank_eq_zero.1 (by omega)
  apply hx
  have h3 : x ∈ generateVectorspace M (k + 1) := (mem_generateVectorspace _ _).2 fun j hj => hall j hj 0 rfl
  rw [h2] at h3
  exact h3

end Poseidon
