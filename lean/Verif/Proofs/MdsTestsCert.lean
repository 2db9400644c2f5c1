import Verif.Proofs.MdsTests
import Verif.Proofs.ShippedLift
import Verif.Params.MdsTests
import Verif.Spec.Poseidon

/-!
# Relations between the multiples of `e0` by powers of the Cauchy matrix

`l` times the Cauchy matrix has integer entries if `l` is a common multiple of the denominators.  A relation between the integer vectors
is checked modulo `m`, where `m = 0` checks it over the integers, and `m = p` in a field of characteristic `p`.
-/

namespace Poseidon

open Matrix

/-- `l` times the Cauchy matrix of width `t`, times the vector `w`, modulo `m` -/
def mulCauchyN (t l m : Nat) (w : List Nat) : List Nat := tabN t fun i => sumN t (fun j => l / (i + j + t) * nth w j) % m

/-- The vectors `w`, `A w`, …, `A^n w`, evaluated one after the other -/
def walkN {α : Type} (t l m : Nat) : Nat → List Nat → (List (List Nat) → α) → α
  | 0, w, f => f [w]
  | n + 1, w, f => forceL (mulCauchyN t l m w) fun w' => walkN t l m n w' fun ws => f (w :: ws)

/-- `D * w_target + ∑ neg_k w_(r k) = ∑ pos_k w_(r k)` modulo `m`, `k < n` -/
def relN (t m : Nat) (ws : List (List Nat)) (r n target D : Nat) (pos neg : List Nat) : Bool :=
  allN t fun i => Nat.beq ((D * nth (nthL ws target) i + sumN n fun k => nth neg k * nth (nthL ws (r * k)) i) % m)
    ((sumN n fun k => nth pos k * nth (nthL ws (r * k)) i) % m)

/-- All denominators divide `l`. -/
def denN (t l : Nat) : Bool := allN t fun i => allN t fun j => Nat.beq (l / (i + j + t) * (i + j + t)) l

theorem walkN_eq {α : Type} (t l m n : Nat) (w : List Nat) (f : List (List Nat) → α) :
    walkN t l m n w f = f ((List.range (n + 1)).map fun j => (mulCauchyN t l m)^[j] w) := by
  induction n generalizing w f with
  | zero => rfl
  | succ n ih =>
    rw [walkN, forceL_eq, ih, List.range_succ_eq_map (n := n + 1), List.map_cons, List.map_map]
    rfl

theorem beqN {a b : Nat} (h : Nat.beq a b = true) : a = b := Nat.eq_of_beq_eq_true h

section
variable {F : Type} [Field F] {k l m : Nat}

theorem natMod_cast (hm : (m : F) = 0) (a : Nat) : ((a % m : Nat) : F) = a := by
  conv_rhs => rw [← Nat.mod_add_div a m]
  rw [Nat.cast_add, Nat.cast_mul, hm, zero_mul, add_zero]

/-- The vectors are the multiples of `e0`, scaled. -/
theorem walk_orbit (hden : denN (k + 1) l = true) (hl : (l : F) ≠ 0) (hm : (m : F) = 0) (n : Nat) (i : Fin (k + 1)) :
    (nth ((mulCauchyN (k + 1) l m)^[n] (tabN (k + 1) fun i => if i = 0 then 1 else 0)) i : F) =
      (l : F) ^ n * orbit (cauchyMds F (k + 1)) n i := by
  induction n generalizing i with
  | zero =>
    rw [Function.iterate_zero, id_eq, nth_tabN _ i.isLt, pow_zero, one_mul, orbit_zero, e0, Pi.single_apply]
    by_cases h : i = 0
    · subst h; simp
    · rw [if_neg h, if_neg (fun h1 : i.val = 0 => h (Fin.ext h1)), Nat.cast_zero]
  | succ n ih =>
    rw [Function.iterate_succ_apply', mulCauchyN, nth_tabN _ i.isLt, natMod_cast hm, sumN_cast, ← orbit_succ, Matrix.mulVec,
      _root_.dotProduct, Finset.mul_sum]
    refine Finset.sum_congr rfl fun j _ => ?_
    rw [Nat.cast_mul, ih j]
    have h1 := congrArg (Nat.cast (R := F)) (beqN (allN_iff.1 (allN_iff.1 hden i i.isLt) j j.isLt))
    rw [Nat.cast_mul] at h1
    have h2 : ((i.val + j.val + (k + 1) : Nat) : F) ≠ 0 := fun h => hl (by rw [← h1, h, mul_zero])
    have h3 : ((l / (i.val + j.val + (k + 1)) : Nat) : F) = l * cauchyMds F (k + 1) i j := by
      rw [cauchyMds, Matrix.of_apply, ← div_eq_mul_inv, eq_div_iff h2, h1]
    rw [h3, pow_succ]
    ring

theorem rel_mem (hden : denN (k + 1) l = true) (hl : (l : F) ≠ 0) (hm : (m : F) = 0) {N r n target D : Nat} {pos neg : List Nat}
    (hN : r * (n - 1) ≤ N) (ht : target ≤ N)
    (hD : (D : F) ≠ 0)
    (h : relN (k + 1) m ((List.range (N + 1)).map fun j => (mulCauchyN (k + 1) l m)^[j] (tabN (k + 1) fun i => if i = 0 then 1 else 0))
      r n target D pos neg = true) :
    orbit (cauchyMds F (k + 1)) target ∈
      Submodule.span F (Set.range fun j : Fin n => orbit (cauchyMds F (k + 1) ^ r) j) := by
  set M := cauchyMds F (k + 1)
  have hw : ∀ n ≤ N, ∀ i : Fin (k + 1), (nth (nthL ((List.range (N + 1)).map fun j => (mulCauchyN (k + 1) l m)^[j]
      (tabN (k + 1) fun i => if i = 0 then 1 else 0)) n) i : F) = (l : F) ^ n * orbit M n i := by
    intro n hn i
    rw [nthL_lt (by rw [List.length_map, List.length_range]; omega), List.getElem_map, List.getElem_range]
    exact walk_orbit hden hl hm n i
  have hsum : ((D : F) * (l : F) ^ target) • orbit M target =
      ∑ j : Fin n, ((((nth pos j : Nat) : F) - (nth neg j : Nat)) * (l : F) ^ (r * j.val)) • orbit (M ^ r) j := by
    funext i
    have h1 := congrArg (Nat.cast (R := F)) (beqN (allN_iff.1 h i i.isLt))
    rw [natMod_cast hm, natMod_cast hm, Nat.cast_add, sumN_cast, sumN_cast, Nat.cast_mul, hw target ht i] at h1
    rw [← eq_sub_iff_add_eq, ← Finset.sum_sub_distrib] at h1
    rw [Pi.smul_apply, smul_eq_mul, mul_assoc, h1, Finset.sum_apply]
    refine Finset.sum_congr rfl fun j _ => ?_
    have hj : r * j.val ≤ N := le_trans (Nat.mul_le_mul_left r (by have := j.isLt; omega)) hN
    rw [Nat.cast_mul, Nat.cast_mul, hw _ hj i, orbit_pow, ← sub_mul]
    rw [Pi.smul_apply, smul_eq_mul, mul_assoc]
  have hne : (D : F) * (l : F) ^ target ≠ 0 := mul_ne_zero hD (pow_ne_zero _ hl)
  rw [← inv_smul_smul₀ hne (orbit M target), hsum]
  exact Submodule.smul_mem _ _ (Submodule.sum_mem _ fun j _ => Submodule.smul_mem _ _ (Submodule.subset_span ⟨j, rfl⟩))

/-- All relations `M e0 = ∑ c_k M^(r k) e0` for `r` in `2..4t` -/
def checkTest3 (t l m : Nat) (den pos neg : List (List Nat)) : Bool :=
  denN t l && walkN t l m (4 * t * (t - 1)) (tabN t fun i => if i = 0 then 1 else 0) fun ws =>
    allN (4 * t - 1) fun r => relN t m ws (r + 2) t 1 (nthL den r).prod (nthL pos r) (nthL neg r)

theorem algorithm3_of_check {den pos neg : List (List Nat)} (hk : 1 ≤ k) (h : checkTest3 (k + 1) l m den pos neg = true)
    (hl : (l : F) ≠ 0) (hm : (m : F) = 0) (hden : ∀ r, r < 4 * (k + 1) - 1 → (((nthL den r).prod : Nat) : F) ≠ 0)
    (hc : Cyclic (cauchyMds F (k + 1))) : algorithm3 (cauchyMds F (k + 1)) = true := by
  rw [checkTest3, walkN_eq, Bool.and_eq_true] at h
  rw [algorithm3_iff]
  intro r h2 h4
  obtain ⟨r, rfl⟩ : ∃ r', r = r' + 2 := ⟨r - 2, by omega⟩
  apply cyclic_pow hc
  have h1 := rel_mem (F := F) h.1 hl hm (target := 1) (n := k + 1) (r := r + 2) (by
      rw [Nat.add_sub_cancel]
      exact Nat.mul_le_mul_right k h4) (by
      rw [Nat.add_sub_cancel]
      have := Nat.mul_le_mul (show 1 ≤ 4 * (k + 1) by omega) hk
      omega) (hden r (by omega)) (allN_iff.1 h.2 r (by omega))
  refine Submodule.span_mono ?_ h1
  rintro _ ⟨j, rfl⟩
  exact ⟨j, rfl⟩

/-- The relation that makes the width-`k + 1` matrix fail test 3 at `r` -/
def checkFail (t l m r n : Nat) (pos : List Nat) : Bool :=
  denN t l && walkN t l m (r * (n + 1)) (tabN t fun i => if i = 0 then 1 else 0) fun ws =>
    relN t m ws r (n + 1) (r * (n + 1)) 1 pos []

theorem algorithm3_fails {r n : Nat} {pos : List Nat} (h : checkFail (k + 1) l m r n pos = true) (hn : n < k) (h2 : 2 ≤ r)
    (h4 : r ≤ 4 * (k + 1)) (hl : (l : F) ≠ 0) (hm : (m : F) = 0) : algorithm3 (cauchyMds F (k + 1)) = false := by
  rw [checkFail, walkN_eq, Bool.and_eq_true] at h
  rw [← Bool.not_eq_true, algorithm3_iff]
  intro hall
  apply not_cyclic hn _ (hall r h2 h4)
  have h1 := rel_mem (F := F) h.1 hl hm (by rw [Nat.add_sub_cancel]; exact Nat.mul_le_mul_left r (Nat.le_succ n)) (le_refl _)
    (by rw [Nat.cast_one]; exact one_ne_zero) h.2
  rw [← orbit_pow] at h1
  refine Submodule.span_mono ?_ h1
  rintro _ ⟨j, rfl⟩
  exact ⟨j, Nat.le_of_lt_succ j.isLt, rfl⟩
end

end Poseidon
