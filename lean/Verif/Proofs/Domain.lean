import Verif.Spec.Groth16
import Mathlib.Algebra.Polynomial.Roots
import Mathlib.Algebra.Polynomial.BigOperators
import Mathlib.LinearAlgebra.Lagrange

/-! # Evaluation domains: transforms interpolate, Lagrange coefficients evaluate -/

set_option linter.unusedSectionVars false

namespace Poseidon.Groth16

open Polynomial Finset

variable {F : Type} [Field F] [DecidableEq F]

theorem Domain.Good.pos {d : Domain F} (h : d.Good) : 0 < d.size :=
  Nat.pos_of_ne_zero fun e => h.size (by rw [e, Nat.cast_zero])

theorem Domain.Good.gen_ne {d : Domain F} (h : d.Good) : d.gen ≠ 0 := h.root.ne_zero h.pos.ne'

theorem sum_map_range {M : Type} [AddCommMonoid M] (f : Nat → M) (n : Nat) : ((List.range n).map f).sum = ∑ i ∈ range n, f i := by
  induction n with
  | zero => rfl
  | succ n ih => rw [List.range_succ, List.map_append, List.sum_append, ih, Finset.sum_range_succ]; simp

theorem getD_map_range {α : Type} (f : Nat → α) {n i : Nat} (h : i < n) (x : α) : ((List.range n).map f).getD i x = f i := by
  simp [List.getD, List.getElem?_map, List.getElem?_range h]

/-- The polynomial with these coefficients. -/
noncomputable def poly (n : Nat) (c : Nat → F) : F[X] := ∑ k ∈ range n, C (c k) * X ^ k

theorem poly_eval (n : Nat) (c : Nat → F) (x : F) : (poly n c).eval x = ∑ k ∈ range n, c k * x ^ k := by
  simp [poly, eval_finsetSum]

theorem poly_degree (n : Nat) (c : Nat → F) : (poly n c).degree < n := by
  rw [← mem_degreeLT]
  refine Submodule.sum_mem _ fun k hk => mem_degreeLT.2 ?_
  exact (degree_C_mul_X_pow_le k (c k)).trans_lt (by exact_mod_cast Finset.mem_range.1 hk)

theorem poly_coeff (n : Nat) (c : Nat → F) {k : Nat} (hk : k < n) : (poly n c).coeff k = c k := by
  simp [poly, coeff_C_mul, coeff_X_pow, hk]

/-- Sums of powers of roots of unity. -/
theorem Domain.Good.sum_pow {d : Domain F} (h : d.Good) {i j : Nat} (hi : i < d.size) (hj : j < d.size) :
    ∑ k ∈ range d.size, (d.gen ^ j * (d.gen⁻¹) ^ i) ^ k = if i = j then (d.size : F) else 0 := by
  have hg := h.gen_ne
  split
  · next e =>
    subst e
    have : d.gen ^ i * (d.gen⁻¹) ^ i = 1 := by rw [← mul_pow, mul_inv_cancel₀ hg, one_pow]
    simp only [this, one_pow, Finset.sum_const, Finset.card_range, nsmul_eq_mul, mul_one]
  · next e =>
    have hne : d.gen ^ j * (d.gen⁻¹) ^ i ≠ 1 := by
      intro h1
      have h2 : d.gen ^ j = d.gen ^ i := by
        rw [inv_pow] at h1
        exact (mul_inv_eq_one₀ (pow_ne_zero _ hg)).1 h1
      exact e (h.root.pow_inj hj hi h2).symm
    have h1 : (d.gen ^ j * (d.gen⁻¹) ^ i) ^ d.size = 1 := by
      rw [mul_pow, ← pow_mul, ← pow_mul, mul_comm j, mul_comm i, pow_mul, pow_mul, inv_pow, h.root.pow_eq_one, inv_one, one_pow,
        one_pow, one_mul]
    have := mul_geom_sum (d.gen ^ j * (d.gen⁻¹) ^ i) d.size
    rw [h1, sub_self, mul_eq_zero] at this
    exact this.resolve_left (sub_ne_zero.2 hne)

/-- Coefficients of the polynomial with the values `x` on a coset. -/
def Domain.coeffs (d : Domain F) (x : Nat → F) (k : Nat) : F :=
  ((d.size : F)⁻¹ * (d.offset⁻¹) ^ k) * ∑ i ∈ range d.size, x i * (d.gen⁻¹) ^ (i * k)

theorem Domain.ifft_eq (d : Domain F) (x : List F) : d.ifft x = (List.range d.size).map (d.coeffs fun i => x.getD i 0) := by
  unfold Domain.ifft
  refine List.map_congr_left fun k _ => ?_
  rw [sum_map_range]
  rfl

theorem Domain.fft_eq (d : Domain F) (c : List F) :
    d.fft c = (List.range d.size).map fun i => (poly d.size fun k => c.getD k 0).eval (d.offset * d.gen ^ i) := by
  unfold Domain.fft
  refine List.map_congr_left fun i _ => ?_
  rw [sum_map_range, poly_eval]

theorem poly_congr {n : Nat} {c c' : Nat → F} (h : ∀ k, k < n → c k = c' k) : poly n c = poly n c' :=
  Finset.sum_congr rfl fun k hk => by rw [h k (Finset.mem_range.1 hk)]

/-- The interpolating polynomial on a coset. -/
noncomputable def Domain.interp (d : Domain F) (x : Nat → F) : F[X] := poly d.size (d.coeffs x)

theorem Domain.interp_degree (d : Domain F) (x : Nat → F) : (d.interp x).degree < d.size := poly_degree _ _

theorem Domain.fft_ifft (d : Domain F) (g : F) (x : List F) :
    (d.coset g).fft (d.ifft x) = (List.range d.size).map fun i => (d.interp fun i => x.getD i 0).eval (g * d.gen ^ i) := by
  rw [Domain.fft_eq]
  show (List.range d.size).map _ = _
  refine List.map_congr_left fun i _ => ?_
  congr 1
  refine poly_congr fun k hk => ?_
  rw [Domain.ifft_eq, getD_map_range (n := d.size) _ hk]

theorem Domain.Good.interp_coset {d : Domain F} (h : d.Good) {g : F} (hg : g ≠ 0) (x : Nat → F) {j : Nat} (hj : j < d.size) :
    ((d.coset g).interp x).eval (g * d.gen ^ j) = x j := by
  show (poly d.size ((d.coset g).coeffs x)).eval (g * d.gen ^ j) = x j
  rw [poly_eval]
  have e : ∀ k, (d.coset g).coeffs x k * (g * d.gen ^ j) ^ k =
      ∑ i ∈ range d.size, (d.size : F)⁻¹ * x i * (d.gen ^ j * (d.gen⁻¹) ^ i) ^ k := fun k => by
    show ((d.size : F)⁻¹ * (g⁻¹) ^ k) * (∑ i ∈ range d.size, x i * (d.gen⁻¹) ^ (i * k)) * (g * d.gen ^ j) ^ k = _
    rw [Finset.mul_sum, Finset.sum_mul]
    refine Finset.sum_congr rfl fun i _ => ?_
    rw [mul_pow, mul_pow, pow_mul, inv_pow g]
    have := pow_ne_zero k hg
    field_simp
  rw [Finset.sum_congr rfl fun k _ => e k, Finset.sum_comm]
  have e2 : ∀ i ∈ range d.size, ∑ k ∈ range d.size, (d.size : F)⁻¹ * x i * (d.gen ^ j * (d.gen⁻¹) ^ i) ^ k =
      if i = j then x j else 0 := fun i hi => by
    rw [← Finset.mul_sum, h.sum_pow (Finset.mem_range.1 hi) hj]
    split
    · next e => subst e; rw [mul_comm, ← mul_assoc, mul_inv_cancel₀ h.size, one_mul]
    · rw [mul_zero]
  rw [Finset.sum_congr rfl e2]
  simp [hj]

theorem Domain.Good.coset_one {d : Domain F} (h : d.Good) : d.coset 1 = d := by
  obtain ⟨n, w, o⟩ := d
  have : o = 1 := h.offset
  rw [this]
  rfl

theorem Domain.Good.interp_eval {d : Domain F} (h : d.Good) (x : Nat → F) {j : Nat} (hj : j < d.size) :
    (d.interp x).eval (d.gen ^ j) = x j := by
  have := h.interp_coset one_ne_zero x hj
  rwa [h.coset_one, one_mul] at this

/-- The points of a coset are different. -/
theorem Domain.Good.inj {d : Domain F} (h : d.Good) {g : F} (hg : g ≠ 0) :
    Set.InjOn (fun i => g * d.gen ^ i) (range d.size : Set Nat) := by
  intro i hi j hj e
  exact h.root.pow_inj (by simpa using hi) (by simpa using hj) (mul_left_cancel₀ hg e)

/-- Polynomials of low degree are determined by their values on a coset. -/
theorem Domain.Good.eq_of_eval {d : Domain F} (h : d.Good) {g : F} (hg : g ≠ 0) {p r : F[X]} (hp : p.degree < d.size)
    (hr : r.degree < d.size) (he : ∀ i, i < d.size → p.eval (g * d.gen ^ i) = r.eval (g * d.gen ^ i)) : p = r := by
  refine eq_of_degrees_lt_of_eval_index_eq (range d.size) (h.inj hg) (by rwa [Finset.card_range])
    (by rwa [Finset.card_range]) fun i hi => he i (Finset.mem_range.1 hi)

/-- The `i`-th Lagrange polynomial. -/
noncomputable def Domain.lag (d : Domain F) (i : Nat) : F[X] := d.interp fun j => if j = i then 1 else 0

theorem Domain.lag_degree (d : Domain F) (i : Nat) : (d.lag i).degree < d.size := d.interp_degree _

theorem Domain.Good.lag_eval {d : Domain F} (h : d.Good) (i : Nat) {j : Nat} (hj : j < d.size) :
    (d.lag i).eval (d.gen ^ j) = if j = i then 1 else 0 := h.interp_eval _ hj

theorem Domain.Good.vanishing_eq {d : Domain F} (h : d.Good) (x : F) : d.vanishing x = x ^ d.size - 1 := by
  rw [Domain.vanishing, h.offset, one_pow]

/-- Where `X ^ n - 1` vanishes. -/
theorem Domain.Good.vanishing_zero {d : Domain F} (h : d.Good) {x : F} (hx : d.vanishing x = 0) : ∃ j < d.size, x = d.gen ^ j := by
  rw [h.vanishing_eq, sub_eq_zero] at hx
  have : NeZero d.size := ⟨h.pos.ne'⟩
  obtain ⟨j, hj, e⟩ := h.root.eq_pow_of_pow_eq_one hx
  exact ⟨j, hj, e.symm⟩

/-- The Lagrange coefficients are the values of the Lagrange polynomials. -/
theorem Domain.Good.lagrange_eq {d : Domain F} (h : d.Good) (t : F) :
    d.lagrange t = (List.range d.size).map fun i => (d.lag i).eval t := by
  unfold Domain.lagrange
  dsimp only
  split
  · next hz =>
    obtain ⟨j, hj, rfl⟩ := h.vanishing_zero hz
    refine List.map_congr_left fun i hi => ?_
    rw [h.lag_eval i hj, h.offset, one_mul]
    have hi := List.mem_range.1 hi
    by_cases e : j = i
    · rw [if_pos e, if_pos (by rw [e])]
    · rw [if_neg e, if_neg fun h' => e (h.root.pow_inj hi hj h').symm]
  · next hz =>
    refine List.map_congr_left fun i hi => ?_
    have hi := List.mem_range.1 hi
    have hg := h.gen_ne
    have hgi := pow_ne_zero i hg
    rw [h.offset, one_mul, one_pow, mul_one, Domain.lag, Domain.interp, poly_eval]
    have e1 : ∀ k, d.coeffs (fun j => if j = i then 1 else 0) k * t ^ k = (d.size : F)⁻¹ * (t * (d.gen⁻¹) ^ i) ^ k := fun k => by
      unfold Domain.coeffs
      simp only [ite_mul, one_mul, zero_mul]
      rw [Finset.sum_ite_eq' (range d.size) i, if_pos (Finset.mem_range.2 hi), h.offset, inv_one, one_pow, mul_one, mul_pow, pow_mul]
      ring
    rw [Finset.sum_congr rfl fun k _ => e1 k, ← Finset.mul_sum]
    rw [h.vanishing_eq] at hz ⊢
    have ht : t - d.gen ^ i ≠ 0 := by
      intro e
      rw [sub_eq_zero] at e
      apply hz
      rw [e, ← pow_mul, mul_comm, pow_mul, h.root.pow_eq_one, one_pow, sub_self]
    have h1 : (t * (d.gen⁻¹) ^ i) ^ d.size = t ^ d.size := by
      rw [mul_pow, ← pow_mul, mul_comm i, pow_mul, inv_pow, h.root.pow_eq_one, inv_one, one_pow, mul_one]
    have h2 := mul_geom_sum (t * (d.gen⁻¹) ^ i) d.size
    rw [h1] at h2
    have h3 : t * (d.gen⁻¹) ^ i - 1 = (t - d.gen ^ i) * (d.gen⁻¹) ^ i := by
      rw [sub_mul, ← mul_pow d.gen, mul_inv_cancel₀ hg, one_pow]
    rw [h3] at h2
    refine inv_eq_iff_eq_inv.2 ?_
    rw [← h2]
    have hn := h.size
    have hs : ∑ k ∈ range d.size, (t * (d.gen⁻¹) ^ i) ^ k ≠ 0 := by
      intro e
      rw [e, mul_zero] at h2
      exact hz h2.symm
    have hgi' := pow_ne_zero i (inv_ne_zero hg)
    generalize ∑ k ∈ range d.size, (t * (d.gen⁻¹) ^ i) ^ k = S at hs ⊢
    generalize (d.gen⁻¹) ^ i = w at hgi' ⊢
    field_simp

/-- Linear combinations of Lagrange polynomials. -/
theorem Domain.Good.sum_lag {d : Domain F} (h : d.Good) (x : Nat → F) : ∑ i ∈ range d.size, C (x i) * d.lag i = d.interp x := by
  refine h.eq_of_eval one_ne_zero ?_ (d.interp_degree _) fun j hj => ?_
  · rw [← mem_degreeLT]
    refine Submodule.sum_mem _ fun k _ => mem_degreeLT.2 ?_
    rw [← smul_eq_C_mul]
    exact (degree_smul_le _ _).trans_lt (d.lag_degree k)
  · rw [one_mul, h.interp_eval x hj, eval_finsetSum]
    simp only [eval_mul, eval_C, h.lag_eval _ hj]
    simp [hj]

/-- A polynomial that vanishes on the domain is a multiple of `X ^ n - 1`. -/
theorem Domain.Good.dvd {d : Domain F} (h : d.Good) {p : F[X]} (hp : ∀ i, i < d.size → p.eval (d.gen ^ i) = 0) :
    (X ^ d.size - 1 : F[X]) ∣ p := by
  have hm : (X ^ d.size - 1 : F[X]).Monic := monic_X_pow_sub_C 1 h.pos.ne'
  have hd : (X ^ d.size - 1 : F[X]).degree = d.size := degree_X_pow_sub_C h.pos 1
  rw [← modByMonic_eq_zero_iff_dvd hm]
  refine h.eq_of_eval one_ne_zero (hd ▸ degree_modByMonic_lt p hm) (by simp) fun i hi => ?_
  have e := congrArg (eval (d.gen ^ i)) (modByMonic_add_div p (X ^ d.size - 1 : F[X]))
  have h0 : eval (d.gen ^ i) (X ^ d.size - 1 : F[X]) = 0 := by
    rw [eval_sub, eval_pow, eval_X, eval_one, ← pow_mul, mul_comm, pow_mul, h.root.pow_eq_one, one_pow, sub_self]
  rw [eval_add, eval_mul, h0, zero_mul, add_zero, hp i hi] at e
  rw [one_mul, e, eval_zero]

end Poseidon.Groth16
