import Verif.Proofs.Groth16Core
import Mathlib.Algebra.MvPolynomial.SchwartzZippel
import Mathlib.Algebra.Polynomial.AlgebraMap
import Mathlib.Tactic.LinearCombination
import Mathlib.Data.Set.Card

/-!
# A proof made of fixed combinations of the points of the key

The verifier's equation is then a polynomial in the five secrets.  If it vanishes, its coefficients contain a satisfying assignment;
if it does not, few secrets satisfy it.
-/

set_option linter.unusedSectionVars false

namespace Poseidon.Groth16

open Polynomial

/-! ### The equation -/

/-- `gamma * delta` times a combination of the points of the first group. -/
structure Form1 (S : Type) where
  p : S
  kα : S
  kβ : S
  kδ : S
  h : S
  lU : S
  lV : S
  cW : S
  cU : S
  cV : S

/-- A combination of the points of the second group. -/
structure Form2 (S : Type) where
  p : S
  kβ : S
  kγ : S
  kδ : S

/-- The public inputs. -/
structure FormS (S : Type) where
  W : S
  U : S
  V : S

def Form1.map {S T : Type} (f : S → T) (a : Form1 S) : Form1 T :=
  ⟨f a.p, f a.kα, f a.kβ, f a.kδ, f a.h, f a.lU, f a.lV, f a.cW, f a.cU, f a.cV⟩

def Form2.map {S T : Type} (f : S → T) (a : Form2 S) : Form2 T := ⟨f a.p, f a.kβ, f a.kγ, f a.kδ⟩

def FormS.map {S T : Type} (f : S → T) (a : FormS S) : FormS T := ⟨f a.W, f a.U, f a.V⟩

theorem Form1.map_map' {R S T : Type} {f : R → S} {g : S → T} {k : R → T} (h : ∀ x, g (f x) = k x) (a : Form1 R) :
    (a.map f).map g = a.map k := by simp only [Form1.map, h]

theorem Form2.map_map' {R S T : Type} {f : R → S} {g : S → T} {k : R → T} (h : ∀ x, g (f x) = k x) (a : Form2 R) :
    (a.map f).map g = a.map k := by simp only [Form2.map, h]

theorem FormS.map_map' {R S T : Type} {f : R → S} {g : S → T} {k : R → T} (h : ∀ x, g (f x) = k x) (a : FormS R) :
    (a.map f).map g = a.map k := by simp only [FormS.map, h]

section
variable {S T : Type} [CommRing S] [CommRing T]

def Form1.num (a : Form1 S) (α β γ δ : S) : S :=
  γ * δ * (a.p + a.kα * α + a.kβ * β + a.kδ * δ) + γ * (a.h + a.lU * β + a.lV * α) + δ * (a.cW + a.cU * β + a.cV * α)

def Form2.num (b : Form2 S) (β γ δ : S) : S := b.p + b.kβ * β + b.kγ * γ + b.kδ * δ

/-- `gamma * delta` times the difference of the two sides of the verifier's equation. -/
def equation (a : Form1 S) (b : Form2 S) (c : Form1 S) (s : FormS S) (α β γ δ : S) : S :=
  a.num α β γ δ * b.num β γ δ - γ * δ * (α * β) - γ * δ * (s.W + s.U * β + s.V * α) - δ * c.num α β γ δ

theorem equation_map (f : S →+* T) (a : Form1 S) (b : Form2 S) (c : Form1 S) (s : FormS S) (α β γ δ : S) :
    f (equation a b c s α β γ δ) = equation (a.map f) (b.map f) (c.map f) (s.map f) (f α) (f β) (f γ) (f δ) := by
  simp only [equation, Form1.num, Form2.num, Form1.map, Form2.map, FormS.map, map_add, map_sub, map_mul]

theorem equation_expand (a : Form1 S) (b : Form2 S) (c : Form1 S) (s : FormS S) :
    equation (a.map C) (b.map C) (c.map C) (s.map C) X (X ^ 2) (X ^ 6) (X ^ 18) =
    C (a.h * b.p) * X ^ 6 +
    C (a.lV * b.p) * X ^ 7 +
    C (a.h * b.kβ + a.lU * b.p) * X ^ 8 +
    C (a.lV * b.kβ) * X ^ 9 +
    C (a.lU * b.kβ) * X ^ 10 +
    C (a.h * b.kγ) * X ^ 12 +
    C (a.lV * b.kγ) * X ^ 13 +
    C (a.lU * b.kγ) * X ^ 14 +
    C (a.cW * b.p) * X ^ 18 +
    C (a.cV * b.p) * X ^ 19 +
    C (a.cW * b.kβ + a.cU * b.p) * X ^ 20 +
    C (a.cV * b.kβ) * X ^ 21 +
    C (a.cU * b.kβ) * X ^ 22 +
    C (a.p * b.p + a.h * b.kδ + a.cW * b.kγ - s.W - c.h) * X ^ 24 +
    C (a.kα * b.p + a.lV * b.kδ + a.cV * b.kγ - s.V - c.lV) * X ^ 25 +
    C (a.p * b.kβ + a.kβ * b.p + a.lU * b.kδ + a.cU * b.kγ - s.U - c.lU) * X ^ 26 +
    C (a.kα * b.kβ - 1) * X ^ 27 +
    C (a.kβ * b.kβ) * X ^ 28 +
    C (a.p * b.kγ) * X ^ 30 +
    C (a.kα * b.kγ) * X ^ 31 +
    C (a.kβ * b.kγ) * X ^ 32 +
    C (a.cW * b.kδ - c.cW) * X ^ 36 +
    C (a.cV * b.kδ - c.cV) * X ^ 37 +
    C (a.cU * b.kδ - c.cU) * X ^ 38 +
    C (a.p * b.kδ + a.kδ * b.p - c.p) * X ^ 42 +
    C (a.kα * b.kδ - c.kα) * X ^ 43 +
    C (a.kβ * b.kδ + a.kδ * b.kβ - c.kβ) * X ^ 44 +
    C (a.kδ * b.kγ) * X ^ 48 +
    C (a.kδ * b.kδ - c.kδ) * X ^ 60 := by
  simp only [equation, Form1.num, Form2.num, Form1.map, Form2.map, FormS.map, C_add, C_sub, C_mul, C_1]
  ring

/-- If the equation holds identically, the third part contains an assignment. -/
theorem equation_zero [IsDomain S] (a : Form1 S) (b : Form2 S) (c : Form1 S) (s : FormS S)
    (h : equation (a.map C) (b.map C) (c.map C) (s.map C) (X : S[X]) (X ^ 2) (X ^ 6) (X ^ 18) = 0) :
    (s.U + c.lU) * (s.V + c.lV) = s.W + c.h := by
  rw [equation_expand] at h
  have co : ∀ k, _ := fun k => congrArg (fun p => coeff p k) h
  simp only [coeff_add, coeff_C_mul, coeff_X_pow, coeff_zero] at co
  have h27 := co 27
  have h28 := co 28
  have h10 := co 10
  have h9 := co 9
  have h8 := co 8
  have h22 := co 22
  have h21 := co 21
  have h20 := co 20
  have h24 := co 24
  have h25 := co 25
  have h26 := co 26
  norm_num at h27 h28 h10 h9 h8 h22 h21 h20 h24 h25 h26
  have hb : b.kβ ≠ 0 := by
    intro h0
    rw [h0, mul_zero, zero_sub] at h27
    exact one_ne_zero (neg_eq_zero.1 h27)
  have e1 := h28.resolve_right hb
  have e2 := h10.resolve_right hb
  have e3 := h9.resolve_right hb
  have e4 := h22.resolve_right hb
  have e5 := h21.resolve_right hb
  rw [e2, zero_mul, add_zero] at h8
  rw [e4, zero_mul, add_zero] at h20
  have e6 := (mul_eq_zero.1 h8).resolve_right hb
  have e7 := (mul_eq_zero.1 h20).resolve_right hb
  rw [e6, e7] at h24
  rw [e3, e5] at h25
  rw [e1, e2, e4] at h26
  linear_combination (-(s.U + c.lU)) * h25 - (a.kα * b.p) * h26 + h24 + a.p * b.p * h27

end

/-! ### Counting the secrets -/

section
variable {F : Type} [Field F]

/-- Degrees of the polynomials in a combination, on a domain of `n` points. -/
structure Form1.Small (n : Nat) (a : Form1 F[X]) : Prop where
  p : a.p.natDegree ≤ n - 1
  kα : a.kα.natDegree ≤ 0
  kβ : a.kβ.natDegree ≤ 0
  kδ : a.kδ.natDegree ≤ 0
  h : a.h.natDegree ≤ 2 * n - 2
  lU : a.lU.natDegree ≤ n - 1
  lV : a.lV.natDegree ≤ n - 1
  cW : a.cW.natDegree ≤ n - 1
  cU : a.cU.natDegree ≤ n - 1
  cV : a.cV.natDegree ≤ n - 1

structure Form2.Small (n : Nat) (a : Form2 F[X]) : Prop where
  p : a.p.natDegree ≤ n - 1
  kβ : a.kβ.natDegree ≤ 0
  kγ : a.kγ.natDegree ≤ 0
  kδ : a.kδ.natDegree ≤ 0

structure FormS.Small (n : Nat) (a : FormS F[X]) : Prop where
  W : a.W.natDegree ≤ n - 1
  U : a.U.natDegree ≤ n - 1
  V : a.V.natDegree ≤ n - 1

/-- A polynomial in `tau`. -/
noncomputable def atTau : F[X] →+* MvPolynomial (Fin 5) F := (aeval (MvPolynomial.X 4 : MvPolynomial (Fin 5) F)).toRingHom

theorem atTau_degree {p : F[X]} {k : Nat} (h : p.natDegree ≤ k) : (atTau p).totalDegree ≤ k := by
  show (aeval (MvPolynomial.X 4 : MvPolynomial (Fin 5) F) p).totalDegree ≤ k
  rw [aeval_eq_sum_range]
  refine MvPolynomial.totalDegree_finsetSum_le fun i hi => ?_
  refine (MvPolynomial.totalDegree_smul_le _ _).trans ((MvPolynomial.totalDegree_pow _ _).trans ?_)
  rw [MvPolynomial.totalDegree_X]
  have := Finset.mem_range.1 hi
  omega

theorem deg_mul {p q : MvPolynomial (Fin 5) F} {a b k : Nat} (hp : p.totalDegree ≤ a) (hq : q.totalDegree ≤ b) (h : a + b ≤ k) :
    (p * q).totalDegree ≤ k := (MvPolynomial.totalDegree_mul _ _).trans (by omega)

theorem deg_add {p q : MvPolynomial (Fin 5) F} {k : Nat} (hp : p.totalDegree ≤ k) (hq : q.totalDegree ≤ k) :
    (p + q).totalDegree ≤ k := (MvPolynomial.totalDegree_add _ _).trans (max_le hp hq)

theorem deg_sub {p q : MvPolynomial (Fin 5) F} {k : Nat} (hp : p.totalDegree ≤ k) (hq : q.totalDegree ≤ k) :
    (p - q).totalDegree ≤ k := (MvPolynomial.totalDegree_sub _ _).trans (max_le hp hq)

theorem deg_X (i : Fin 5) : (MvPolynomial.X i : MvPolynomial (Fin 5) F).totalDegree ≤ 1 := by rw [MvPolynomial.totalDegree_X]

open MvPolynomial in
theorem num1_degree {n : Nat} (hn : 4 ≤ n) {a : Form1 F[X]} (h : a.Small n) :
    ((a.map atTau).num (X 0) (X 1) (X 2) (X 3) : MvPolynomial (Fin 5) F).totalDegree ≤ 2 * n - 1 := by
  unfold Form1.num Form1.map
  refine deg_add (deg_add ?_ ?_) ?_
  · refine deg_mul (a := 2) (b := n - 1) (deg_mul (deg_X 2) (deg_X 3) le_rfl) ?_ (by omega)
    refine deg_add (deg_add (deg_add (atTau_degree h.p) ?_) ?_) ?_
    · exact deg_mul (atTau_degree h.kα) (deg_X 0) (by omega)
    · exact deg_mul (atTau_degree h.kβ) (deg_X 1) (by omega)
    · exact deg_mul (atTau_degree h.kδ) (deg_X 3) (by omega)
  · refine deg_mul (a := 1) (b := 2 * n - 2) (deg_X 2) (deg_add (deg_add (atTau_degree h.h) ?_) ?_) (by omega)
    · exact deg_mul (atTau_degree h.lU) (deg_X 1) (by omega)
    · exact deg_mul (atTau_degree h.lV) (deg_X 0) (by omega)
  · refine deg_mul (a := 1) (b := n) (deg_X 3) (deg_add (deg_add ((atTau_degree h.cW).trans (by omega)) ?_) ?_) (by omega)
    · exact deg_mul (atTau_degree h.cU) (deg_X 1) (by omega)
    · exact deg_mul (atTau_degree h.cV) (deg_X 0) (by omega)

open MvPolynomial in
theorem num2_degree {n : Nat} (hn : 4 ≤ n) {b : Form2 F[X]} (h : b.Small n) :
    ((b.map atTau).num (X 1) (X 2) (X 3) : MvPolynomial (Fin 5) F).totalDegree ≤ n - 1 := by
  unfold Form2.num Form2.map
  refine deg_add (deg_add (deg_add (atTau_degree h.p) ?_) ?_) ?_
  · exact deg_mul (atTau_degree h.kβ) (deg_X 1) (by omega)
  · exact deg_mul (atTau_degree h.kγ) (deg_X 2) (by omega)
  · exact deg_mul (atTau_degree h.kδ) (deg_X 3) (by omega)

open MvPolynomial in
theorem equation_degree {n : Nat} (hn : 4 ≤ n) {a : Form1 F[X]} {b : Form2 F[X]} {c : Form1 F[X]} {s : FormS F[X]} (ha : a.Small n)
    (hb : b.Small n) (hc : c.Small n) (hs : s.Small n) :
    (equation (a.map atTau) (b.map atTau) (c.map atTau) (s.map atTau) (X 0) (X 1) (X 2) (X 3) : MvPolynomial (Fin 5) F).totalDegree ≤
      3 * n - 2 := by
  unfold equation
  refine deg_sub (deg_sub (deg_sub ?_ ?_) ?_) ?_
  · exact deg_mul (num1_degree hn ha) (num2_degree hn hb) (by omega)
  · exact deg_mul (deg_mul (deg_X 2) (deg_X 3) le_rfl) (deg_mul (deg_X 0) (deg_X 1) le_rfl) (by omega)
  · refine deg_mul (a := 2) (b := n) (deg_mul (deg_X 2) (deg_X 3) le_rfl) ?_ (by omega)
    unfold FormS.map
    refine deg_add (deg_add ((atTau_degree hs.W).trans (by omega)) ?_) ?_
    · exact deg_mul (atTau_degree hs.U) (deg_X 1) (by omega)
    · exact deg_mul (atTau_degree hs.V) (deg_X 0) (by omega)
  · exact deg_mul (deg_X 3) (num1_degree hn hc) (by omega)

/-- Either few secrets satisfy the equation, or the third part contains an assignment. -/
theorem equation_few [Fintype F] [DecidableEq F] {N : Nat} (hN : Fintype.card F = N) {n : Nat} (hn : 4 ≤ n) {a : Form1 F[X]} {b : Form2 F[X]} {c : Form1 F[X]} {s : FormS F[X]}
    (ha : a.Small n) (hb : b.Small n) (hc : c.Small n) (hs : s.Small n) (hne : (s.U + c.lU) * (s.V + c.lV) ≠ s.W + c.h) :
    (Finset.univ.filter fun v : Fin 5 → F => equation (a.map (eval (v 4))) (b.map (eval (v 4))) (c.map (eval (v 4))) (s.map (eval (v 4)))
      (v 0) (v 1) (v 2) (v 3) = 0).card ≤ (3 * n - 2) * N ^ 4 := by
  subst hN
  set P : MvPolynomial (Fin 5) F := equation (a.map atTau) (b.map atTau) (c.map atTau) (s.map atTau) (MvPolynomial.X 0) (MvPolynomial.X 1)
    (MvPolynomial.X 2) (MvPolynomial.X 3) with hP
  have hP0 : P ≠ 0 := by
    intro h0
    let f : MvPolynomial (Fin 5) F →ₐ[F] F[X][X] := MvPolynomial.aeval ![X, X ^ 2, X ^ 6, X ^ 18, C X]
    have hf : ∀ p : F[X], f.toRingHom (atTau p) = C p := by
      intro p
      show f (aeval (MvPolynomial.X 4 : MvPolynomial (Fin 5) F) p) = C p
      rw [← aeval_algHom_apply]
      have : f (MvPolynomial.X 4) = C X := by simp [f]
      rw [this]
      have h2 : (C X : F[X][X]) = (CAlgHom : F[X] →ₐ[F] F[X][X]) X := rfl
      rw [h2, aeval_algHom_apply, aeval_X_left_apply]
      rfl
    have h1 := congrArg f.toRingHom h0
    rw [hP, equation_map, map_zero] at h1
    have e1 : f.toRingHom (MvPolynomial.X 0) = X := by simp [f]
    have e2 : f.toRingHom (MvPolynomial.X 1) = X ^ 2 := by simp [f]
    have e3 : f.toRingHom (MvPolynomial.X 2) = X ^ 6 := by simp [f]
    have e4 : f.toRingHom (MvPolynomial.X 3) = X ^ 18 := by simp [f]
    rw [e1, e2, e3, e4] at h1
    refine hne (equation_zero a b c s ?_)
    rwa [Form1.map_map' hf, Form2.map_map' hf, Form1.map_map' hf, FormS.map_map' hf] at h1
  have hev : ∀ v : Fin 5 → F, MvPolynomial.eval v P = equation (a.map (eval (v 4))) (b.map (eval (v 4))) (c.map (eval (v 4)))
      (s.map (eval (v 4))) (v 0) (v 1) (v 2) (v 3) := by
    intro v
    have hg : ∀ p : F[X], MvPolynomial.eval v (atTau p) = p.eval (v 4) := by
      intro p
      show MvPolynomial.eval v (aeval (MvPolynomial.X 4 : MvPolynomial (Fin 5) F) p) = _
      have := aeval_algHom_apply (MvPolynomial.aeval v : MvPolynomial (Fin 5) F →ₐ[F] F) (MvPolynomial.X 4) p
      rw [MvPolynomial.aeval_X] at this
      rw [← MvPolynomial.coe_aeval_eq_eval]
      exact this.symm.trans (by rw [coe_aeval_eq_eval])
    rw [hP, equation_map, Form1.map_map' hg, Form2.map_map' hg, Form1.map_map' hg, FormS.map_map' hg, MvPolynomial.eval_X, MvPolynomial.eval_X, MvPolynomial.eval_X, MvPolynomial.eval_X]
  have hz := MvPolynomial.schwartz_zippel_totalDegree hP0 (Finset.univ : Finset F)
  have hd := equation_degree hn ha hb hc hs
  rw [← hP] at hd
  simp only [hev, Fintype.piFinset_univ, Finset.card_univ] at hz
  have hq : 0 < Fintype.card F := Fintype.card_pos
  have hq' : (0 : ℚ≥0) < Fintype.card F := by exact_mod_cast hq
  rw [div_le_div_iff₀ (by positivity) hq'] at hz
  generalize Finset.card _ = m at hz ⊢
  have hz2 : m * Fintype.card F ≤ P.totalDegree * Fintype.card F ^ 5 := by exact_mod_cast hz
  rw [pow_succ, ← mul_assoc] at hz2
  exact (Nat.le_of_mul_le_mul_right hz2 hq).trans (Nat.mul_le_mul_right _ hd)

theorem vec_injective : Function.Injective fun w : Secrets F => ![w.alpha, w.beta, w.gamma, w.delta, w.tau] := by
  rintro ⟨a, b, c, d, e⟩ ⟨a', b', c', d', e'⟩ h
  have h0 := congrFun h 0
  have h1 := congrFun h 1
  have h2 := congrFun h 2
  have h3 := congrFun h 3
  have h4 := congrFun h 4
  simp at h0 h1 h2 h3 h4
  rw [h0, h1, h2, h3, h4]

/-- The same for a set of secrets. -/
theorem equation_few' [Fintype F] [DecidableEq F] {N : Nat} (hN : Fintype.card F = N) {n : Nat} (hn : 4 ≤ n) {a : Form1 F[X]} {b : Form2 F[X]}
    {c : Form1 F[X]} {s : FormS F[X]} (ha : a.Small n) (hb : b.Small n) (hc : c.Small n) (hs : s.Small n)
    (hne : (s.U + c.lU) * (s.V + c.lV) ≠ s.W + c.h) {A : Set (Secrets F)}
    (hA : ∀ w ∈ A, equation (a.map (eval w.tau)) (b.map (eval w.tau)) (c.map (eval w.tau)) (s.map (eval w.tau)) w.alpha w.beta w.gamma w.delta = 0) :
    A.encard ≤ ((3 * n - 2) * N ^ 4 : Nat) := by
  have hfew := equation_few hN hn ha hb hc hs hne
  rw [← vec_injective.encard_image]
  refine (Set.encard_le_encard (t := ((Finset.univ.filter fun v : Fin 5 → F => equation (a.map (eval (v 4))) (b.map (eval (v 4)))
    (c.map (eval (v 4))) (s.map (eval (v 4))) (v 0) (v 1) (v 2) (v 3) = 0 : Finset (Fin 5 → F)) : Set (Fin 5 → F))) ?_).trans ?_
  · rintro _ ⟨w, hw, rfl⟩
    exact Finset.mem_coe.2 (Finset.mem_filter.2 ⟨Finset.mem_univ _, hA w hw⟩)
  · rw [Set.encard_coe_eq_coe_finsetCard]
    exact_mod_cast hfew

end

end Poseidon.Groth16
