import Verif.Proofs.Groth16

/-! # What the verifier's verdict depends on: a polynomial at the secret point -/

set_option linter.unusedSectionVars false

namespace Poseidon.Groth16

open Polynomial Finset
open Poseidon.Sym (Matrices dot unit dot_cons)

variable {F : Type} [Field F] [DecidableEq F]

/-- Matrices that fit the numbers of variables and the domain. -/
structure Shape (d : Domain F) (M : Matrices F) (ni nw : Nat) : Prop where
  a : RowsIn (ni + nw) M.a
  b : RowsIn (ni + nw) M.b
  c : RowsIn (ni + nw) M.c
  lb : M.b.length = M.a.length
  lc : M.c.length = M.a.length
  fits : M.a.length + ni ≤ d.size
  pos : 0 < ni

/-- The key for these matrices. -/
noncomputable def theKey {G1 G2 : Type} [AddCommGroup G1] [Module F G1] [AddCommGroup G2] [Module F G2] (d : Domain F) (g1 : G1) (g2 : G2)
    (w : Secrets F) (M : Matrices F) (ni nw : Nat) : ProvingKey G1 G2 :=
  keyOf d.size g1 g2 w (d.vanishing w.tau) (fun j => (colPolyA d M.a ni j).eval w.tau) (fun j => (colPoly d M.b j).eval w.tau)
    (fun j => (colPoly d M.c j).eval w.tau) ni (ni + nw)

section
variable {G1 G2 GT : Type} [AddCommGroup G1] [Module F G1] [AddCommGroup G2] [Module F G2] [AddCommGroup GT] [Module F GT]

theorem generate_eq {d : Domain F} (hd : d.Good) {M : Matrices F} {ni nw : Nat} (hM : Shape d M ni nw) (g1 : G1) (g2 : G2)
    {w : Secrets F} (hw : w.Usable) : generateParameters d g1 g2 w M ni nw = .ok (theKey d g1 g2 w M ni nw) :=
  generateParameters_eq g1 g2 hw.1 hw.2 (instanceMap_eq hd hM.a hM.b hM.c hM.lb hM.lc hM.fits w.tau)

/-- What the rows of an assignment leave. -/
noncomputable def rowsLeft (d : Domain F) (g : F) (M : Matrices F) (ni : Nat) (z : List F) : F[X] :=
  rowPolyA d M.a ni z * rowPoly d M.b z - rowPoly d M.c z - (X ^ d.size - 1) *
    poly (d.size - 1) (quotientPoly d g (rowPolyA d M.a ni z) (rowPoly d M.b z) (rowPoly d M.c z)).coeff

theorem rowsLeft_eval {d : Domain F} (hd : d.Good) (g : F) (M : Matrices F) (ni : Nat) (z : List F) {m : Nat} :
    (rowsLeft d g M ni z).eval (d.gen ^ m) = (rowPolyA d M.a ni z).eval (d.gen ^ m) * (rowPoly d M.b z).eval (d.gen ^ m) -
      (rowPoly d M.c z).eval (d.gen ^ m) := by
  have : ((X ^ d.size - 1 : F[X])).eval (d.gen ^ m) = 0 := by
    rw [eval_sub, eval_pow, eval_X, eval_one, ← pow_mul, mul_comm, pow_mul, hd.root.pow_eq_one, one_pow, sub_self]
  rw [rowsLeft, eval_sub, eval_sub, eval_mul, eval_mul, this, zero_mul, sub_zero]

theorem rowPoly_at {d : Domain F} (hd : d.Good) (rows : List (List (F × Nat))) (z : List F) {m : Nat} (hm : m < d.size) :
    (rowPoly d rows z).eval (d.gen ^ m) = if h : m < rows.length then dot rows[m] fun j => z.getD j 0 else 0 := by
  rw [rowPoly, hd.interp_eval _ hm]
  split
  · next h => rw [List.getD_eq_getElem _ _ (by simpa using h)]; simp
  · next h => rw [List.getD_eq_default _ _ (by simpa using h)]

theorem rowPolyA_at {d : Domain F} (hd : d.Good) (rows : List (List (F × Nat))) (ni : Nat) (z : List F) {m : Nat} (hm : m < d.size)
    (h : m < rows.length) : (rowPolyA d rows ni z).eval (d.gen ^ m) = dot rows[m] fun j => z.getD j 0 := by
  rw [rowPolyA, hd.interp_eval _ hm, List.getD_append _ _ _ _ (by simpa using h), List.getD_eq_getElem _ _ (by simpa using h)]
  simp

theorem rowsLeft_at {d : Domain F} (hd : d.Good) (g : F) {M : Matrices F} {ni nw : Nat} (hM : Shape d M ni nw) (z : List F) {m : Nat}
    (hm : m < d.size) : (rowsLeft d g M ni z).eval (d.gen ^ m) =
      if h : m < M.a.length then dot M.a[m] (fun j => z.getD j 0) * dot (M.b[m]'(hM.lb ▸ h)) (fun j => z.getD j 0) -
        dot (M.c[m]'(hM.lc ▸ h)) (fun j => z.getD j 0) else 0 := by
  rw [rowsLeft_eval hd, rowPoly_at hd _ _ hm, rowPoly_at hd _ _ hm]
  by_cases h : m < M.a.length
  · rw [dif_pos h, dif_pos (hM.lb ▸ h), dif_pos (hM.lc ▸ h), rowPolyA_at hd _ _ _ hm h]
  · rw [dif_neg h, dif_neg (hM.lb ▸ h), dif_neg (hM.lc ▸ h), mul_zero, sub_zero]

theorem satisfied_iff {d : Domain F} {M : Matrices F} {ni nw : Nat} (hM : Shape d M ni nw) (z : Nat → F) :
    M.Satisfied z ↔ ∀ (m : Nat) (h : m < M.a.length), dot M.a[m] z * dot (M.b[m]'(hM.lb ▸ h)) z = dot (M.c[m]'(hM.lc ▸ h)) z := by
  constructor
  · intro h m hm
    exact h m _ _ _ (List.getElem?_eq_getElem _) (List.getElem?_eq_getElem _) (List.getElem?_eq_getElem _)
  · intro h m a b c ha hb hc
    obtain ⟨h1, rfl⟩ := List.getElem?_eq_some_iff.1 ha
    obtain ⟨h2, rfl⟩ := List.getElem?_eq_some_iff.1 hb
    obtain ⟨h3, rfl⟩ := List.getElem?_eq_some_iff.1 hc
    exact h m h1

theorem poly_self {p : F[X]} {n : Nat} (h : p.degree < n) : poly n p.coeff = p := by
  ext k
  by_cases hk : k < n
  · exact poly_coeff n _ hk
  · rw [coeff_eq_zero_of_degree_lt ((poly_degree n _).trans_le (by exact_mod_cast Nat.le_of_not_lt hk)),
      coeff_eq_zero_of_degree_lt (h.trans_le (by exact_mod_cast Nat.le_of_not_lt hk))]

theorem rowsLeft_zero {d : Domain F} (hd : d.Good) {g : F} (hg : d.Coset g) {M : Matrices F} {ni nw : Nat} (hM : Shape d M ni nw)
    {z : List F} (hs : M.Satisfied fun j => z.getD j 0) : rowsLeft d g M ni z = 0 := by
  have hv : d.vanishing g ≠ 0 := by rw [hd.vanishing_eq]; exact sub_ne_zero.2 hg.2
  have hp := hd.pos
  obtain ⟨h1, h2⟩ := quotient_exact hd hg.1 hv (pa := rowPolyA d M.a ni z) (pb := rowPoly d M.b z) (pc := rowPoly d M.c z)
    (d.interp_degree _) (d.interp_degree _) (d.interp_degree _) (by
      intro m hm
      have e := rowsLeft_eval hd g M ni z (m := m)
      rw [rowsLeft_at hd g hM z hm] at e
      split at e
      · next h =>
        rw [(satisfied_iff hM _).1 hs m h, sub_self] at e
        exact sub_eq_zero.1 e.symm
      · exact sub_eq_zero.1 e.symm)
  have h3 : (quotientPoly d g (rowPolyA d M.a ni z) (rowPoly d M.b z) (rowPoly d M.c z)).degree < (d.size - 1 : Nat) := by
    rw [degree_lt_iff_coeff_zero]
    intro k hk
    rcases Nat.eq_or_lt_of_le hk with rfl | hk
    · exact h2
    · exact coeff_eq_zero_of_degree_lt (((d.coset g).interp_degree _).trans_le (by
        show ((d.size : Nat) : WithBot Nat) ≤ _
        exact_mod_cast (by omega : d.size ≤ k)))
  rw [rowsLeft, poly_self h3, h1, sub_self]

theorem rowsLeft_natDegree {d : Domain F} (hd : d.Good) (g : F) (M : Matrices F) (ni : Nat) (z : List F) (h1 : 1 < d.size) :
    (rowsLeft d g M ni z).natDegree ≤ 2 * d.size - 2 := by
  have hp := hd.pos
  have ha : (rowPolyA d M.a ni z).natDegree ≤ d.size - 1 := natDegree_le_of hp (d.interp_degree _)
  have hb : (rowPoly d M.b z).natDegree ≤ d.size - 1 := natDegree_le_of hp (d.interp_degree _)
  have hc : (rowPoly d M.c z).natDegree ≤ d.size - 1 := natDegree_le_of hp (d.interp_degree _)
  have hX : (X ^ d.size - 1 : F[X]).natDegree = d.size := natDegree_X_pow_sub_C
  have hq := natDegree_le_of (by omega : 0 < d.size - 1) (poly_degree (d.size - 1)
    (quotientPoly d g (rowPolyA d M.a ni z) (rowPoly d M.b z) (rowPoly d M.c z)).coeff)
  refine (natDegree_sub_le _ _).trans (max_le ((natDegree_sub_le _ _).trans (max_le ?_ ?_)) ?_)
  · exact natDegree_mul_le.trans (by omega)
  · omega
  · exact natDegree_mul_le.trans (by omega)

/-- What two lists of public values leave. -/
noncomputable def publicLeft (d : Domain F) (M : Matrices F) (ni : Nat) (alpha beta : F) (z z' : List F) : F[X] :=
  ∑ j ∈ range ni, C (z.getD j 0 - z'.getD j 0) * (C beta * colPolyA d M.a ni j + C alpha * colPoly d M.b j + colPoly d M.c j)

theorem publicLeft_mem (d : Domain F) (M : Matrices F) (ni : Nat) (alpha beta : F) (z z' : List F) :
    publicLeft d M ni alpha beta z z' ∈ degreeLT F d.size := by
  refine Submodule.sum_mem _ fun j _ => ?_
  simp only [← smul_eq_C_mul]
  exact Submodule.smul_mem _ _ (Submodule.add_mem _ (Submodule.add_mem _ (Submodule.smul_mem _ _ (colPolyA_mem d M.a ni j))
    (Submodule.smul_mem _ _ (colPoly_mem d M.b j))) (colPoly_mem d M.c j))

/-- On the points that the key generator adds for the public variables, what is left is the difference of the values. -/
theorem publicLeft_at {d : Domain F} (hd : d.Good) {M : Matrices F} {ni nw : Nat} (hM : Shape d M ni nw) (alpha beta : F) (z z' : List F)
    {i : Nat} (hi : i < ni) :
    (publicLeft d M ni alpha beta z z').eval (d.gen ^ (M.a.length + i)) = (z.getD i 0 - z'.getD i 0) * beta := by
  have hm : M.a.length + i < d.size := by have := hM.fits; omega
  have lb := hM.lb
  have lc := hM.lc
  rw [publicLeft, eval_finsetSum, Finset.sum_eq_single i]
  · simp only [eval_mul, eval_add, eval_C, colPolyA_eval hd _ _ _ hm, colPoly_eval hd _ _ hm]
    rw [if_neg (by omega), if_pos ⟨hi, trivial⟩, if_neg (by omega), if_neg (by omega)]
    ring
  · intro j _ hj
    simp only [eval_mul, eval_add, eval_C, colPolyA_eval hd _ _ _ hm, colPoly_eval hd _ _ hm]
    rw [if_neg (by omega), if_neg (by omega), if_neg (by omega), if_neg (by omega)]
    ring
  · intro h
    exact absurd (Finset.mem_range.2 hi) h

theorem total_eq {z : List F} (f : Nat → F) : total z.length (fun j => z.getD j 0) f = ∑ j ∈ range z.length, z.getD j 0 * f j :=
  sum_map_range _ _

/-- The proof that the prover makes, and the number that the verifier's equation compares with zero. -/
theorem prove_eq (g1 : G1) (g2 : G2) {d : Domain F} (hd : d.Good)
    {g : F} (hg : d.Coset g) {M : Matrices F} {ni nw : Nat} (hM : Shape d M ni nw) {w : Secrets F} (hw : w.Usable) (r s : F) {x y : List F}
    (lx : x.length + 1 = ni) (ly : y.length = nw) :
    ∃ h, witnessMap d g M ni (1 :: x ++ y) = .ok h ∧ ∃ k : F, createProof (theKey d g1 g2 w M ni nw) r s h x y =
        .ok ⟨(r * w.delta + (rowPolyA d M.a ni (1 :: x ++ y)).eval w.tau + w.alpha) • g1,
          (s * w.delta + (rowPoly d M.b (1 :: x ++ y)).eval w.tau + w.beta) • g2, k • g1⟩ ∧
      ∀ x' : List F, x'.length = x.length → ∃ SP : F, prepareInputs (theKey d g1 g2 w M ni nw).vk x' = .ok ((SP * w.gamma⁻¹) • g1) ∧
        (r * w.delta + (rowPolyA d M.a ni (1 :: x ++ y)).eval w.tau + w.alpha) *
          (s * w.delta + (rowPoly d M.b (1 :: x ++ y)).eval w.tau + w.beta) - SP - w.delta * k - w.alpha * w.beta =
        (rowsLeft d g M ni (1 :: x ++ y)).eval w.tau + (publicLeft d M ni w.alpha w.beta (1 :: x ++ y) (1 :: x')).eval w.tau := by
  generalize hz : 1 :: x ++ y = z
  have hv : d.vanishing g ≠ 0 := by rw [hd.vanishing_eq]; exact sub_ne_zero.2 hg.2
  have hl : z.length = ni + nw := by rw [← hz]; simp; omega
  have ha := hM.a
  have hb := hM.b
  have hc := hM.c
  rw [← hl] at ha hb hc
  obtain ⟨h, h1, h2⟩ := witnessMap_eq (ni := ni) hv ha hb hc
  have hx : x = ((List.range ni).drop 1).map fun j => z.getD j 0 := by
    refine List.ext_getElem (by simp; omega) fun k k1 k2 => ?_
    simp only [List.getElem_map, List.getElem_drop, List.getElem_range, ← hz]
    rw [List.getD_eq_getElem _ _ (by simp; omega), List.getElem_append_left (by simp; omega)]
    simp [Nat.add_comm 1]
  have hy : y = ((List.range (ni + nw)).drop ni).map fun j => z.getD j 0 := by
    refine List.ext_getElem (by simp; omega) fun k k1 k2 => ?_
    simp only [List.getElem_map, List.getElem_drop, List.getElem_range, ← hz]
    rw [List.getD_eq_getElem _ _ (by simp; omega), List.getElem_append_right (by simp; omega)]
    simp only [List.length_cons, lx]
    congr 1
    omega
  obtain ⟨k, p1, p2⟩ := createProof_eq g1 g2 hw.2 d.size (d.vanishing w.tau) (fun j => (colPolyA d M.a ni j).eval w.tau)
    (fun j => (colPoly d M.b j).eval w.tau) (fun j => (colPoly d M.c j).eval w.tau) hM.pos (by omega : ni ≤ ni + nw) r s h
    (by rw [h2]; simp) (fun j => z.getD j 0) (by rw [← hz]; rfl)
  have ea : total (ni + nw) (fun j => z.getD j 0) (fun j => (colPolyA d M.a ni j).eval w.tau) = (rowPolyA d M.a ni z).eval w.tau := by
    rw [rowPolyA_eq hd ha (by omega), ← hl, total_eq]
    simp only [eval_finsetSum, eval_mul, eval_C]
  have eb : total (ni + nw) (fun j => z.getD j 0) (fun j => (colPoly d M.b j).eval w.tau) = (rowPoly d M.b z).eval w.tau := by
    rw [rowPoly_eq hd hb, ← hl, total_eq]
    simp only [eval_finsetSum, eval_mul, eval_C]
  rw [ea, eb] at p1 p2
  refine ⟨h, h1, k, ?_, ?_⟩
  · conv_lhs => rw [hx, hy]
    exact p1
  · intro x' lx'
    have hx' : x' = ((List.range ni).drop 1).map fun j => (1 :: x').getD j 0 := by
      refine List.ext_getElem (by simp; omega) fun k k1 k2 => ?_
      simp only [List.getElem_map, List.getElem_drop, List.getElem_range]
      rw [List.getD_eq_getElem _ _ (by simp; omega)]
      simp [Nat.add_comm 1]
    obtain ⟨SP, q1, q2⟩ := p2 (fun j => (1 :: x').getD j 0) rfl
    rw [← hx'] at q1
    refine ⟨SP, q1, q2.trans ?_⟩
    unfold residue
    congr 1
    · rw [rowsLeft, eval_sub, eval_sub, eval_mul, eval_mul, poly_eval, eval_sub, eval_pow, eval_X, eval_one, ← hd.vanishing_eq,
        rowPolyA_eq hd ha (by omega), rowPoly_eq hd hb, rowPoly_eq hd hc, ← hl, total_eq, total_eq, total_eq]
      simp only [eval_finsetSum, eval_mul, eval_C]
      congr 1
      rw [sum_map_range, Finset.mul_sum]
      refine Finset.sum_congr rfl fun i hi => ?_
      have hi := Finset.mem_range.1 hi
      rw [h2, getD_map_range _ (by omega), rowPolyA_eq hd ha (by omega), rowPoly_eq hd hb, rowPoly_eq hd hc]
      ring
    · rw [sum_map_range, publicLeft, eval_finsetSum]
      simp only [eval_mul, eval_add, eval_C]

theorem prove_verify [DecidableEq GT] (e : G1 →ₗ[F] G2 →ₗ[F] GT) {g1 : G1} {g2 : G2} (he : e g1 g2 ≠ 0) {d : Domain F} (hd : d.Good)
    {g : F} (hg : d.Coset g) {M : Matrices F} {ni nw : Nat} (hM : Shape d M ni nw) {w : Secrets F} (hw : w.Usable) (r s : F) {x y : List F}
    (lx : x.length + 1 = ni) (ly : y.length = nw) :
    ∃ h, witnessMap d g M ni (1 :: x ++ y) = .ok h ∧ ∃ p, createProof (theKey d g1 g2 w M ni nw) r s h x y = .ok p ∧
      ∀ x' : List F, x'.length = x.length → verify e (theKey d g1 g2 w M ni nw).vk x' p =
        .ok (decide ((rowsLeft d g M ni (1 :: x ++ y)).eval w.tau +
          (publicLeft d M ni w.alpha w.beta (1 :: x ++ y) (1 :: x')).eval w.tau = 0)) := by
  obtain ⟨h, h1, k, h2, h3⟩ := prove_eq g1 g2 hd hg hM hw r s lx ly
  refine ⟨h, h1, _, h2, fun x' lx' => ?_⟩
  obtain ⟨SP, h4, h5⟩ := h3 x' lx'
  rw [verify_iff e g1 g2 he hw.1 (w := w) rfl rfl rfl rfl h4, h5]

/-- A polynomial that is not zero has few roots. -/
theorem few_roots {p : F[X]} (hp : p ≠ 0) {n : Nat} (hn : p.natDegree ≤ n) : ∃ bad : Finset F, bad.card ≤ n ∧ ∀ x, x ∉ bad → p.eval x ≠ 0 := by
  refine ⟨p.roots.toFinset, (Multiset.toFinset_card_le _).trans ((card_roots' p).trans hn), fun x hx h => hx ?_⟩
  rw [Multiset.mem_toFinset, mem_roots hp]
  exact h

end

end Poseidon.Groth16
