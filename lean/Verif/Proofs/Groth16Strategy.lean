import Verif.Proofs.Groth16Sound

/-! # The equation of a strategy, for the key of given matrices -/

set_option linter.unusedSectionVars false

namespace Poseidon.Groth16

open Polynomial Finset
open Poseidon.Sym (Matrices dot unit)

variable {F : Type} [Field F] [DecidableEq F]

/-! ### Combinations of points -/

theorem msm_getD {G : Type} [AddCommGroup G] [Module F G] : ∀ (bases : List G) (l : List F),
    msm bases l = ∑ j ∈ range bases.length, l.getD j 0 • bases.getD j 0 := by
  intro bases
  induction bases with
  | nil => intro l; simp [msm]
  | cons b bases ih =>
    intro l
    cases l with
    | nil => simp [msm]
    | cons x l =>
      rw [List.length_cons, Finset.sum_range_succ']
      simp only [List.getD_cons_succ, List.getD_cons_zero]
      rw [← ih l, add_comm]
      rfl

theorem msm_tab {G : Type} [AddCommGroup G] [Module F G] (g : G) (f : Nat → F) (N : Nat) (l : List F) :
    msm ((List.range N).map fun j => f j • g) l = (∑ j ∈ range N, l.getD j 0 * f j) • g := by
  rw [msm_getD, List.length_map, List.length_range, Finset.sum_smul]
  refine Finset.sum_congr rfl fun j hj => ?_
  rw [List.getD_eq_getElem ((List.range N).map fun j => f j • g) _ (by simpa using hj)]
  simp [smul_smul]

theorem range_drop (ni nw : Nat) : (List.range (ni + nw)).drop ni = (List.range nw).map (ni + ·) := by
  refine List.ext_getElem (by simp) fun k h1 h2 => ?_
  simp

/-! ### The forms -/

/-- `∑ j < n, l[j] * f j` -/
noncomputable def mix (n : Nat) (l : List F) (f : Nat → F[X]) : F[X] := ∑ j ∈ range n, C (l.getD j 0) * f j

theorem mix_eval (n : Nat) (l : List F) (f : Nat → F[X]) (x : F) : (mix n l f).eval x = ∑ j ∈ range n, l.getD j 0 * (f j).eval x := by
  simp only [mix, eval_finsetSum, eval_mul, eval_C]

theorem mix_mem (n : Nat) (l : List F) {f : Nat → F[X]} {k : Nat} (h : ∀ j, f j ∈ degreeLT F k) : mix n l f ∈ degreeLT F k := by
  refine Submodule.sum_mem _ fun j _ => ?_
  rw [← smul_eq_C_mul]
  exact Submodule.smul_mem _ _ (h j)

noncomputable def form1 (d : Domain F) (M : Matrices F) (ni nw : Nat) (k : Coeffs1 F) : Form1 F[X] where
  p := C k.one + mix (ni + nw) k.a (colPolyA d M.a ni) + mix (ni + nw) k.b (colPoly d M.b)
  kα := C k.alpha
  kβ := C k.beta
  kδ := C k.delta
  h := (X ^ d.size - 1) * poly (d.size - 1) (fun i => k.h.getD i 0) + mix nw k.l fun j => colPoly d M.c (ni + j)
  lU := mix nw k.l fun j => colPolyA d M.a ni (ni + j)
  lV := mix nw k.l fun j => colPoly d M.b (ni + j)
  cW := mix ni k.abc (colPoly d M.c)
  cU := mix ni k.abc (colPolyA d M.a ni)
  cV := mix ni k.abc (colPoly d M.b)

noncomputable def form2 (d : Domain F) (M : Matrices F) (ni nw : Nat) (k : Coeffs2 F) : Form2 F[X] where
  p := C k.one + mix (ni + nw) k.b (colPoly d M.b)
  kβ := C k.beta
  kγ := C k.gamma
  kδ := C k.delta

noncomputable def formS (d : Domain F) (M : Matrices F) (ni : Nat) (y : List F) : FormS F[X] where
  W := mix ni y (colPoly d M.c)
  U := mix ni y (colPolyA d M.a ni)
  V := mix ni y (colPoly d M.b)

theorem mix_small {d : Domain F} (hd : d.Good) (n : Nat) (l : List F) {f : Nat → F[X]} (h : ∀ j, f j ∈ degreeLT F d.size) :
    (mix n l f).natDegree ≤ d.size - 1 := natDegree_le_of hd.pos (lt_of_sub (mix_mem n l h))

theorem form1_small {d : Domain F} (hd : d.Good) (h1 : 1 < d.size) (M : Matrices F) (ni nw : Nat) (k : Coeffs1 F) :
    (form1 d M ni nw k).Small d.size := by
  have hX : (X ^ d.size - 1 : F[X]).natDegree = d.size := natDegree_X_pow_sub_C
  have hq := natDegree_le_of (by omega : 0 < d.size - 1) (poly_degree (d.size - 1) fun i => k.h.getD i 0)
  refine ⟨?_, (natDegree_C _).le, (natDegree_C _).le, (natDegree_C _).le, ?_, ?_, ?_, ?_, ?_, ?_⟩
  · exact (natDegree_add_le _ _).trans (max_le ((natDegree_add_le _ _).trans (max_le ((natDegree_C _).le.trans (Nat.zero_le _))
      (mix_small hd _ _ fun j => colPolyA_mem d M.a ni j))) (mix_small hd _ _ fun j => colPoly_mem d M.b j))
  · refine (natDegree_add_le _ _).trans (max_le (natDegree_mul_le.trans (by omega)) ((mix_small hd _ _ fun j => ?_).trans (by omega)))
    exact colPoly_mem d M.c (ni + j)
  · exact mix_small hd _ _ fun j => colPolyA_mem d M.a ni (ni + j)
  · exact mix_small hd _ _ fun j => colPoly_mem d M.b (ni + j)
  · exact mix_small hd _ _ fun j => colPoly_mem d M.c j
  · exact mix_small hd _ _ fun j => colPolyA_mem d M.a ni j
  · exact mix_small hd _ _ fun j => colPoly_mem d M.b j

theorem form2_small {d : Domain F} (hd : d.Good) (M : Matrices F) (ni nw : Nat) (k : Coeffs2 F) : (form2 d M ni nw k).Small d.size := by
  refine ⟨?_, (natDegree_C _).le, (natDegree_C _).le, (natDegree_C _).le⟩
  exact (natDegree_add_le _ _).trans (max_le ((natDegree_C _).le.trans (Nat.zero_le _)) (mix_small hd _ _ fun j => colPoly_mem d M.b j))

theorem formS_small {d : Domain F} (hd : d.Good) (M : Matrices F) (ni : Nat) (y : List F) : (formS d M ni y).Small d.size :=
  ⟨mix_small hd _ _ fun j => colPoly_mem d M.c j, mix_small hd _ _ fun j => colPolyA_mem d M.a ni j,
    mix_small hd _ _ fun j => colPoly_mem d M.b j⟩

section
variable {G1 G2 GT : Type} [AddCommGroup G1] [Module F G1] [AddCommGroup G2] [Module F G2] [AddCommGroup GT] [Module F GT]

theorem point1 {d : Domain F} (hd : d.Good) (g1 : G1) (g2 : G2) {w : Secrets F} (hw : w.Usable) (M : Matrices F) (ni nw : Nat)
    (k : Coeffs1 F) : ∃ v : F, k.point g1 (theKey d g1 g2 w M ni nw) = v • g1 ∧
      w.gamma * w.delta * v = ((form1 d M ni nw k).map (eval w.tau)).num w.alpha w.beta w.gamma w.delta := by
  have ha : msm (theKey d g1 g2 w M ni nw).aQuery k.a = (∑ j ∈ range (ni + nw), k.a.getD j 0 * (colPolyA d M.a ni j).eval w.tau) • g1 :=
    msm_tab _ _ _ _
  have hb : msm (theKey d g1 g2 w M ni nw).bG1Query k.b = (∑ j ∈ range (ni + nw), k.b.getD j 0 * (colPoly d M.b j).eval w.tau) • g1 :=
    msm_tab _ _ _ _
  have hh : msm (theKey d g1 g2 w M ni nw).hQuery k.h =
      (∑ i ∈ range (d.size - 1), k.h.getD i 0 * (d.vanishing w.tau * w.delta⁻¹ * w.tau ^ i)) • g1 := msm_tab _ _ _ _
  have hl : msm (theKey d g1 g2 w M ni nw).lQuery k.l = (∑ j ∈ range nw, k.l.getD j 0 * ((w.beta * (colPolyA d M.a ni (ni + j)).eval w.tau +
      w.alpha * (colPoly d M.b (ni + j)).eval w.tau + (colPoly d M.c (ni + j)).eval w.tau) * w.delta⁻¹)) • g1 := by
    show msm (((List.range (ni + nw)).drop ni).map _) _ = _
    rw [range_drop, List.map_map]
    exact msm_tab g1 (fun j => (w.beta * (colPolyA d M.a ni (ni + j)).eval w.tau +
      w.alpha * (colPoly d M.b (ni + j)).eval w.tau + (colPoly d M.c (ni + j)).eval w.tau) * w.delta⁻¹) _ _
  have hc : msm (theKey d g1 g2 w M ni nw).vk.gammaAbcG1 k.abc = (∑ j ∈ range ni, k.abc.getD j 0 * ((w.beta * (colPolyA d M.a ni j).eval w.tau +
      w.alpha * (colPoly d M.b j).eval w.tau + (colPoly d M.c j).eval w.tau) * w.gamma⁻¹)) • g1 := msm_tab _ _ _ _
  refine ⟨k.one + k.alpha * w.alpha + k.beta * w.beta + k.delta * w.delta +
    (∑ j ∈ range (ni + nw), k.a.getD j 0 * (colPolyA d M.a ni j).eval w.tau) +
    (∑ j ∈ range (ni + nw), k.b.getD j 0 * (colPoly d M.b j).eval w.tau) +
    (∑ i ∈ range (d.size - 1), k.h.getD i 0 * (d.vanishing w.tau * w.delta⁻¹ * w.tau ^ i)) +
    (∑ j ∈ range nw, k.l.getD j 0 * ((w.beta * (colPolyA d M.a ni (ni + j)).eval w.tau +
      w.alpha * (colPoly d M.b (ni + j)).eval w.tau + (colPoly d M.c (ni + j)).eval w.tau) * w.delta⁻¹)) +
    (∑ j ∈ range ni, k.abc.getD j 0 * ((w.beta * (colPolyA d M.a ni j).eval w.tau +
      w.alpha * (colPoly d M.b j).eval w.tau + (colPoly d M.c j).eval w.tau) * w.gamma⁻¹)), ?_, ?_⟩
  · unfold Coeffs1.point
    rw [ha, hb, hh, hl, hc]
    show k.one • g1 + k.alpha • w.alpha • g1 + k.beta • w.beta • g1 + k.delta • w.delta • g1 + _ + _ + _ + _ + _ = _
    simp only [smul_smul, ← add_smul]
  · obtain ⟨hγ, hδ⟩ := hw
    simp only [form1, Form1.map, Form1.num, eval_add, eval_mul, eval_C, mix_eval, poly_eval, eval_sub, eval_pow, eval_X, eval_one,
      ← hd.vanishing_eq]
    have e1 : ∑ i ∈ range (d.size - 1), k.h.getD i 0 * (d.vanishing w.tau * w.delta⁻¹ * w.tau ^ i) =
        w.delta⁻¹ * (d.vanishing w.tau * ∑ i ∈ range (d.size - 1), k.h.getD i 0 * w.tau ^ i) := by
      rw [Finset.mul_sum, Finset.mul_sum]
      exact Finset.sum_congr rfl fun i _ => by ring
    have e2 : ∀ (n : Nat) (l : List F) (u v c : Nat → F) (x : F), ∑ j ∈ range n, l.getD j 0 * ((w.beta * u j + w.alpha * v j + c j) * x) =
        x * (w.beta * ∑ j ∈ range n, l.getD j 0 * u j + w.alpha * ∑ j ∈ range n, l.getD j 0 * v j + ∑ j ∈ range n, l.getD j 0 * c j) := by
      intro n l u v c x
      rw [Finset.mul_sum, Finset.mul_sum, ← Finset.sum_add_distrib, ← Finset.sum_add_distrib, Finset.mul_sum]
      exact Finset.sum_congr rfl fun i _ => by ring
    rw [e1, e2 nw k.l (fun j => (colPolyA d M.a ni (ni + j)).eval w.tau) (fun j => (colPoly d M.b (ni + j)).eval w.tau)
      (fun j => (colPoly d M.c (ni + j)).eval w.tau), e2 ni k.abc (fun j => (colPolyA d M.a ni j).eval w.tau)
      (fun j => (colPoly d M.b j).eval w.tau) (fun j => (colPoly d M.c j).eval w.tau)]
    generalize ∑ i ∈ range (d.size - 1), k.h.getD i 0 * w.tau ^ i = s0
    field_simp
    ring

theorem point2 {d : Domain F} (g1 : G1) (g2 : G2) (w : Secrets F) (M : Matrices F) (ni nw : Nat) (k : Coeffs2 F) :
    k.point g2 (theKey d g1 g2 w M ni nw) = ((form2 d M ni nw k).map (eval w.tau)).num w.beta w.gamma w.delta • g2 := by
  have hb : msm (theKey d g1 g2 w M ni nw).bG2Query k.b = (∑ j ∈ range (ni + nw), k.b.getD j 0 * (colPoly d M.b j).eval w.tau) • g2 :=
    msm_tab _ _ _ _
  unfold Coeffs2.point
  rw [hb]
  show k.one • g2 + k.beta • w.beta • g2 + k.gamma • w.gamma • g2 + k.delta • w.delta • g2 + _ = _
  simp only [form2, Form2.map, Form2.num, eval_add, eval_C, mix_eval]
  simp only [smul_smul, ← add_smul]
  congr 1
  ring

/-- The verdict on the proof of a strategy. -/
theorem strategy_verify [DecidableEq GT] (e : G1 →ₗ[F] G2 →ₗ[F] GT) {g1 : G1} {g2 : G2} (he : e g1 g2 ≠ 0) {d : Domain F} (hd : d.Good)
    {M : Matrices F} {ni nw : Nat} (hM : Shape d M ni nw) {w : Secrets F} (hw : w.Usable) (k : Strategy F) {x : List F}
    (lx : x.length + 1 = ni) :
    verify e (theKey d g1 g2 w M ni nw).vk x (k.proof g1 g2 (theKey d g1 g2 w M ni nw)) =
      .ok (decide (equation ((form1 d M ni nw k.a).map (eval w.tau)) ((form2 d M ni nw k.b).map (eval w.tau))
        ((form1 d M ni nw k.c).map (eval w.tau)) ((formS d M ni (1 :: x)).map (eval w.tau)) w.alpha w.beta w.gamma w.delta = 0)) := by
  obtain ⟨va, ha, ha'⟩ := point1 hd g1 g2 hw M ni nw k.a
  obtain ⟨vc, hc, hc'⟩ := point1 hd g1 g2 hw M ni nw k.c
  have hx : x = ((List.range ni).drop 1).map fun j => (1 :: x).getD j 0 := by
    refine List.ext_getElem (by simp; omega) fun k k1 k2 => ?_
    simp only [List.getElem_map, List.getElem_drop, List.getElem_range]
    rw [List.getD_eq_getElem _ _ (by simp; omega)]
    simp [Nat.add_comm 1]
  have hp := prepareInputs_eq (n := d.size) (g1 := g1) (g2 := g2) (w := w) (zt := d.vanishing w.tau) (a := fun j => (colPolyA d M.a ni j).eval w.tau)
    (b := fun j => (colPoly d M.b j).eval w.tau) (c := fun j => (colPoly d M.c j).eval w.tau) (N := ni + nw) hM.pos
    (z' := fun j => (1 :: x).getD j 0) rfl
  rw [← hx] at hp
  unfold Strategy.proof
  rw [ha, hc, point2, verify_iff e g1 g2 he (vk := (theKey d g1 g2 w M ni nw).vk) hw.1 (w := w) rfl rfl rfl rfl hp]
  congr 2
  rw [← iff_eq_eq]
  have hS : ((List.range ni).map fun j => (1 :: x).getD j 0 * (w.beta * (colPolyA d M.a ni j).eval w.tau +
      w.alpha * (colPoly d M.b j).eval w.tau + (colPoly d M.c j).eval w.tau)).sum =
      ((formS d M ni (1 :: x)).map (eval w.tau)).W + ((formS d M ni (1 :: x)).map (eval w.tau)).U * w.beta +
        ((formS d M ni (1 :: x)).map (eval w.tau)).V * w.alpha := by
    simp only [formS, FormS.map, mix_eval]
    rw [sum_map_range, Finset.sum_mul, Finset.sum_mul, ← Finset.sum_add_distrib, ← Finset.sum_add_distrib]
    exact Finset.sum_congr rfl fun i _ => by ring
  rw [hS]
  unfold equation
  rw [← ha', ← hc']
  generalize (Form2.map (eval w.tau) (form2 d M ni nw k.b)).num w.beta w.gamma w.delta = vb
  generalize (FormS.map (eval w.tau) (formS d M ni (1 :: x))).W + _ + _ = SP
  have hgd : w.gamma * w.delta ≠ 0 := mul_ne_zero hw.1 hw.2
  rw [show w.gamma * w.delta * va * vb - w.gamma * w.delta * (w.alpha * w.beta) - w.gamma * w.delta * SP -
    w.delta * (w.gamma * w.delta * vc) = w.gamma * w.delta * (va * vb - SP - w.delta * vc - w.alpha * w.beta) by ring, mul_eq_zero,
    or_iff_right hgd]

end

/-- The assignment in the third part of a strategy. -/
def Strategy.assignment (k : Strategy F) (x : List F) (nw : Nat) : List F := 1 :: x ++ (List.range nw).map fun j => k.c.l.getD j 0

theorem mix_split (z x : List F) (l : List F) {ni nw : Nat} (hx : x.length = ni) (hz : z = x ++ (List.range nw).map fun j => l.getD j 0)
    (f : Nat → F[X]) : mix (ni + nw) z f = mix ni x f + mix nw l (fun j => f (ni + j)) := by
  unfold mix
  rw [Finset.sum_range_add]
  congr 1
  · refine Finset.sum_congr rfl fun j hj => ?_
    rw [hz, List.getD_append _ _ _ _ (by rw [hx]; exact Finset.mem_range.1 hj)]
  · refine Finset.sum_congr rfl fun j hj => ?_
    rw [hz, List.getD_append_right _ _ _ _ (by omega), List.getD_eq_getElem _ _ (by simpa [hx] using hj)]
    simp [hx]

/-- If the equation of a strategy holds identically, the assignment satisfies the matrices. -/
theorem strategy_satisfied {d : Domain F} (hd : d.Good) {M : Matrices F} {ni nw : Nat} (hM : Shape d M ni nw) (k : Strategy F) {x : List F}
    (lx : x.length + 1 = ni)
    (h : ((formS d M ni (1 :: x)).U + (form1 d M ni nw k.c).lU) * ((formS d M ni (1 :: x)).V + (form1 d M ni nw k.c).lV) =
      (formS d M ni (1 :: x)).W + (form1 d M ni nw k.c).h) :
    M.Satisfied fun j => (k.assignment x nw).getD j 0 := by
  set z := k.assignment x nw with hz
  have hl : z.length = ni + nw := by rw [hz]; simp [Strategy.assignment]; omega
  have ha := hM.a
  have hb := hM.b
  have hc := hM.c
  rw [← hl] at ha hb hc
  have sp := fun f => mix_split z (1 :: x) k.c.l (ni := ni) (nw := nw) (by simpa using lx) hz f
  have e1 : (formS d M ni (1 :: x)).U + (form1 d M ni nw k.c).lU = rowPolyA d M.a ni z := by
    rw [rowPolyA_eq hd ha (by omega), hl]
    exact (sp _).symm
  have e2 : (formS d M ni (1 :: x)).V + (form1 d M ni nw k.c).lV = rowPoly d M.b z := by
    rw [rowPoly_eq hd hb, hl]
    exact (sp _).symm
  have e3 : (formS d M ni (1 :: x)).W + (form1 d M ni nw k.c).h = (X ^ d.size - 1) * poly (d.size - 1) (fun i => k.c.h.getD i 0) +
      rowPoly d M.c z := by
    rw [rowPoly_eq hd hc, hl, show (∑ j ∈ range (ni + nw), C (z.getD j 0) * colPoly d M.c j) = mix (ni + nw) z (colPoly d M.c) from rfl, sp]
    simp only [formS, form1]
    ring
  rw [e1, e2, e3] at h
  rw [satisfied_iff hM]
  intro m hm
  have hm' : m < d.size := by have := hM.fits; omega
  have := congrArg (eval (d.gen ^ m)) h
  have hv : ((X ^ d.size - 1 : F[X])).eval (d.gen ^ m) = 0 := by
    rw [eval_sub, eval_pow, eval_X, eval_one, ← pow_mul, mul_comm, pow_mul, hd.root.pow_eq_one, one_pow, sub_self]
  rw [eval_mul, eval_add, eval_mul, hv, zero_mul, zero_add, rowPolyA_at hd _ _ _ hm' hm, rowPoly_at hd _ _ hm', rowPoly_at hd _ _ hm',
    dif_pos (hM.lb ▸ hm), dif_pos (hM.lc ▸ hm)] at this
  exact this

/-! ### The algorithm as a strategy -/

section
variable {G1 G2 : Type} [AddCommGroup G1] [Module F G1] [AddCommGroup G2] [Module F G2]

/-- What the prover does, as a strategy. -/
def honest (r s : F) (h input aux : List F) : Strategy F where
  a := ⟨0, 1, 0, r, 1 :: (input ++ aux), [], [], [], []⟩
  b := ⟨0, 1, 0, s, 1 :: (input ++ aux)⟩
  c := ⟨0, s, r, r * s, (1 :: (input ++ aux)).map (s * ·), (1 :: (input ++ aux)).map (r * ·), h, aux, []⟩

theorem msm_nil {G : Type} [AddCommGroup G] [Module F G] (l : List G) : msm l ([] : List F) = 0 := by simp [msm]

theorem msm_scale {G : Type} [AddCommGroup G] [Module F G] (k : F) (bases : List G) (l : List F) : msm bases (l.map (k * ·)) = k • msm bases l := by
  rw [msm_getD, msm_getD, Finset.smul_sum]
  refine Finset.sum_congr rfl fun j _ => ?_
  have := List.getD_map (l := l) (d := (0 : F)) (n := j) (k * ·)
  rw [mul_zero] at this
  rw [this, smul_smul]

theorem calculateCoeff_msm {G : Type} [AddCommGroup G] [Module F G] (initial vkParam : G) {query : List G} (hq : query ≠ []) (z : List F) :
    calculateCoeff initial query vkParam z = .ok (initial + msm query (1 :: z) + vkParam) := by
  obtain ⟨x, l, rfl⟩ := List.exists_cons_of_ne_nil hq
  unfold calculateCoeff
  rw [lget_lt _ (by simp), ok_bind]
  show Except.ok _ = Except.ok _
  simp [msm, add_assoc]

theorem createProof_honest {pk : ProvingKey G1 G2} (ha : pk.aQuery ≠ []) (hb : pk.bG1Query ≠ []) (hb2 : pk.bG2Query ≠ []) {g1 : G1} {g2 : G2}
    (r s : F) (h input aux : List F) : createProof pk r s h input aux = .ok ((honest r s h input aux).proof g1 g2 pk) := by
  unfold createProof
  dsimp only
  rw [calculateCoeff_msm _ _ ha, ok_bind]
  split_ifs with hr
  · subst hr
    rw [ok_bind, calculateCoeff_msm _ _ hb2, ok_bind]
    show Except.ok _ = Except.ok _
    unfold Strategy.proof honest Coeffs1.point Coeffs2.point
    simp only [msm_nil, msm_scale]
    congr 2
    · module
    · module
    · module
  rw [calculateCoeff_msm _ _ hb, ok_bind, calculateCoeff_msm _ _ hb2, ok_bind]
  show Except.ok _ = Except.ok _
  unfold Strategy.proof honest Coeffs1.point Coeffs2.point
  simp only [msm_nil, msm_scale]
  congr 2
  · module
  · module
  · module

end

end Poseidon.Groth16
