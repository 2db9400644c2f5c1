import Verif.Proofs.Domain
import Verif.Proofs.SymbolicPreimage
import Mathlib.Data.List.GetD

/-! # Key generation, prover and verifier: the equation that the verifier checks -/

set_option linter.unusedSectionVars false

namespace Poseidon.Groth16

open Polynomial Finset
open Poseidon.Sym (Matrices dot unit dot_cons)

variable {F : Type} [Field F] [DecidableEq F]

/-! ### Tables -/

theorem lget_tab {α : Type} (f : Nat → α) {n i : Nat} (h : i < n) : lget ((List.range n).map f) i = .ok (f i) := by
  rw [lget_lt _ (by simpa using h)]
  simp

theorem lset_tab {α : Type} (f : Nat → α) {n i : Nat} (h : i < n) (y : α) :
    R1cs.lset ((List.range n).map f) i y = .ok ((List.range n).map (Function.update f i y)) := by
  rw [R1cs.lset_lt _ (by simpa using h)]
  congr 1
  refine List.ext_getElem (by simp) fun k h1 h2 => ?_
  rw [List.getElem_set]
  simp only [List.getElem_map, List.getElem_range]
  split
  · next e => subst e; rw [Function.update_self]
  · next e => rw [Function.update_of_ne (Ne.symm e)]

theorem tab_congr {α : Type} {f f' : Nat → α} {n : Nat} (h : ∀ i, i < n → f i = f' i) :
    (List.range n).map f = (List.range n).map f' := List.map_congr_left fun i hi => h i (List.mem_range.1 hi)

theorem tab_getD {α : Type} {l : List α} {n : Nat} (h : l.length = n) (x : α) : l = (List.range n).map fun i => l.getD i x := by
  refine List.ext_getElem (by simp [h]) fun k h1 h2 => ?_
  simp [h1]

/-! ### `instance_map_with_evaluation` -/

theorem addRow_tab (u : F) {N : Nat} : ∀ (row : List (F × Nat)) (f : Nat → F), (∀ x ∈ row, x.2 < N) →
    addRow u row ((List.range N).map f) = .ok ((List.range N).map fun j => f j + u * dot row (unit j)) := by
  intro row
  induction row with
  | nil => intro f _; simp [addRow, forList, dot]
  | cons x row ih =>
    intro f h
    have hx := h x List.mem_cons_self
    have e : addRow u (x :: row) ((List.range N).map f) =
        addRow u row ((List.range N).map (Function.update f x.2 (f x.2 + u * x.1))) := by
      unfold addRow
      rw [forList, lget_tab f hx, ok_bind, lset_tab f hx, ok_bind]
    rw [e, ih _ fun y hy => h y (List.mem_cons_of_mem _ hy)]
    congr 1
    refine tab_congr fun j hj => ?_
    rw [dot_cons]
    by_cases e : j = x.2
    · subst e
      rw [Function.update_self, unit, if_pos rfl]
      ring
    · rw [Function.update_of_ne e, unit, if_neg (Ne.symm e)]
      ring

theorem addRows_tab {N : Nat} : ∀ (rows : List (List (F × Nat))) (us : List F) (f : Nat → F), (∀ row ∈ rows, ∀ x ∈ row, x.2 < N) →
    addRows us rows ((List.range N).map f) =
      .ok ((List.range N).map fun j => f j + ((rows.zip us).map fun x => x.2 * dot x.1 (unit j)).sum) := by
  intro rows
  induction rows with
  | nil => intro us f _; simp [addRows, forList]
  | cons row rows ih =>
    intro us f h
    cases us with
    | nil => simp [addRows, forList]
    | cons u us =>
      have e : addRows (u :: us) (row :: rows) ((List.range N).map f) =
          addRows us rows ((List.range N).map fun j => f j + u * dot row (unit j)) := by
        unfold addRows
        rw [List.zip_cons_cons, forList]
        dsimp only
        rw [addRow_tab u row f (h row List.mem_cons_self), ok_bind]
      rw [e, ih us _ fun row hr => h row (List.mem_cons_of_mem _ hr)]
      congr 1
      refine tab_congr fun j hj => ?_
      rw [List.zip_cons_cons, List.map_cons, List.sum_cons, add_assoc]

theorem sum_zip {α : Type} (g : α → F → F) (x : α) : ∀ (l : List α) (us : List F), l.length ≤ us.length →
    ((l.zip us).map fun y => g y.1 y.2).sum = ∑ i ∈ range l.length, g (l.getD i x) (us.getD i 0) := by
  intro l
  induction l with
  | nil => intro us _; simp
  | cons a l ih =>
    intro us h
    cases us with
    | nil => simp at h
    | cons u us =>
      rw [List.zip_cons_cons, List.map_cons, List.sum_cons, ih us (by simpa using h), List.length_cons, Finset.sum_range_succ']
      rw [add_comm]
      congr 1

/-- The polynomial of a column of one of the matrices. -/
noncomputable def colPoly (d : Domain F) (rows : List (List (F × Nat))) (j : Nat) : F[X] :=
  ∑ i ∈ range rows.length, C (dot (rows.getD i []) (unit j)) * d.lag i

/-- The polynomial of a column of the first matrix: the public columns are made independent. -/
noncomputable def colPolyA (d : Domain F) (rows : List (List (F × Nat))) (numInstance j : Nat) : F[X] :=
  colPoly d rows j + if j < numInstance then d.lag (rows.length + j) else 0

theorem lt_of_sub {p : F[X]} {n : Nat} (h : p ∈ degreeLT F n) : p.degree < n := mem_degreeLT.1 h

theorem lag_mem (d : Domain F) (i : Nat) : d.lag i ∈ degreeLT F d.size := mem_degreeLT.2 (d.lag_degree i)

theorem colPoly_mem (d : Domain F) (rows : List (List (F × Nat))) (j : Nat) : colPoly d rows j ∈ degreeLT F d.size := by
  refine Submodule.sum_mem _ fun i _ => ?_
  rw [← smul_eq_C_mul]
  exact Submodule.smul_mem _ _ (lag_mem d i)

theorem colPolyA_mem (d : Domain F) (rows : List (List (F × Nat))) (ni j : Nat) : colPolyA d rows ni j ∈ degreeLT F d.size := by
  refine Submodule.add_mem _ (colPoly_mem d rows j) ?_
  split
  · exact lag_mem d _
  · exact Submodule.zero_mem _

theorem colPoly_eval {d : Domain F} (hd : d.Good) (rows : List (List (F × Nat))) (j : Nat) {m : Nat}
    (hm : m < d.size) : (colPoly d rows j).eval (d.gen ^ m) = if m < rows.length then dot (rows.getD m []) (unit j) else 0 := by
  unfold colPoly
  rw [eval_finsetSum]
  simp only [eval_mul, eval_C, hd.lag_eval _ hm]
  simp

theorem colPolyA_eval {d : Domain F} (hd : d.Good) (rows : List (List (F × Nat))) (ni j : Nat) {m : Nat}
    (hm : m < d.size) :
    (colPolyA d rows ni j).eval (d.gen ^ m) =
      if m < rows.length then dot (rows.getD m []) (unit j) else if j < ni ∧ m = rows.length + j then 1 else 0 := by
  unfold colPolyA
  rw [eval_add, colPoly_eval hd rows j hm]
  by_cases h1 : j < ni
  · rw [if_pos h1, hd.lag_eval _ hm]
    by_cases h2 : m < rows.length
    · rw [if_pos h2, if_pos h2, if_neg (by omega), add_zero]
    · rw [if_neg h2, if_neg h2, zero_add]
      simp [h1]
  · rw [if_neg h1]
    simp [h1]

theorem forRange_public {N ni nc : Nat} {us : List F} (hN : ni ≤ N) (hu : ni + nc ≤ us.length) :
    forRange 0 ni ((List.range N).map fun _ => (0 : F)) (fun i a => do
      let x ← lget us (i + nc)
      R1cs.lset a i x) = .ok ((List.range N).map fun j => if j < ni then us.getD (nc + j) 0 else 0) := by
  obtain ⟨a, h1, h2⟩ := forRange_spec (fun k a => a = (List.range N).map fun j => if j < k then us.getD (nc + j) 0 else 0)
    (body := fun i a => do
      let x ← lget us (i + nc)
      R1cs.lset a i x) (lo := 0) (hi := ni) (Nat.zero_le _) (s := (List.range N).map fun _ => (0 : F)) (by simp) (by
      intro k s _ hk hs
      subst hs
      rw [lget_lt us (by omega : k + nc < us.length), ok_bind, lset_tab _ (by omega : k < N)]
      refine ⟨_, rfl, tab_congr fun j hj => ?_⟩
      by_cases e : j = k
      · subst e
        rw [Function.update_self, if_pos (by omega), List.getD_eq_getElem _ _ (by omega)]
        simp [Nat.add_comm]
      · rw [Function.update_of_ne e]
        have : j < k ↔ j < k + 1 := by omega
        simp [this])
  rw [h1, h2]

/-- Rows within `n` columns. -/
def RowsIn (n : Nat) (rows : List (List (F × Nat))) : Prop := ∀ row ∈ rows, ∀ x ∈ row, x.2 < n

theorem instanceMap_eq {d : Domain F} (hd : d.Good) {M : Matrices F} {ni nw : Nat} (ha : RowsIn (ni + nw) M.a)
    (hb : RowsIn (ni + nw) M.b) (hc : RowsIn (ni + nw) M.c) (lb : M.b.length = M.a.length) (lc : M.c.length = M.a.length)
    (hs : M.a.length + ni ≤ d.size) (t : F) :
    instanceMap d M ni nw t = .ok ⟨(List.range (ni + nw)).map fun j => (colPolyA d M.a ni j).eval t,
      (List.range (ni + nw)).map fun j => (colPoly d M.b j).eval t,
      (List.range (ni + nw)).map fun j => (colPoly d M.c j).eval t, d.vanishing t⟩ := by
  have hz : (List.replicate (ni + nw) (0 : F)) = (List.range (ni + nw)).map fun _ => (0 : F) := by
    refine List.ext_getElem (by simp) fun k h1 h2 => by simp
  have hl : (d.lagrange t).length = d.size := by rw [hd.lagrange_eq]; simp
  have hg : ∀ i, i < d.size → (d.lagrange t).getD i 0 = (d.lag i).eval t := fun i hi => by
    rw [hd.lagrange_eq, getD_map_range _ hi]
  have hcol : ∀ rows : List (List (F × Nat)), rows.length ≤ d.size → ∀ j,
      ((rows.zip (d.lagrange t)).map fun x => x.2 * dot x.1 (unit j)).sum = (colPoly d rows j).eval t := fun rows hr j => by
    rw [sum_zip (fun row u => u * dot row (unit j)) [] rows _ (by rw [hl]; exact hr), colPoly, eval_finsetSum]
    refine Finset.sum_congr rfl fun i hi => ?_
    rw [hg i ((Finset.mem_range.1 hi).trans_le hr), eval_mul, eval_C, mul_comm]
  unfold instanceMap
  dsimp only
  rw [hz, forRange_public (by omega) (by rw [hl]; omega), ok_bind, addRows_tab _ _ _ ha, ok_bind, addRows_tab _ _ _ hb, ok_bind,
    addRows_tab _ _ _ hc, ok_bind]
  show Except.ok _ = _
  congr 2
  · refine tab_congr fun j hj => ?_
    rw [hcol _ (by omega), colPolyA, eval_add, add_comm]
    congr 1
    split
    · rw [hg _ (by omega)]
    · rw [eval_zero]
  · refine tab_congr fun j hj => ?_
    rw [hcol _ (by omega), zero_add]
  · refine tab_congr fun j hj => ?_
    rw [hcol _ (by omega), zero_add]

/-! ### `witness_map_from_matrices` -/

theorem evaluateConstraint_eq {z : List F} : ∀ {row : List (F × Nat)}, (∀ x ∈ row, x.2 < z.length) →
    evaluateConstraint row z = .ok (dot row fun j => z.getD j 0) := by
  have key : ∀ (row : List (F × Nat)) (acc : F), (∀ x ∈ row, x.2 < z.length) →
      (forList row acc fun x acc => do
        let y ← lget z x.2
        return acc + y * x.1) = .ok (acc + dot row fun j => z.getD j 0) := by
    intro row
    induction row with
    | nil => intro acc _; simp [forList, dot]
    | cons x row ih =>
      intro acc h
      have hx := h x List.mem_cons_self
      rw [forList, lget_lt z hx, ok_bind]
      show (Except.ok (acc + z[x.2] * x.1) >>= fun s' => _) = _
      rw [ok_bind, ih _ fun y hy => h y (List.mem_cons_of_mem _ hy), dot_cons, List.getD_eq_getElem _ _ hx]
      congr 1
      ring
  intro row h
  unfold evaluateConstraint
  rw [key row 0 h, zero_add]

theorem rowValues_eq {z : List F} {rows : List (List (F × Nat))} (h : RowsIn z.length rows) :
    rowValues rows z = .ok (rows.map fun row => dot row fun j => z.getD j 0) := by
  have key : ∀ (rows : List (List (F × Nat))) (acc : List F), RowsIn z.length rows →
      (forList rows acc fun row acc => do
        let y ← evaluateConstraint row z
        return acc ++ [y]) = .ok (acc ++ rows.map fun row => dot row fun j => z.getD j 0) := by
    intro rows
    induction rows with
    | nil => intro acc _; simp [forList]
    | cons row rows ih =>
      intro acc h
      rw [forList, evaluateConstraint_eq (h row List.mem_cons_self), ok_bind]
      show (Except.ok _ >>= fun s' => _) = _
      rw [ok_bind, ih _ fun y hy => h y (List.mem_cons_of_mem _ hy)]
      simp
  unfold rowValues
  rw [key rows [] h, List.nil_append]

/-- The polynomial with the values of the rows. -/
noncomputable def rowPoly (d : Domain F) (rows : List (List (F × Nat))) (z : List F) : F[X] :=
  d.interp fun i => (rows.map fun row => dot row fun j => z.getD j 0).getD i 0

/-- The same for the first matrix: the public values follow. -/
noncomputable def rowPolyA (d : Domain F) (rows : List (List (F × Nat))) (numInstance : Nat) (z : List F) : F[X] :=
  d.interp fun i => ((rows.map fun row => dot row fun j => z.getD j 0) ++ z.take numInstance).getD i 0

theorem sum_unit {N : Nat} (z : Nat → F) : ∀ {row : List (F × Nat)}, (∀ x ∈ row, x.2 < N) →
    ∑ j ∈ range N, z j * dot row (unit j) = dot row z := by
  intro row
  induction row with
  | nil => intro _; simp [dot]
  | cons x row ih =>
    intro h
    simp only [dot_cons, mul_add, Finset.sum_add_distrib]
    rw [ih fun y hy => h y (List.mem_cons_of_mem _ hy)]
    congr 1
    have hx := h x List.mem_cons_self
    unfold unit
    simp only [mul_ite, mul_one, mul_zero]
    rw [Finset.sum_ite_eq (range N) x.2, if_pos (Finset.mem_range.2 hx)]
    ring

theorem rowPoly_eq {d : Domain F} (hd : d.Good) {rows : List (List (F × Nat))} {z : List F} (h : RowsIn z.length rows) :
    rowPoly d rows z = ∑ j ∈ range z.length, C (z.getD j 0) * colPoly d rows j := by
  refine hd.eq_of_eval one_ne_zero (d.interp_degree _) (lt_of_sub (Submodule.sum_mem _ fun j _ => ?_)) fun m hm => ?_
  · rw [← smul_eq_C_mul]
    exact Submodule.smul_mem _ _ (colPoly_mem d rows j)
  · rw [one_mul, rowPoly, hd.interp_eval _ hm, eval_finsetSum]
    simp only [eval_mul, eval_C, colPoly_eval hd rows _ hm]
    by_cases h1 : m < rows.length
    · simp only [if_pos h1]
      have e : rows.getD m [] = rows[m] := List.getD_eq_getElem _ _ h1
      rw [e, sum_unit (fun j => z.getD j 0) (h _ (List.getElem_mem h1)), List.getD_eq_getElem _ _ (by simpa using h1)]
      simp
    · simp only [if_neg h1, mul_zero, Finset.sum_const_zero]
      rw [List.getD_eq_default _ _ (by simpa using h1)]

theorem rowPolyA_eq {d : Domain F} (hd : d.Good) {rows : List (List (F × Nat))} {z : List F} {ni : Nat} (h : RowsIn z.length rows)
    (hz : ni ≤ z.length) :
    rowPolyA d rows ni z = ∑ j ∈ range z.length, C (z.getD j 0) * colPolyA d rows ni j := by
  refine hd.eq_of_eval one_ne_zero (d.interp_degree _) (lt_of_sub (Submodule.sum_mem _ fun j _ => ?_)) fun m hm => ?_
  · rw [← smul_eq_C_mul]
    exact Submodule.smul_mem _ _ (colPolyA_mem d rows ni j)
  · rw [one_mul, rowPolyA, hd.interp_eval _ hm, eval_finsetSum]
    simp only [eval_mul, eval_C, colPolyA_eval hd rows ni _ hm]
    by_cases h1 : m < rows.length
    · simp only [if_pos h1]
      have e : rows.getD m [] = rows[m] := List.getD_eq_getElem _ _ h1
      rw [e, sum_unit (fun j => z.getD j 0) (h _ (List.getElem_mem h1)), List.getD_append _ _ _ _ (by simpa using h1),
        List.getD_eq_getElem _ _ (by simpa using h1)]
      simp
    · simp only [if_neg h1]
      rw [List.getD_append_right _ _ _ _ (by simpa using h1), List.length_map]
      by_cases h2 : m < rows.length + ni
      · rw [List.getD_eq_getElem _ _ (by simp; omega), List.getElem_take]
        rw [Finset.sum_eq_single (m - rows.length)]
        · rw [if_pos (by omega), List.getD_eq_getElem _ _ (by omega), mul_one]
        · intro j _ hj
          rw [if_neg (by omega), mul_zero]
        · intro hj
          exact absurd (Finset.mem_range.2 (by omega)) hj
      · rw [List.getD_eq_default _ _ (by simp; omega)]
        symm
        refine Finset.sum_eq_zero fun j _ => ?_
        rw [if_neg (by omega), mul_zero]

/-- The polynomial whose coefficients the prover takes for the quotient. -/
noncomputable def quotientPoly (d : Domain F) (g : F) (pa pb pc : F[X]) : F[X] :=
  (d.coset g).interp fun i => ((pa.eval (g * d.gen ^ i) * pb.eval (g * d.gen ^ i)) - pc.eval (g * d.gen ^ i)) * (d.vanishing g)⁻¹

theorem witnessMap_eq {d : Domain F} {g : F} (hg : d.vanishing g ≠ 0) {M : Matrices F} {ni : Nat} {z : List F}
    (ha : RowsIn z.length M.a) (hb : RowsIn z.length M.b) (hc : RowsIn z.length M.c) :
    ∃ h : List F, witnessMap d g M ni z = .ok h ∧
      h = (List.range d.size).map (quotientPoly d g (rowPolyA d M.a ni z) (rowPoly d M.b z) (rowPoly d M.c z)).coeff := by
  unfold witnessMap
  rw [rowValues_eq ha, ok_bind, rowValues_eq hb, ok_bind]
  dsimp only
  rw [rowValues_eq hc, ok_bind, if_neg hg]
  refine ⟨_, rfl, ?_⟩
  rw [Domain.fft_ifft, Domain.fft_ifft, Domain.fft_ifft, Domain.ifft_eq]
  show (List.range d.size).map _ = _
  refine tab_congr fun k hk => ?_
  rw [quotientPoly]
  conv_rhs => rw [Domain.interp]
  rw [poly_coeff (d.coset g).size _ hk]
  show (_ * ∑ i ∈ range d.size, _) = (_ * ∑ i ∈ range d.size, _)
  congr 1
  refine Finset.sum_congr rfl fun i hi => ?_
  have hi := Finset.mem_range.1 hi
  congr 1
  dsimp only
  rw [List.getD_eq_getElem _ _ (by simp [hi])]
  simp [rowPolyA, rowPoly]

theorem natDegree_le_of {p : F[X]} {n : Nat} (hn : 0 < n) (h : p.degree < n) : p.natDegree ≤ n - 1 := by
  by_cases hp : p = 0
  · rw [hp, natDegree_zero]
    exact Nat.zero_le _
  · have := (natDegree_lt_iff_degree_lt hp).2 h
    omega

/-- If the product minus the third polynomial vanishes on the domain, the quotient is exact. -/
theorem quotient_exact {d : Domain F} (hd : d.Good) {g : F} (hg0 : g ≠ 0) (hg : d.vanishing g ≠ 0) {pa pb pc : F[X]}
    (da : pa.degree < d.size) (db : pb.degree < d.size) (dc : pc.degree < d.size)
    (h : ∀ i, i < d.size → pa.eval (d.gen ^ i) * pb.eval (d.gen ^ i) = pc.eval (d.gen ^ i)) :
    pa * pb - pc = (X ^ d.size - 1) * quotientPoly d g pa pb pc ∧ (quotientPoly d g pa pb pc).coeff (d.size - 1) = 0 := by
  obtain ⟨Q, hQ⟩ := hd.dvd (p := pa * pb - pc) fun i hi => by rw [eval_sub, eval_mul, h i hi, sub_self]
  have hX : (X ^ d.size - 1 : F[X]).degree = d.size := degree_X_pow_sub_C hd.pos 1
  have hm : (X ^ d.size - 1 : F[X]).Monic := monic_X_pow_sub_C 1 hd.pos.ne'
  have hp := hd.pos
  have hlt : Q.degree < (d.size - 1 : Nat) := by
    by_cases hQ0 : Q = 0
    · rw [hQ0, degree_zero]
      exact WithBot.bot_lt_coe _
    have hne : pa * pb - pc ≠ 0 := by rw [hQ]; exact mul_ne_zero hm.ne_zero hQ0
    have e1 : (pa * pb - pc).natDegree = d.size + Q.natDegree := by
      rw [hQ, hm.natDegree_mul' hQ0, natDegree_eq_of_degree_eq_some hX]
    have e2 : (pa * pb - pc).natDegree ≤ 2 * (d.size - 1) := by
      refine (natDegree_sub_le _ _).trans (max_le ((natDegree_mul_le (p := pa) (q := pb)).trans ?_) ?_)
      · have h1 := natDegree_le_of hp da
        have h2 := natDegree_le_of hp db
        omega
      · have h3 := natDegree_le_of hp dc
        omega
    rw [← natDegree_lt_iff_degree_lt hQ0]
    omega
  have hlt' : Q.degree < d.size := hlt.trans_le (by exact_mod_cast Nat.sub_le _ _)
  have e : quotientPoly d g pa pb pc = Q := by
    refine hd.eq_of_eval hg0 ((d.coset g).interp_degree _) hlt' fun i hi => ?_
    rw [quotientPoly, hd.interp_coset hg0 _ hi]
    have := congrArg (eval (g * d.gen ^ i)) hQ
    rw [eval_sub, eval_mul, eval_mul, eval_sub, eval_pow, eval_X, eval_one, mul_pow, ← pow_mul, mul_comm i, pow_mul,
      hd.root.pow_eq_one, one_pow, mul_one, ← hd.vanishing_eq] at this
    rw [this, mul_comm, ← mul_assoc, inv_mul_cancel₀ hg, one_mul]
  rw [e]
  exact ⟨hQ, coeff_eq_zero_of_degree_lt hlt⟩

/-! ### The equation of the verifier -/

variable {G1 G2 GT : Type} [AddCommGroup G1] [Module F G1] [AddCommGroup G2] [Module F G2] [AddCommGroup GT] [Module F GT]

theorem msm_map {G : Type} [AddCommGroup G] [Module F G] (g : G) (f z : Nat → F) (l : List Nat) :
    msm (l.map fun j => f j • g) (l.map z) = ((l.map fun j => z j * f j).sum) • g := by
  induction l with
  | nil => simp [msm]
  | cons j l ih =>
    have e : msm ((j :: l).map fun j => f j • g) ((j :: l).map z) = z j • f j • g + msm (l.map fun j => f j • g) (l.map z) := rfl
    rw [e, ih, List.map_cons, List.sum_cons, add_smul, mul_smul]

theorem combine_map (w : Secrets F) (inverse : F) (a b c : Nat → F) (l : List Nat) :
    combine w inverse (l.map a) (l.map b) (l.map c) = l.map fun j => (w.beta * a j + w.alpha * b j + c j) * inverse := by
  induction l with
  | nil => rfl
  | cons j l ih =>
    have e : combine w inverse ((j :: l).map a) ((j :: l).map b) ((j :: l).map c) =
      ((w.beta * a j + w.alpha * b j + c j) * inverse) :: combine w inverse (l.map a) (l.map b) (l.map c) := rfl
    rw [e, ih, List.map_cons]

/-- The key for polynomials with these values at `tau`. -/
def keyOf (n : Nat) (g1 : G1) (g2 : G2) (w : Secrets F) (zt : F) (a b c : Nat → F) (ni N : Nat) : ProvingKey G1 G2 where
  vk := ⟨w.alpha • g1, w.beta • g2, w.gamma • g2, w.delta • g2,
    (List.range ni).map fun j => ((w.beta * a j + w.alpha * b j + c j) * w.gamma⁻¹) • g1⟩
  betaG1 := w.beta • g1
  deltaG1 := w.delta • g1
  aQuery := (List.range N).map fun j => a j • g1
  bG1Query := (List.range N).map fun j => b j • g1
  bG2Query := (List.range N).map fun j => b j • g2
  hQuery := (List.range (n - 1)).map fun i => (zt * w.delta⁻¹ * w.tau ^ i) • g1
  lQuery := ((List.range N).drop ni).map fun j => ((w.beta * a j + w.alpha * b j + c j) * w.delta⁻¹) • g1

theorem generateParameters_eq {d : Domain F} (g1 : G1) (g2 : G2) {w : Secrets F} (hγ : w.gamma ≠ 0) (hδ : w.delta ≠ 0)
    {M : Matrices F} {ni nw : Nat} {a b c : Nat → F} {zt : F}
    (h : instanceMap d M ni nw w.tau = .ok ⟨(List.range (ni + nw)).map a, (List.range (ni + nw)).map b, (List.range (ni + nw)).map c, zt⟩) :
    generateParameters d g1 g2 w M ni nw = .ok (keyOf d.size g1 g2 w zt a b c ni (ni + nw)) := by
  unfold generateParameters
  rw [h, ok_bind, if_neg hγ, if_neg hδ]
  show Except.ok _ = _
  have ht : (List.range (ni + nw)).take ni = List.range ni := by
    rw [List.take_range]
    congr 1
    omega
  simp only [← List.map_take, ← List.map_drop, combine_map, ht, List.map_map]
  rfl

/-- Value of all columns. -/
def total (N : Nat) (z f : Nat → F) : F := ((List.range N).map fun j => z j * f j).sum

theorem calculateCoeff_eq {G : Type} [AddCommGroup G] [Module F G] (initial vkParam g : G) (f z : Nat → F) {N : Nat} (hN : 0 < N)
    (h1 : z 0 = 1) :
    calculateCoeff initial ((List.range N).map fun j => f j • g) vkParam (((List.range N).drop 1).map z) =
      .ok (initial + total N z f • g + vkParam) := by
  obtain ⟨n, rfl⟩ : ∃ n, N = n + 1 := ⟨N - 1, by omega⟩
  have e : List.range (n + 1) = 0 :: (List.range (n + 1)).drop 1 := by
    rw [List.range_succ_eq_map]; rfl
  unfold calculateCoeff
  rw [lget_tab _ (by omega), ok_bind, ← List.map_drop, msm_map]
  show Except.ok _ = _
  have et : total (n + 1) z f = f 0 + (((List.range (n + 1)).drop 1).map fun j => z j * f j).sum := by
    unfold total
    conv_lhs => rw [e]
    rw [List.map_cons, List.sum_cons, h1, one_mul]
  rw [et, add_smul]
  congr 1
  abel

/-- What remains of the verifier's equation once the randomness has cancelled. -/
def residue (n : Nat) (w : Secrets F) (zt : F) (a b c : Nat → F) (ni N : Nat) (h : List F) (z z' : Nat → F) : F :=
  total N z a * total N z b - total N z c - ((List.range (n - 1)).map fun i => h.getD i 0 * (zt * w.tau ^ i)).sum +
    ((List.range ni).map fun j => (z j - z' j) * (w.beta * a j + w.alpha * b j + c j)).sum

theorem sum_add (l : List Nat) (f f' : Nat → F) : (l.map fun j => f j + f' j).sum = (l.map f).sum + (l.map f').sum := by
  induction l with
  | nil => simp
  | cons j l ih => simp only [List.map_cons, List.sum_cons, ih]; ring

theorem sum_mul_left (l : List Nat) (k : F) (f : Nat → F) : (l.map fun j => k * f j).sum = k * (l.map f).sum := by
  induction l with
  | nil => simp
  | cons j l ih => simp only [List.map_cons, List.sum_cons, ih]; ring

theorem sum_mul_right (l : List Nat) (k : F) (f : Nat → F) : (l.map fun j => f j * k).sum = (l.map f).sum * k := by
  induction l with
  | nil => simp
  | cons j l ih => simp only [List.map_cons, List.sum_cons, ih]; ring

theorem prepareInputs_eq {n : Nat} {g1 : G1} {g2 : G2} {w : Secrets F} {zt : F} {a b c : Nat → F} {ni N : Nat} (hni : 0 < ni) {z' : Nat → F}
    (hz' : z' 0 = 1) : prepareInputs (keyOf n g1 g2 w zt a b c ni N).vk (((List.range ni).drop 1).map z') =
      .ok ((((List.range ni).map fun j => z' j * (w.beta * a j + w.alpha * b j + c j)).sum * w.gamma⁻¹) • g1) := by
  unfold prepareInputs
  rw [if_neg (by simp [keyOf]; omega)]
  show (lget ((List.range ni).map fun j => ((w.beta * a j + w.alpha * b j + c j) * w.gamma⁻¹) • g1) 0 >>= _) = _
  rw [lget_tab _ hni, ok_bind]
  show Except.ok (_ + msm (((List.range ni).map fun j => ((w.beta * a j + w.alpha * b j + c j) * w.gamma⁻¹) • g1).drop 1) _) = _
  rw [← List.map_drop, msm_map, ← add_smul]
  congr 2
  obtain ⟨m, rfl⟩ : ∃ m, ni = m + 1 := ⟨ni - 1, by omega⟩
  have e1 : List.range (m + 1) = 0 :: (List.range (m + 1)).drop 1 := by
    rw [List.range_succ_eq_map]; rfl
  conv_rhs => rw [e1]
  rw [List.map_cons, List.sum_cons, hz', one_mul]
  conv_rhs => rw [add_mul]
  congr 1
  rw [← sum_mul_right]
  congr 1
  refine List.map_congr_left fun i _ => ?_
  ring

/-- The three parts of a proof, and the number that the verifier's equation compares with zero. -/
theorem createProof_eq (g1 : G1) (g2 : G2) {w : Secrets F}
    (hδ : w.delta ≠ 0) (n : Nat) (zt : F) (a b c : Nat → F) {ni N : Nat} (hni : 0 < ni) (hN : ni ≤ N) (r s : F) (h : List F)
    (hh : n - 1 ≤ h.length) (z : Nat → F) (hz : z 0 = 1) :
    ∃ k : F, createProof (keyOf n g1 g2 w zt a b c ni N) r s h (((List.range ni).drop 1).map z)
        (((List.range N).drop ni).map z) = .ok ⟨(r * w.delta + total N z a + w.alpha) • g1, (s * w.delta + total N z b + w.beta) • g2, k • g1⟩ ∧
      ∀ z' : Nat → F, z' 0 = 1 → ∃ SP : F,
        prepareInputs (keyOf n g1 g2 w zt a b c ni N).vk (((List.range ni).drop 1).map z') = .ok ((SP * w.gamma⁻¹) • g1) ∧
        (r * w.delta + total N z a + w.alpha) * (s * w.delta + total N z b + w.beta) - SP - w.delta * k - w.alpha * w.beta =
          residue n w zt a b c ni N h z z' := by
  have hcat : ((List.range ni).drop 1).map z ++ ((List.range N).drop ni).map z = ((List.range N).drop 1).map z := by
    rw [← List.map_append]
    congr 1
    have : List.range N = List.range ni ++ (List.range N).drop ni := by
      conv_lhs => rw [← List.take_append_drop ni (List.range N)]
      rw [List.take_range, Nat.min_eq_left hN]
    conv_rhs => rw [this]
    rw [List.drop_append_of_le_length (by simp; omega)]
  have hA : calculateCoeff (r • (w.delta • g1)) ((List.range N).map fun j => a j • g1) (w.alpha • g1) (((List.range N).drop 1).map z) =
      .ok ((r * w.delta + total N z a + w.alpha) • g1) := by
    rw [calculateCoeff_eq _ _ _ _ _ (by omega) hz]
    congr 1
    module
  have hB1 : calculateCoeff (s • (w.delta • g1)) ((List.range N).map fun j => b j • g1) (w.beta • g1) (((List.range N).drop 1).map z) =
      .ok ((s * w.delta + total N z b + w.beta) • g1) := by
    rw [calculateCoeff_eq _ _ _ _ _ (by omega) hz]
    congr 1
    module
  have hB2 : calculateCoeff (s • (w.delta • g2)) ((List.range N).map fun j => b j • g2) (w.beta • g2) (((List.range N).drop 1).map z) =
      .ok ((s * w.delta + total N z b + w.beta) • g2) := by
    rw [calculateCoeff_eq _ _ _ _ _ (by omega) hz]
    congr 1
    module
  have hH : msm (keyOf n g1 g2 w zt a b c ni N).hQuery h =
      (((List.range (n - 1)).map fun i => h.getD i 0 * (zt * w.tau ^ i)).sum * w.delta⁻¹) • g1 := by
    have e1 : msm (keyOf n g1 g2 w zt a b c ni N).hQuery h = msm (keyOf n g1 g2 w zt a b c ni N).hQuery (h.take (n - 1)) := by
      unfold msm
      have : (keyOf n g1 g2 w zt a b c ni N).hQuery.length = n - 1 := by simp [keyOf]
      rw [List.zipWith_eq_zipWith_take_min, this, Nat.min_eq_left hh, List.take_of_length_le this.le]
    have e2 : h.take (n - 1) = (List.range (n - 1)).map fun i => h.getD i 0 := by
      refine List.ext_getElem (by simp [hh]) fun k h1 h2 => ?_
      have : k < h.length := by simp at h1; omega
      simp [this]
    rw [e1, e2]
    show msm ((List.range (n - 1)).map fun i => (zt * w.delta⁻¹ * w.tau ^ i) • g1) _ = _
    rw [msm_map]
    congr 1
    rw [← sum_mul_right]
    congr 1
    refine List.map_congr_left fun i _ => ?_
    ring
  have hL : msm (keyOf n g1 g2 w zt a b c ni N).lQuery (((List.range N).drop ni).map z) =
      ((((List.range N).drop ni).map fun j => z j * (w.beta * a j + w.alpha * b j + c j)).sum * w.delta⁻¹) • g1 := by
    show msm (((List.range N).drop ni).map fun j => ((w.beta * a j + w.alpha * b j + c j) * w.delta⁻¹) • g1) _ = _
    rw [msm_map]
    congr 1
    rw [← sum_mul_right]
    congr 1
    refine List.map_congr_left fun i _ => ?_
    ring
  generalize hSH : ((List.range (n - 1)).map fun i => h.getD i 0 * (zt * w.tau ^ i)).sum = SH at hH
  generalize hSL : (((List.range N).drop ni).map fun j => z j * (w.beta * a j + w.alpha * b j + c j)).sum = SL at hL
  have hr1B : ∃ g1B : G1, (if r = 0 then .ok 0 else calculateCoeff (s • (w.delta • g1)) ((List.range N).map fun j => b j • g1)
      (w.beta • g1) (((List.range N).drop 1).map z) : R G1) = .ok g1B ∧ r • g1B = (r * (s * w.delta + total N z b + w.beta)) • g1 := by
    by_cases hr : r = 0
    · exact ⟨0, by rw [if_pos hr], by rw [hr]; simp⟩
    · exact ⟨_, by rw [if_neg hr, hB1], by rw [smul_smul]⟩
  obtain ⟨g1B, hg1B, hrB⟩ := hr1B
  have hk : (s * (r * w.delta + total N z a + w.alpha) + r * (s * w.delta + total N z b + w.beta) - r * s * w.delta + SL * w.delta⁻¹ +
      SH * w.delta⁻¹) • g1 = s • (r * w.delta + total N z a + w.alpha) • g1 + r • g1B - (r * s) • w.delta • g1 + (SL * w.delta⁻¹) • g1 +
      (SH * w.delta⁻¹) • g1 := by
    rw [hrB]
    module
  refine ⟨s * (r * w.delta + total N z a + w.alpha) + r * (s * w.delta + total N z b + w.beta) - r * s * w.delta + SL * w.delta⁻¹ +
      SH * w.delta⁻¹, ?_, ?_⟩
  · rw [hk]
    unfold createProof
    dsimp only
    rw [hcat]
    rw [show calculateCoeff (r • (keyOf n g1 g2 w zt a b c ni N).deltaG1) (keyOf n g1 g2 w zt a b c ni N).aQuery
      (keyOf n g1 g2 w zt a b c ni N).vk.alphaG1 (((List.range N).drop 1).map z) = _ from hA, ok_bind]
    have hB2' : calculateCoeff (s • (keyOf n g1 g2 w zt a b c ni N).vk.deltaG2) (keyOf n g1 g2 w zt a b c ni N).bG2Query
      (keyOf n g1 g2 w zt a b c ni N).vk.betaG2 (((List.range N).drop 1).map z) = _ := hB2
    by_cases hr : r = 0
    · rw [if_pos hr] at hg1B ⊢
      cases hg1B
      rw [ok_bind, hB2', ok_bind, hH, hL]
      rfl
    · rw [if_neg hr] at hg1B ⊢
      rw [show calculateCoeff (s • (keyOf n g1 g2 w zt a b c ni N).deltaG1) (keyOf n g1 g2 w zt a b c ni N).bG1Query
        (keyOf n g1 g2 w zt a b c ni N).betaG1 (((List.range N).drop 1).map z) = _ from hg1B, ok_bind, hB2', ok_bind, hH, hL]
      rfl
  · intro z' hz'
    have hprep := prepareInputs_eq (n := n) (g1 := g1) (g2 := g2) (w := w) (zt := zt) (a := a) (b := b) (c := c) (N := N) hni hz'
    generalize hSP : ((List.range ni).map fun j => z' j * (w.beta * a j + w.alpha * b j + c j)).sum = SP at hprep
    refine ⟨SP, hprep, ?_⟩
    -- the public and the private part of the columns
    have hsplit : total N z (fun j => w.beta * a j + w.alpha * b j + c j) =
        ((List.range ni).map fun j => z j * (w.beta * a j + w.alpha * b j + c j)).sum + SL := by
      rw [← hSL]
      unfold total
      have : List.range N = List.range ni ++ (List.range N).drop ni := by
        conv_lhs => rw [← List.take_append_drop ni (List.range N)]
        rw [List.take_range, Nat.min_eq_left hN]
      conv_lhs => rw [this]
      rw [List.map_append, List.sum_append]
    have hlin : total N z (fun j => w.beta * a j + w.alpha * b j + c j) =
        w.beta * total N z a + w.alpha * total N z b + total N z c := by
      unfold total
      rw [← sum_mul_left, ← sum_mul_left, ← sum_add, ← sum_add]
      congr 1
      refine List.map_congr_left fun i _ => ?_
      ring
    have hpub : ((List.range ni).map fun j => (z j - z' j) * (w.beta * a j + w.alpha * b j + c j)).sum =
        ((List.range ni).map fun j => z j * (w.beta * a j + w.alpha * b j + c j)).sum - SP := by
      rw [← hSP, sub_eq_add_neg, ← neg_one_mul, ← sum_mul_left, ← sum_add]
      congr 1
      refine List.map_congr_left fun i _ => ?_
      ring
    unfold residue
    rw [hSH, hpub]
    generalize ((List.range ni).map fun j => z j * (w.beta * a j + w.alpha * b j + c j)).sum = SPz at hsplit
    rw [hsplit] at hlin
    generalize total N z a = SA at hlin
    generalize total N z b = SB at hlin
    generalize total N z c = SC at hlin
    have e2 : w.delta * (SL * w.delta⁻¹) = SL := by field_simp
    have e3 : w.delta * (SH * w.delta⁻¹) = SH := by field_simp
    rw [mul_add w.delta, mul_add w.delta, e2, e3]
    linear_combination -hlin

theorem verify_iff [DecidableEq GT] (e : G1 →ₗ[F] G2 →ₗ[F] GT) (g1 : G1) (g2 : G2) (he : e g1 g2 ≠ 0) {vk : VerifyingKey G1 G2} {w : Secrets F}
    (hγ : w.gamma ≠ 0) (h1 : vk.alphaG1 = w.alpha • g1) (h2 : vk.betaG2 = w.beta • g2) (h3 : vk.gammaG2 = w.gamma • g2)
    (h4 : vk.deltaG2 = w.delta • g2) {y : List F} {SP : F} (hp : prepareInputs vk y = .ok ((SP * w.gamma⁻¹) • g1)) (a b k : F) :
    verify e vk y ⟨a • g1, b • g2, k • g1⟩ = .ok (decide (a * b - SP - w.delta * k - w.alpha * w.beta = 0)) := by
  unfold verify
  rw [hp, ok_bind]
  show Except.ok _ = _
  congr 1
  rw [decide_eq_decide, h1, h2, h3, h4]
  dsimp only
  simp only [map_neg, map_smul, LinearMap.smul_apply, smul_smul]
  generalize e g1 g2 = T at he ⊢
  rw [← sub_eq_zero]
  have e1 : w.gamma * (SP * w.gamma⁻¹) = SP := by field_simp
  rw [e1]
  simp only [← add_smul, ← sub_smul, ← neg_smul]
  rw [smul_eq_zero, or_iff_left he]
  constructor
  · intro h; linear_combination h
  · intro h; linear_combination h

end Poseidon.Groth16
