import Verif.Proofs.Groth16Core
import Verif.Proofs.PreimageColumns
import Verif.Props.Symbolic

/-! # The matrices of the preimage circuit in the proof system -/

set_option linter.unusedSectionVars false

namespace Poseidon.Groth16

open Polynomial Finset
open Poseidon.Sym (Matrices dot unit dot_cons RowOf ofColumns)
open Poseidon.R1cs (LC.coeff colVar ind columnKind)

/-- The coefficient of a column of a row is that of its variable in the inlined combination. -/
theorem row_coeff {d : R1cs.CS Fq} (hi : d.numInstance = 8) {nw : Nat} {l : R1cs.LC Fq} (hl : R1cs.LC.Known d l) {row : List (Fq × Nat)}
    (h : RowOf 8 nw l row) {j : Nat} (h0 : 0 < j) : dot row (unit j) = LC.coeff (colVar j) l := by
  rw [h.2]
  refine Sym.known_congr hl fun v hv => ?_
  have h0' : j ≠ 0 := by omega
  cases v with
  | one =>
    show unit j 0 = _
    rw [unit, if_neg (by omega), ind, if_neg]
    unfold colVar
    rw [if_neg h0']
    split <;> exact fun h => by cases h
  | input i =>
    have hv : i < 8 := hi ▸ hv
    show unit j i = _
    rw [unit, ind, colVar, if_neg h0']
    by_cases h8 : j < 8
    · simp only [if_pos h8, R1cs.Variable.input.injEq]
    · rw [if_neg (by omega), if_neg h8, if_neg (fun h => by cases h)]
  | witness i =>
    show unit j (8 + i) = _
    rw [unit, ind, colVar, if_neg h0']
    by_cases h8 : j < 8
    · rw [if_neg (by omega), if_pos h8, if_neg (fun h => by cases h)]
    · simp only [if_neg h8, R1cs.Variable.witness.injEq]
      have : 8 + i = j ↔ i = j - 8 := by omega
      simp only [this]

theorem forall₂_length {ni nw : Nat} {ls : List (R1cs.LC Fq)} {rs : List (List (Fq × Nat))} (h : List.Forall₂ (RowOf ni nw) ls rs) :
    rs.length = ls.length := h.length_eq.symm

theorem forall₂_at {ni nw : Nat} {ls : List (R1cs.LC Fq)} {rs : List (List (Fq × Nat))} (h : List.Forall₂ (RowOf ni nw) ls rs) (k : Nat)
    (hk : k < ls.length) : RowOf ni nw ls[k] (rs[k]'(by rw [forall₂_length h]; exact hk)) := by
  obtain ⟨l, h1, h2⟩ := Sym.forall₂_get h k _ (List.getElem?_eq_getElem (by rw [forall₂_length h]; exact hk))
  rw [List.getElem?_eq_getElem hk] at h1
  cases h1
  exact h2

theorem rowsIn_of {ni nw : Nat} {ls : List (R1cs.LC Fq)} {rs : List (List (Fq × Nat))} (h : List.Forall₂ (RowOf ni nw) ls rs) :
    RowsIn (ni + nw) rs := by
  intro row hr x hx
  obtain ⟨k, hk, rfl⟩ := List.getElem_of_mem hr
  exact ((forall₂_at h k (by rw [← forall₂_length h]; exact hk)).1.2 x hx).2

/-- The matrices, and the inlined constraints that they are made of. -/
structure IsMatrices (M : Matrices Fq) (cons : List (R1cs.LC Fq × R1cs.LC Fq × R1cs.LC Fq)) : Prop where
  a : List.Forall₂ (RowOf 8 2457) (cons.map (·.1)) M.a
  b : List.Forall₂ (RowOf 8 2457) (cons.map (·.2.1)) M.b
  c : List.Forall₂ (RowOf 8 2457) (cons.map (·.2.2)) M.c
  length : cons.length = 2457
  coeff : ∀ j, 0 < j → ∀ con ∈ cons, ∀ row,
    (RowOf 8 2457 con.1 row → dot row (unit j) = LC.coeff (colVar j) con.1) ∧
    (RowOf 8 2457 con.2.1 row → dot row (unit j) = LC.coeff (colVar j) con.2.1) ∧
    (RowOf 8 2457 con.2.2 row → dot row (unit j) = LC.coeff (colVar j) con.2.2)
  kind : ∀ j, 0 < j → j < 2465 → (columnKind j).Holds (colVar j) cons
  one : ∃ con ∈ cons, con.2.1 = [(1, .one)]
  third : ∀ con ∈ cons, con.2.2 = [] ∨ ∃ i, con.2.2 = R1cs.wit i

/-- There is one list of matrices for all circuits and modes. -/
theorem the_matrices : ∃ M cons, IsMatrices M cons ∧
    ∀ (c : R1cs.PreimageCircuit) (s : Bool) (cs : Sym.CS Fq), Sym.generateConstraints c (Sym.CS.new Fq s) = .ok cs →
      cs.toMatrices = .ok M ∧ cs.numInstance = 8 ∧ cs.numWitness = 2457 := by
  obtain ⟨cs, M, h1, h2, -, -, -, ni, nw⟩ := C85_preimage_matrices ⟨Vector.replicate 7 0, Vector.replicate 7 0⟩ true
  obtain ⟨hs, hl⟩ := preimage_low h1
  obtain ⟨M', hM', ha, hb, hc⟩ := Sym.toMatrices_spec hs
  rw [h2] at hM'
  cases hM'
  rw [ni, nw] at ha hb hc
  have hwf := Sym.lower_wellFormed hs
  have hsz := (C62_size _ _ _ hl).1
  refine ⟨M, cs.lower.constraints, ⟨ha, hb, hc, hsz, ?_, ?_, ?_, ?_⟩, ?_⟩
  · intro j h0 con hcon row
    obtain ⟨k1, k2, k3⟩ := hwf con hcon
    exact ⟨fun h => row_coeff ni k1 h h0, fun h => row_coeff ni k2 h h0, fun h => row_coeff ni k3 h h0⟩
  · intro j h0 hj
    exact R1cs.circuit_columns hl j h0 hj
  · exact (R1cs.circuit_rest hl).1
  · exact (R1cs.circuit_rest hl).2
  · intro c s cs' h
    obtain ⟨hs', hl'⟩ := preimage_low h
    obtain ⟨-, n2, n3⟩ := C62_size _ _ _ hl'
    exact ⟨(C85_preimage_same _ _ _ _ _ _ h h1).trans h2, n3, n2⟩

theorem IsMatrices.lengths {M : Matrices Fq} {cons} (h : IsMatrices M cons) :
    M.a.length = 2457 ∧ M.b.length = 2457 ∧ M.c.length = 2457 := by
  have := h.length
  refine ⟨?_, ?_, ?_⟩
  · rw [forall₂_length h.a, List.length_map, this]
  · rw [forall₂_length h.b, List.length_map, this]
  · rw [forall₂_length h.c, List.length_map, this]

theorem IsMatrices.shape {M : Matrices Fq} {cons} (h : IsMatrices M cons) {d : Domain Fq} (hd : 2465 ≤ d.size) : Shape d M 8 2457 := by
  obtain ⟨l1, l2, l3⟩ := h.lengths
  exact ⟨rowsIn_of h.a, rowsIn_of h.b, rowsIn_of h.c, by rw [l1, l2], by rw [l1, l3], by omega, by omega⟩

/-- Rows of the matrices, as coefficients of the constraints. -/
theorem IsMatrices.at {M : Matrices Fq} {cons} (h : IsMatrices M cons) {j : Nat} (h0 : 0 < j) {k : Nat} (hk : k < cons.length) :
    dot (M.a.getD k []) (unit j) = LC.coeff (colVar j) cons[k].1 ∧ dot (M.b.getD k []) (unit j) = LC.coeff (colVar j) cons[k].2.1 ∧
      dot (M.c.getD k []) (unit j) = LC.coeff (colVar j) cons[k].2.2 := by
  obtain ⟨l1, l2, l3⟩ := h.lengths
  have hl := h.length
  rw [List.getD_eq_getElem _ _ (by omega), List.getD_eq_getElem _ _ (by omega), List.getD_eq_getElem _ _ (by omega)]
  have r1 := forall₂_at h.a k (by rwa [List.length_map])
  have r2 := forall₂_at h.b k (by rwa [List.length_map])
  have r3 := forall₂_at h.c k (by rwa [List.length_map])
  simp only [List.getElem_map] at r1 r2 r3
  have hm := List.getElem_mem hk
  exact ⟨(h.coeff j h0 _ hm _).1 r1, (h.coeff j h0 _ hm _).2.1 r2, (h.coeff j h0 _ hm _).2.2 r3⟩

theorem colPoly_zero (d : Domain Fq) {rows : List (List (Fq × Nat))} {j : Nat}
    (h : ∀ k, k < rows.length → dot (rows.getD k []) (unit j) = 0) : colPoly d rows j = 0 :=
  Finset.sum_eq_zero fun k hk => by rw [h k (Finset.mem_range.1 hk), C_0, zero_mul]

/-- Public columns are in the first matrix only. -/
theorem IsMatrices.public {M : Matrices Fq} {cons} (h : IsMatrices M cons) (d : Domain Fq) {j : Nat} (h0 : 0 < j) (hj : j < 8) :
    colPoly d M.b j = 0 ∧ colPoly d M.c j = 0 := by
  obtain ⟨l1, l2, l3⟩ := h.lengths
  have hl := h.length
  have hk := h.kind j h0 (by omega)
  have e : columnKind j = .onlyA := by unfold columnKind; rw [if_pos hj]
  rw [e] at hk
  constructor
  · refine colPoly_zero d fun k hkl => ?_
    rw [(h.at h0 (by omega : k < cons.length)).2.1]
    exact hk.2 _ (List.getElem_mem _)
  · refine colPoly_zero d fun k hkl => ?_
    rw [(h.at h0 (by omega : k < cons.length)).2.2]
    rcases h.third _ (List.getElem_mem (by omega : k < cons.length)) with h | ⟨i, h⟩
    · rw [h]; rfl
    · rw [h]
      refine R1cs.wit_coeff_ne ?_
      unfold colVar
      rw [if_neg (by omega), if_pos hj]
      exact fun h => by cases h

/-- The prover's assignment. -/
theorem prover_run (c : R1cs.PreimageCircuit) {M : Matrices Fq}
    (hM : ∀ (c : R1cs.PreimageCircuit) (s : Bool) (cs : Sym.CS Fq), Sym.generateConstraints c (Sym.CS.new Fq s) = .ok cs →
      cs.toMatrices = .ok M ∧ cs.numInstance = 8 ∧ cs.numWitness = 2457) :
    ∃ cs, Sym.generateConstraints c (Sym.CS.new Fq false) = .ok cs ∧ cs.instanceAssignment = 1 :: c.hashOutputs.toList ∧
      cs.witnessAssignment.length = 2457 ∧
      (M.Satisfied (fun j => (1 :: c.hashOutputs.toList ++ cs.witnessAssignment).getD j 0) ↔ PreimageRelation c.preimages c.hashOutputs) := by
  obtain ⟨cs, M', h1, h2, -, -, -, h3⟩ := C85_preimage_prover c
  obtain ⟨k1, k2, k3⟩ := hM c false cs h1
  rw [h2] at k1
  cases k1
  obtain ⟨hs, hl⟩ := preimage_low h1
  obtain ⟨cs', l1, l2, -, l3, -⟩ := C62_complete c
  rw [hl] at l1
  cases l1
  have l2 : cs.instanceAssignment = 1 :: c.hashOutputs.toList := l2
  have l3 : cs.witnessAssignment.length = cs.numWitness := l3
  refine ⟨cs, h1, l2, by rw [l3, k3], ?_⟩
  rw [← l2]
  exact h3

/-- Key generation. -/
theorem setup_eq {G1 G2 : Type} [AddCommGroup G1] [Module Fq G1] [AddCommGroup G2] [Module Fq G2] {M : Matrices Fq} {cons}
    (hI : IsMatrices M cons)
    (hM : ∀ (c : R1cs.PreimageCircuit) (s : Bool) (cs : Sym.CS Fq), Sym.generateConstraints c (Sym.CS.new Fq s) = .ok cs →
      cs.toMatrices = .ok M ∧ cs.numInstance = 8 ∧ cs.numWitness = 2457) {d : Domain Fq} (hd : d.Good) (hs : 2465 ≤ d.size) (g1 : G1) (g2 : G2)
    {w : Secrets Fq} (hw : w.Usable) (c : R1cs.PreimageCircuit) : setup d g1 g2 w c = .ok (theKey d g1 g2 w M 8 2457) := by
  obtain ⟨cs, M', h1, -⟩ := C85_preimage_matrices c true
  obtain ⟨k1, k2, k3⟩ := hM c true cs h1
  unfold setup
  rw [h1, ok_bind, k1, ok_bind, k2, k3]
  exact generate_eq hd (hI.shape hs) g1 g2 hw

theorem isSatisfied_eq {d : Domain Fq} {M : Matrices Fq} {ni nw : Nat} (hM : Shape d M ni nw) {z : List Fq} (hz : z.length = ni + nw) :
    ∃ b, isSatisfied M z = .ok b ∧ (b = true ↔ M.Satisfied fun j => z.getD j 0) := by
  have ha := hM.a
  have hb := hM.b
  have hc := hM.c
  rw [← hz] at ha hb hc
  refine ⟨decide (List.zipWith (· * ·) (M.a.map fun row => dot row fun j => z.getD j 0) (M.b.map fun row => dot row fun j => z.getD j 0) =
    M.c.map fun row => dot row fun j => z.getD j 0), ?_, ?_⟩
  · unfold isSatisfied
    rw [rowValues_eq ha, ok_bind, rowValues_eq hb, ok_bind, rowValues_eq hc, ok_bind]
    rfl
  · have lb := hM.lb
    have lc := hM.lc
    rw [decide_eq_true_iff, satisfied_iff hM]
    constructor
    · intro h m hm
      have : (List.zipWith (· * ·) (M.a.map fun row => dot row fun j => z.getD j 0) (M.b.map fun row => dot row fun j => z.getD j 0)).getD m 0 =
          (M.c.map fun row => dot row fun j => z.getD j 0).getD m 0 := by rw [h]
      rw [List.getD_eq_getElem _ _ (by simp; omega), List.getD_eq_getElem _ _ (by simp; omega)] at this
      simpa using this
    · intro h
      refine List.ext_getElem (by simp; omega) fun k k1 k2 => ?_
      simpa using h k (by simp at k2; omega)

section
variable {G1 G2 GT : Type} [AddCommGroup G1] [Module Fq G1] [AddCommGroup G2] [Module Fq G2] [AddCommGroup GT] [Module Fq GT]

/-- A run of the prover, on the matrices. -/
theorem prove_unfold {M : Matrices Fq} {cons} (hI : IsMatrices M cons)
    (hM : ∀ (c : R1cs.PreimageCircuit) (s : Bool) (cs : Sym.CS Fq), Sym.generateConstraints c (Sym.CS.new Fq s) = .ok cs →
      cs.toMatrices = .ok M ∧ cs.numInstance = 8 ∧ cs.numWitness = 2457) (c : R1cs.PreimageCircuit) :
    ∃ aux : List Fq, aux.length = 2457 ∧
      (M.Satisfied (fun j => (1 :: c.hashOutputs.toList ++ aux).getD j 0) ↔ PreimageRelation c.preimages c.hashOutputs) ∧
      ∀ (debug : Bool) (d : Domain Fq) (g : Fq) (pk : ProvingKey G1 G2) (r s : Fq),
        (debug = true → ¬ PreimageRelation c.preimages c.hashOutputs → prove debug d g pk r s c = .error .assertFailed) ∧
        ((debug = true → PreimageRelation c.preimages c.hashOutputs) → prove debug d g pk r s c = (do
          let h ← witnessMap d g M 8 (1 :: c.hashOutputs.toList ++ aux)
          createProof pk r s h c.hashOutputs.toList aux)) := by
  obtain ⟨cs, h1, h2, h3, h4⟩ := prover_run c hM
  obtain ⟨k1, k2, k3⟩ := hM c false cs h1
  obtain ⟨b, b1, b2⟩ := isSatisfied_eq (hI.shape (d := ⟨2465, 1, 1⟩) le_rfl) (z := 1 :: c.hashOutputs.toList ++ cs.witnessAssignment)
    (by simp [h3])
  refine ⟨cs.witnessAssignment, h3, h4, fun debug d g pk r s => ?_⟩
  have hp : prove debug d g pk r s c = (do
      if debug && !b then .error .assertFailed
      let h ← witnessMap d g M 8 (1 :: c.hashOutputs.toList ++ cs.witnessAssignment)
      createProof pk r s h c.hashOutputs.toList cs.witnessAssignment) := by
    unfold prove
    rw [h1, ok_bind, k1, ok_bind, h2]
    dsimp only
    rw [b1, ok_bind, k2]
    rfl
  rw [hp]
  constructor
  · intro hdb hn
    have : b = false := by
      cases b with
      | false => rfl
      | true => exact absurd (h4.1 (b2.1 rfl)) hn
    rw [hdb, this]
    rfl
  · intro hdb
    have : (debug && !b) = false := by
      cases debug with
      | false => rfl
      | true => rw [b2.2 (h4.2 (hdb rfl))]; rfl
    rw [this]
    rfl

/-- A run of the prover: its verdict in debug mode, and otherwise a proof that is judged by a polynomial. -/
theorem prove_run [DecidableEq GT] (e : G1 →ₗ[Fq] G2 →ₗ[Fq] GT) {g1 : G1} {g2 : G2} (he : e g1 g2 ≠ 0) {M : Matrices Fq} {cons}
    (hI : IsMatrices M cons)
    (hM : ∀ (c : R1cs.PreimageCircuit) (s : Bool) (cs : Sym.CS Fq), Sym.generateConstraints c (Sym.CS.new Fq s) = .ok cs →
      cs.toMatrices = .ok M ∧ cs.numInstance = 8 ∧ cs.numWitness = 2457) {d : Domain Fq} (hd : d.Good) (hs : 2465 ≤ d.size) {g : Fq}
    (hg : d.Coset g) (c : R1cs.PreimageCircuit) :
    ∃ z : List Fq, (M.Satisfied (fun j => z.getD j 0) ↔ PreimageRelation c.preimages c.hashOutputs) ∧
      (∀ j, j < 8 → z.getD j 0 = (1 :: c.hashOutputs.toList).getD j 0) ∧
      ∀ (debug : Bool) (pk : ProvingKey G1 G2) (r s : Fq), 
        (debug = true → ¬ PreimageRelation c.preimages c.hashOutputs → prove debug d g pk r s c = .error .assertFailed) ∧
        ((debug = true → PreimageRelation c.preimages c.hashOutputs) → ∀ w : Secrets Fq, w.Usable → pk = theKey d g1 g2 w M 8 2457 →
          ∃ p, prove debug d g pk r s c = .ok p ∧ ∀ y : Vector Fq 7, verify e pk.vk y.toList p =
            .ok (decide ((rowsLeft d g M 8 z).eval w.tau + (publicLeft d M 8 w.alpha w.beta z (1 :: y.toList)).eval w.tau = 0))) := by
  obtain ⟨aux, h3, h4, h5⟩ := prove_unfold (G1 := G1) (G2 := G2) hI hM c
  refine ⟨1 :: c.hashOutputs.toList ++ aux, h4, fun j hj => ?_, fun debug pk r s => ?_⟩
  · exact List.getD_append _ _ _ _ (by simpa using hj)
  obtain ⟨h6, h7⟩ := h5 debug d g pk r s
  refine ⟨h6, fun hdb w hw hpk => ?_⟩
  subst hpk
  obtain ⟨h, q1, p, q2, q3⟩ := prove_verify e he hd hg (hI.shape hs) hw r s (x := c.hashOutputs.toList) (y := aux) (by simp) h3
  refine ⟨p, ?_, fun y => q3 _ (by simp)⟩
  rw [h7 hdb, q1, ok_bind, q2]

end

end Poseidon.Groth16
