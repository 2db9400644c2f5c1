import Verif.Props.Groth16

/-!
# Property C86: the shipped key is a key of this circuit

`poseidon-tests/test_vectors/preimage_pk.bin` was written by an earlier run of the key generator.  Its points are secret multiples of the
generators, but the numbers of points, the points at infinity and the equal points can be read off (`Model/KeyShape.lean`).  They are
those of the keys that the model generates for the circuit.
-/

namespace Poseidon

open Poseidon.Groth16 Polynomial
open Poseidon.Sym (Matrices dot unit)
open Poseidon.R1cs (LC.coeff colVar columnKind)

variable {G1 G2 : Type} [AddCommGroup G1] [Module Fq G1] [AddCommGroup G2] [Module Fq G2]

/-- What the tables say about a column of a kind. -/
def kindBits : R1cs.Kind → Bool × Bool
  | .absent => (true, true)
  | .onlyA => (true, false)
  | .same => (false, true)
  | .differ => (false, false)

/-- The kinds of the columns of the circuit are those of the shipped key. -/
theorem key_kinds : ∀ j < 2465, (shippedKey.bG1Zero.testBit j, shippedKey.same.testBit j) =
    if j = 0 then (false, false) else kindBits (columnKind j) := by
  decide +kernel

theorem key_kinds' : shippedKey.aZero = 0 ∧ shippedKey.bG2Zero = shippedKey.bG1Zero ∧ ∀ j < 2465, 0 < j → columnKind j ≠ .absent := by
  decide +kernel

/-- A row of the second matrix in which the constant column is one. -/
theorem one_row {M : Matrices Fq} {cons} (h : IsMatrices M cons) : ∃ k < 2457, dot (M.b.getD k []) (unit 0) = 1 := by
  obtain ⟨con, hc, e⟩ := h.one
  obtain ⟨k, hk, rfl⟩ := List.getElem_of_mem hc
  obtain ⟨l1, l2, l3⟩ := h.lengths
  have hl := h.length
  refine ⟨k, by omega, ?_⟩
  have r := forall₂_at h.b k (by rwa [List.length_map])
  simp only [List.getElem_map] at r
  rw [List.getD_eq_getElem _ _ (by omega), r.2, e]
  simp [R1cs.LC.eval, Sym.ofColumns, unit]

/-- Kinds of columns, as polynomials. -/
theorem column_polys {M : Matrices Fq} {cons} (h : IsMatrices M cons) {d : Domain Fq} (hd : d.Good) (hs : 2465 ≤ d.size) {j : Nat}
    (hj : j < 2465) : colPolyA d M.a 8 j ≠ 0 ∧ (colPoly d M.b j = 0 ↔ shippedKey.bG1Zero.testBit j = true) ∧
      (colPolyA d M.a 8 j = colPoly d M.b j ↔ shippedKey.same.testBit j = true) := by
  obtain ⟨l1, l2, l3⟩ := h.lengths
  have hl := h.length
  have hbits := key_kinds j hj
  rw [Prod.mk.injEq] at hbits
  rw [hbits.1, hbits.2]
  -- the values of the two polynomials at the points of the rows
  have vA : ∀ k < 2457, (colPolyA d M.a 8 j).eval (d.gen ^ k) = dot (M.a.getD k []) (unit j) := fun k hk => by
    rw [colPolyA_eval hd _ _ _ (by omega), if_pos (by omega)]
  have vB : ∀ k < 2457, (colPoly d M.b j).eval (d.gen ^ k) = dot (M.b.getD k []) (unit j) := fun k hk => by
    rw [colPoly_eval hd _ _ (by omega), if_pos (by omega)]
  by_cases h0 : j = 0
  · subst h0
    simp only [if_pos, Bool.false_eq_true, iff_false]
    have pA : (colPolyA d M.a 8 0).eval (d.gen ^ 2457) = 1 := by
      rw [colPolyA_eval hd _ _ _ (by omega), if_neg (by omega), if_pos (by omega)]
    have pB : (colPoly d M.b 0).eval (d.gen ^ 2457) = 0 := by
      rw [colPoly_eval hd _ _ (by omega), if_neg (by omega)]
    refine ⟨fun e => ?_, fun e => ?_, fun e => ?_⟩
    · rw [e, eval_zero] at pA
      exact one_ne_zero pA.symm
    · obtain ⟨k, hk, e1⟩ := one_row h
      have := vB k hk
      rw [e, eval_zero, e1] at this
      exact one_ne_zero this.symm
    · rw [e, pB] at pA
      exact one_ne_zero pA.symm
  · rw [if_neg h0]
    have hp : 0 < j := Nat.pos_of_ne_zero h0
    have hk := h.kind j hp hj
    have hna := key_kinds'.2.2 j hj hp
    have cA : ∀ con ∈ cons, ∃ k < 2457, (colPolyA d M.a 8 j).eval (d.gen ^ k) = LC.coeff (colVar j) con.1 ∧
        (colPoly d M.b j).eval (d.gen ^ k) = LC.coeff (colVar j) con.2.1 := by
      intro con hc
      obtain ⟨k, hk, rfl⟩ := List.getElem_of_mem hc
      refine ⟨k, by omega, ?_, ?_⟩
      · rw [vA k (by omega), (h.at hp hk).1]
      · rw [vB k (by omega), (h.at hp hk).2.1]
    cases hkind : columnKind j with
    | absent => exact absurd hkind hna
    | onlyA =>
      rw [hkind] at hk
      obtain ⟨⟨con, hc, hne⟩, hz⟩ := hk
      obtain ⟨k, hk, e1, e2⟩ := cA con hc
      have hB : colPoly d M.b j = 0 := colPoly_zero d fun k hkl => by
        rw [(h.at hp (by omega : k < cons.length)).2.1]
        exact hz _ (List.getElem_mem _)
      have hA : colPolyA d M.a 8 j ≠ 0 := fun e => by
        rw [e, eval_zero] at e1
        exact hne e1.symm
      simp only [kindBits, Bool.false_eq_true, iff_false, iff_true]
      exact ⟨hA, hB, fun e => hA (e.trans hB)⟩
    | same =>
      have h8 : ¬ j < 8 := fun h8 => by
        unfold columnKind at hkind
        rw [if_pos h8] at hkind
        cases hkind
      rw [hkind] at hk
      obtain ⟨⟨con, hc, hne⟩, hz⟩ := hk
      obtain ⟨k, hk, e1, e2⟩ := cA con hc
      have hB : colPoly d M.b j ≠ 0 := fun e => by
        rw [e, eval_zero] at e2
        exact hne e2.symm
      have hAB : colPolyA d M.a 8 j = colPoly d M.b j := by
        unfold colPolyA
        rw [if_neg h8, add_zero]
        unfold colPoly
        rw [l1, l2]
        refine Finset.sum_congr rfl fun k hk => ?_
        have hk := Finset.mem_range.1 hk
        rw [(h.at hp (by omega : k < cons.length)).1, (h.at hp (by omega : k < cons.length)).2.1, hz _ (List.getElem_mem _)]
      simp only [kindBits, Bool.false_eq_true, iff_false, iff_true]
      exact ⟨hAB ▸ hB, hB, hAB⟩
    | differ =>
      rw [hkind] at hk
      obtain ⟨⟨con, hc, hne⟩, con', hc', hne', hz'⟩ := hk
      obtain ⟨k, hk, e1, e2⟩ := cA con hc
      obtain ⟨k', hk', e1', e2'⟩ := cA con' hc'
      simp only [kindBits, Bool.false_eq_true, iff_false]
      refine ⟨fun e => ?_, fun e => ?_, fun e => ?_⟩
      · rw [e, eval_zero] at e1
        exact hne e1.symm
      · rw [e, eval_zero] at e2'
        exact hne' e2'.symm
      · rw [e, e2', hz'] at e1'
        exact hne' e1'

theorem theKey_a (d : Domain Fq) (g1 : G1) (g2 : G2) (w : Secrets Fq) (M : Matrices Fq) (ni nw : Nat) :
    (theKey d g1 g2 w M ni nw).aQuery = (List.range (ni + nw)).map fun j => (colPolyA d M.a ni j).eval w.tau • g1 := rfl

theorem theKey_b1 (d : Domain Fq) (g1 : G1) (g2 : G2) (w : Secrets Fq) (M : Matrices Fq) (ni nw : Nat) :
    (theKey d g1 g2 w M ni nw).bG1Query = (List.range (ni + nw)).map fun j => (colPoly d M.b j).eval w.tau • g1 := rfl

theorem theKey_b2 (d : Domain Fq) (g1 : G1) (g2 : G2) (w : Secrets Fq) (M : Matrices Fq) (ni nw : Nat) :
    (theKey d g1 g2 w M ni nw).bG2Query = (List.range (ni + nw)).map fun j => (colPoly d M.b j).eval w.tau • g2 := rfl

/-- Common roots of finitely many polynomials. -/
theorem few_common {n : Nat} (hn : 0 < n) (N : Nat) (f : Nat → Fq[X]) (hf : ∀ j, f j ∈ degreeLT Fq n) :
    ∃ bad : Finset Fq, bad.card ≤ N * (n - 1) ∧ ∀ x ∉ bad, ∀ j < N, (f j).eval x = 0 → f j = 0 := by
  refine ⟨(Finset.range N).biUnion fun j => (f j).roots.toFinset, ?_, fun x hx j hj he => ?_⟩
  · refine (Finset.card_biUnion_le_card_mul _ _ (n - 1) fun j _ => ?_).trans (by rw [Finset.card_range])
    exact (Multiset.toFinset_card_le _).trans ((card_roots' _).trans (natDegree_le_of hn (lt_of_sub (hf j))))
  · by_contra hne
    exact hx (Finset.mem_biUnion.2 ⟨j, Finset.mem_range.2 hj, Multiset.mem_toFinset.2 ((mem_roots hne).2 he)⟩)

/-- **C86, numbers of points.** Every key that the generator can make for the circuit, on the domain of 4096 points, has as many points
in each query as the shipped one. -/
theorem C86_lengths (d : Domain Fq) (hd : d.Good) (hs : d.size = 4096) (g1 : G1) (g2 : G2) (w : Secrets Fq) (hw : w.Usable)
    (c₀ : R1cs.PreimageCircuit) :
    ∃ pk, setup d g1 g2 w c₀ = .ok pk ∧ pk.vk.gammaAbcG1.length = shippedKey.gammaAbcG1 ∧ pk.aQuery.length = shippedKey.aQuery ∧
      pk.bG1Query.length = shippedKey.bG1Query ∧ pk.bG2Query.length = shippedKey.bG2Query ∧ pk.hQuery.length = shippedKey.hQuery ∧
      pk.lQuery.length = shippedKey.lQuery := by
  obtain ⟨M, cons, hI, hM⟩ := the_matrices
  refine ⟨_, setup_eq hI hM hd (by omega) g1 g2 hw c₀, ?_⟩
  simp [theKey, keyOf, shippedKey, hs]

/-- **C86, what holds for every secret point.** The points at infinity of the shipped key are points at infinity, and its equal points
are equal, in every key that the generator can make. -/
theorem C86_forced (d : Domain Fq) (hd : d.Good) (hs : 2465 ≤ d.size) (g1 : G1) (g2 : G2) (w : Secrets Fq) (hw : w.Usable)
    (c₀ : R1cs.PreimageCircuit) :
    ∃ pk, setup d g1 g2 w c₀ = .ok pk ∧ ∀ j < 2465, (shippedKey.bG1Zero.testBit j = true → pk.bG1Query[j]? = some 0) ∧
      (shippedKey.bG2Zero.testBit j = true → pk.bG2Query[j]? = some 0) ∧
      (shippedKey.same.testBit j = true → pk.aQuery[j]? = pk.bG1Query[j]?) := by
  obtain ⟨M, cons, hI, hM⟩ := the_matrices
  refine ⟨_, setup_eq hI hM hd hs g1 g2 hw c₀, fun j hj => ?_⟩
  obtain ⟨-, h2, h3⟩ := column_polys hI hd hs hj
  rw [key_kinds'.2.1]
  have hr : ∀ {α : Type} (f : Nat → α), ((List.range (8 + 2457)).map f)[j]? = some (f j) := fun f => by
    rw [List.getElem?_map, List.getElem?_range (by omega)]; rfl
  refine ⟨fun h => ?_, fun h => ?_, fun h => ?_⟩
  · rw [theKey_b1, hr, h2.2 h, eval_zero, zero_smul]
  · rw [theKey_b2, hr, h2.2 h, eval_zero, zero_smul]
  · rw [theKey_a, theKey_b1, hr, hr, h3.2 h]

/-- **C86, the shape of the shipped key.** Every key that the generator can make for the circuit, on the domain of 4096 points, has
exactly the shape of the shipped one, unless the secret point is one of at most 30282525 values.  They do not depend on the other
secrets, nor on the groups. -/
theorem C86_shape (d : Domain Fq) (hd : d.Good) (hs : d.size = 4096) :
    ∃ bad : Finset Fq, bad.card ≤ 30282525 ∧
      ∀ {G1 G2 : Type} [AddCommGroup G1] [Module Fq G1] [AddCommGroup G2] [Module Fq G2] (g1 : G1) (g2 : G2), g1 ≠ 0 → g2 ≠ 0 →
      ∀ (w : Secrets Fq), w.Usable → w.tau ∉ bad → ∀ c₀ : R1cs.PreimageCircuit, ∃ pk, setup d g1 g2 w c₀ = .ok pk ∧ shippedKey.Matches pk := by
  obtain ⟨M, cons, hI, hM⟩ := the_matrices
  have hs' : 2465 ≤ d.size := by omega
  have hmem : ∀ j, colPolyA d M.a 8 j - colPoly d M.b j ∈ degreeLT Fq d.size := fun j =>
    Submodule.sub_mem _ (colPolyA_mem d M.a 8 j) (colPoly_mem d M.b j)
  obtain ⟨bad1, c1, r1⟩ := few_common hd.pos 2465 _ fun j => colPolyA_mem d M.a 8 j
  obtain ⟨bad2, c2, r2⟩ := few_common hd.pos 2465 _ fun j => colPoly_mem d M.b j
  obtain ⟨bad3, c3, r3⟩ := few_common hd.pos 2465 _ hmem
  rw [hs] at c1 c2 c3
  refine ⟨bad1 ∪ bad2 ∪ bad3, ?_, ?_⟩
  · refine (Finset.card_union_le _ _).trans ((Nat.add_le_add_right (Finset.card_union_le _ _) _).trans ?_)
    omega
  · intro G1 G2 _ _ _ _ g1 g2 hg1 hg2 w hw hτ c₀
    refine ⟨_, setup_eq hI hM hd hs' g1 g2 hw c₀, ?_⟩
    rw [Finset.mem_union, Finset.mem_union, not_or, not_or] at hτ
    obtain ⟨⟨t1, t2⟩, t3⟩ := hτ
    have hget : ∀ {α : Type} {f : Nat → α} {j : Nat} {x : α}, ((List.range (8 + 2457)).map f)[j]? = some x → j < 2465 ∧ f j = x := by
      intro α f j x h
      obtain ⟨h1, h2⟩ := List.getElem?_eq_some_iff.1 h
      rw [List.getElem_map, List.getElem_range] at h2
      rw [List.length_map, List.length_range] at h1
      exact ⟨h1, h2⟩
    have hB : ∀ j < 2465, (colPoly d M.b j).eval w.tau = 0 ↔ shippedKey.bG1Zero.testBit j = true := fun j hj => by
      rw [← (column_polys hI hd hs' hj).2.1]
      exact ⟨r2 _ t2 j hj, fun h => by rw [h, eval_zero]⟩
    refine ⟨by simp [theKey, keyOf, shippedKey], by simp [theKey, keyOf, shippedKey], by simp [theKey, keyOf, shippedKey],
      by simp [theKey, keyOf, shippedKey], by simp [theKey, keyOf, shippedKey, hs], by simp [theKey, keyOf, shippedKey], ?_, ?_, ?_, ?_⟩
    · intro j x hx
      rw [theKey_a] at hx
      obtain ⟨hj, rfl⟩ := hget hx
      rw [key_kinds'.1, Nat.zero_testBit, smul_eq_zero]
      simp only [hg1, or_false, Bool.false_eq_true, iff_false]
      exact fun h => (column_polys hI hd hs' hj).1 (r1 _ t1 j hj h)
    · intro j x hx
      rw [theKey_b1] at hx
      obtain ⟨hj, rfl⟩ := hget hx
      rw [← hB j hj, smul_eq_zero]
      simp only [hg1, or_false]
    · intro j x hx
      rw [theKey_b2] at hx
      obtain ⟨hj, rfl⟩ := hget hx
      rw [key_kinds'.2.1, ← hB j hj, smul_eq_zero]
      simp only [hg2, or_false]
    · intro j x y hx hy
      rw [theKey_a] at hx
      rw [theKey_b1] at hy
      obtain ⟨hj, rfl⟩ := hget hx
      obtain ⟨-, rfl⟩ := hget hy
      rw [← (column_polys hI hd hs' hj).2.2, ← sub_eq_zero, ← sub_smul, smul_eq_zero]
      simp only [hg1, or_false]
      rw [← eval_sub, ← sub_eq_zero (a := colPolyA d M.a 8 j)]
      exact ⟨r3 _ t3 j hj, fun h => by rw [h, eval_zero]⟩

/-! ### The hypotheses are met -/

/-- There is such a domain, and almost all secret points are outside the exceptional values; here the groups are the field itself. -/
example : ∃ (w : Secrets Fq) (pk : ProvingKey Fq Fq), setup domain4096 1 1 w ⟨Vector.replicate 7 2, Vector.replicate 7 2⟩ = .ok pk ∧
    shippedKey.Matches pk := by
  obtain ⟨bad, h1, h2⟩ := C86_shape domain4096 domain4096_good rfl
  have : bad.card < (Finset.univ : Finset Fq).card := by
    rw [Finset.card_univ, ZMod.card]
    exact h1.trans_lt (by decide +kernel)
  obtain ⟨x, -, hx⟩ := Finset.exists_mem_notMem_of_card_lt_card this
  obtain ⟨pk, h3, h4⟩ := h2 (1 : Fq) (1 : Fq) one_ne_zero one_ne_zero ⟨1, 1, 1, 1, x⟩ ⟨one_ne_zero, one_ne_zero⟩ hx
    ⟨Vector.replicate 7 2, Vector.replicate 7 2⟩
  exact ⟨_, pk, h3, h4⟩

end Poseidon
