import Verif.Proofs.Layers
import Verif.Spec.Derived
import Mathlib.Data.Fin.VecNotation
import Mathlib.LinearAlgebra.Matrix.Notation

/-! # The optimized permutation

`OptRel` collects the algebraic relations between the optimized tables and the MDS matrix and round
constants; under them `permute` computes the textbook permutation.
-/

set_option linter.unusedSectionVars false

namespace Poseidon

open Matrix

variable {F : Type _} [Field F] [DecidableEq F]
variable {k nmds nhat rows nround npart : Nat}

theorem sparseM_zero (m00 : F) (v w : Fin k → F) (x : Fin (k + 1) → F) :
    (sparseM m00 v w).mulVec x 0 = m00 * x 0 + ∑ j, w j * x j.succ := by
  simp [Matrix.mulVec, _root_.dotProduct, Fin.sum_univ_succ, sparseM]

theorem sparseM_succ (m00 : F) (v w : Fin k → F) (x : Fin (k + 1) → F) (i : Fin k) :
    (sparseM m00 v w).mulVec x i.succ = v i * x 0 + x i.succ := by
  simp [Matrix.mulVec, _root_.dotProduct, Fin.sum_univ_succ, sparseM]

theorem diag1_zero (A : Matrix (Fin k) (Fin k) F) (x : Fin (k + 1) → F) :
    (diag1 A).mulVec x 0 = x 0 := by
  simp [Matrix.mulVec, _root_.dotProduct, Fin.sum_univ_succ, diag1]

theorem diag1_succ (A : Matrix (Fin k) (Fin k) F) (x : Fin (k + 1) → F) (i : Fin k) :
    (diag1 A).mulVec x i.succ = A.mulVec (fun j => x j.succ) i := by
  simp [Matrix.mulVec, _root_.dotProduct, Fin.sum_univ_succ, diag1]

theorem diag1_one : diag1 (1 : Matrix (Fin k) (Fin k) F) = 1 := by
  ext i j
  cases i using Fin.cases with
  | zero => cases j using Fin.cases with
    | zero => simp [diag1]
    | succ j => simp [diag1, Matrix.one_apply, Fin.ext_iff]
  | succ i => cases j using Fin.cases with
    | zero => simp [diag1, Matrix.one_apply, Fin.ext_iff]
    | succ j => simp [diag1, Matrix.one_apply]

theorem diag1_update (A : Matrix (Fin k) (Fin k) F) (x : Fin (k + 1) → F) (y : F) :
    Function.update ((diag1 A).mulVec x) 0 y = (diag1 A).mulVec (Function.update x 0 y) := by
  funext i
  cases i using Fin.cases with
  | zero => rw [Function.update_self, diag1_zero, Function.update_self]
  | succ i =>
    rw [Function.update_of_ne (Fin.succ_ne_zero i), diag1_succ, diag1_succ]
    congr 1

/-- Forcing the prefix-dependent copy at the end of `sparse_mat_mul`. -/
theorem copyTail (x y : Fin (k + 1) → F) (l : List F) (hl : l = List.ofFn fun i : Fin k => y i.succ) :
    (forList l.zipIdx (Vector.ofFn x) fun (e : F × Nat) s => aset s (e.2 + 1) e.1) =
      .ok (Vector.ofFn (Function.update y 0 (x 0))) := by
  subst hl
  obtain ⟨s, h1, h2⟩ := forList_spec (fun q (s : Vector F (k + 1)) =>
      s = Vector.ofFn fun i => if 0 < i.val ∧ i.val < q + 1 then y i else x i)
    (body := fun (e : F × Nat) s => aset s (e.2 + 1) e.1)
    (List.ofFn fun i : Fin k => y i.succ).zipIdx 0 (Vector.ofFn x) (by
      congr 1; funext i; rw [if_neg]; omega) (by
      intro j hj s hs
      have hj' : j < k := by simpa using hj
      refine ⟨_, ?_, rfl⟩
      rw [List.getElem_zipIdx]
      simp only [Nat.zero_add, List.getElem_ofFn]
      rw [hs, aset_ofFn _ (by omega : j + 1 < k + 1)]
      congr 2
      funext i
      rw [Function.update_apply]
      by_cases h3 : i.val = j + 1
      · have : i = ⟨j + 1, by omega⟩ := Fin.ext h3
        rw [this, if_pos rfl, if_pos (by simp)]; rfl
      · have h4 : i ≠ ⟨j + 1, by omega⟩ := fun h => h3 (congrArg Fin.val h)
        rw [if_neg h4]
        congr 1
        simp only [eq_iff_iff]; omega)
  rw [h1, h2]
  congr 2
  funext i
  cases i using Fin.cases with
  | zero => simp
  | succ i =>
    rw [Function.update_of_ne (Fin.succ_ne_zero i), if_pos]
    simp

theorem sparseMatMul_eq (o : OptimizedMds F npart (k + 1) k nmds nhat) {r : Nat} (hr : r < npart)
    (x : Fin (k + 1) → F) :
    sparseMatMul o r (Vector.ofFn x) = .ok (Vector.ofFn ((sparseM o.m00
      (fun i => o.vCollection[r].elements[i]) (fun i => o.wHatCollection[r].elements[i])).mulVec x)) := by
  rw [sparseMatMul, aget_lt _ hr, ok_bind]
  set v := o.vCollection[r]
  set w := o.wHatCollection[r]
  set y : Fin (k + 1) → F := (sparseM o.m00 (fun i => v.elements[i]) (fun i => w.elements[i])).mulVec x with hy
  obtain ⟨a, h1, h2⟩ := forList_spec (fun q (acc : Vector F k) => ∀ p (hp : p < k), p < q →
      acc[p] = y (Fin.succ ⟨p, hp⟩))
    (body := fun (e : F × Nat) acc => do
      let s0 ← aget (Vector.ofFn x) 0
      let si ← aget (Vector.ofFn x) (e.2 + 1)
      aset acc e.2 (e.1 * s0 + si)) v.elements.toList.zipIdx 0 (Vector.replicate k 0)
    (fun _ _ hh => by omega) (by
      intro j hj acc hinv
      have hj' : j < k := by simpa using hj
      refine ⟨acc.set j (y (Fin.succ ⟨j, hj'⟩)) hj', ?_, ?_⟩
      · rw [List.getElem_zipIdx]
        simp only [Nat.zero_add]
        rw [aget_ofFn x (by omega), ok_bind, aget_ofFn x (by omega), ok_bind, aset_lt _ _ hj', hy, sparseM_succ]
        simp
      · intro p hp hp'
        rw [Vector.getElem_set]
        split
        · next heq => subst heq; rfl
        · next hne => exact hinv p hp (by omega))
  refine Eq.trans (congrArg (· >>= _) h1) ?_
  rw [ok_bind, aget_ofFn x (by omega), ok_bind, aget_lt _ hr, ok_bind, if_pos (by omega),
    aset_ofFn x (by omega), ok_bind]
  show (usub (k + 1) 1 >>= _) = _
  rw [usub, if_pos (by omega), ok_bind, if_pos (by omega)]
  refine Eq.trans (copyTail _ y _ ?_) ?_
  · apply List.ext_getElem
    · simp
    · intro i hi1 hi2
      have hi : i < k := by simpa using hi2
      simpa using h2 i hi (by simpa using hi)
  · congr 2
    funext i
    cases i using Fin.cases with
    | zero =>
      rw [Function.update_self]
      show Function.update x 0 _ 0 = _
      rw [Function.update_self, hy, sparseM_zero]
      congr 1
      have hd := dotProduct_ofFn (fun j : Fin k => w.elements[j]) (fun j : Fin k => x j.succ)
      rw [Poseidon.dotProduct, if_neg (by simp)] at hd
      injection hd with hd
      rw [← hd]
      congr 2
      · apply List.ext_getElem
        · simp
        · intro j h1 h2; simp; rfl
      · apply List.ext_getElem
        · simp
        · intro j h1 h2; simp
    | succ i => rw [Function.update_of_ne (Fin.succ_ne_zero i)]

/-- The relations between MDS matrix `M`, round constants `c` of the partial rounds, and the
optimized tables: `Mi`, sparse matrices `E`, moved constants `d` (initial) and `κ`. -/
structure OptRel (M Mi : Matrix (Fin (k + 1)) (Fin (k + 1)) F) (rp : Nat)
    (E : Nat → Matrix (Fin (k + 1)) (Fin (k + 1)) F) (c : Nat → Fin (k + 1) → F)
    (d0 : Fin (k + 1) → F) (κ : Nat → F) : Prop where
  mats : ∃ A : Nat → Matrix (Fin k) (Fin k) F, A 0 = 1 ∧ Mi = diag1 (A rp) ∧
    ∀ j, j < rp → diag1 (A j) * M = E j * diag1 (A (j + 1))
  consts : ∃ d : Nat → Fin (k + 1) → F, d 0 = d0 ∧ d (rp - 1) = c (rp - 1) ∧
    ∀ r, r < rp - 1 → d r 0 = c r 0 ∧ M.mulVec (d r - c r + Pi.single 0 (κ r)) = d (r + 1)

/-- The partial S-box layer on represented states. -/
def s0R (a : Alpha) (x : Fin (k + 1) → F) : R (Fin (k + 1) → F) :=
  if a.Defined (x 0) then .ok (Function.update x 0 (a.val (x 0))) else .error .divZero

theorem partialSubWords_s0R (a : Alpha) (x : Fin (k + 1) → F) :
    partialSubWords a (Vector.ofFn x) = Vector.ofFn <$> s0R a x := by
  rw [partialSubWords_eq (Nat.succ_pos k), s0R]
  show (if a.Defined (x 0) then _ else _) = _
  split <;> rfl

theorem roundR_false (a : Alpha) (M : Matrix (Fin (k + 1)) (Fin (k + 1)) F) (c x : Fin (k + 1) → F) :
    roundR a M false c x = (fun y => M.mulVec y) <$> s0R a (x + c) := by
  rw [roundR, s0R]
  have h0 : (∀ i : Fin (k + 1), Active false i → a.Defined (x i + c i)) ↔ a.Defined ((x + c) 0) := by
    constructor
    · intro hh; exact hh 0 (Or.inr rfl)
    · intro hh i hi
      have : i = 0 := by
        rcases hi with hi | hi
        · cases hi
        · exact Fin.ext hi
      subst this; exact hh
  by_cases h1 : a.Defined ((x + c) 0)
  · rw [if_pos (h0.2 h1), if_pos h1, map_ok]
    congr 2
    funext i
    rw [Function.update_apply]
    by_cases h2 : i = 0
    · subst h2; simp [Active]
    · have : ¬ Active false i := by
        rintro (hh | hh)
        · cases hh
        · exact h2 (Fin.ext hh)
      rw [if_neg h2, if_neg this]; rfl
  · rw [if_neg h1, if_neg (fun hh => h1 (h0.1 hh))]; rfl

/-- The partial rounds in optimized form. -/
theorem optimized_middle (a : Alpha) {M Mi : Matrix (Fin (k + 1)) (Fin (k + 1)) F} {rp : Nat}
    {E : Nat → Matrix (Fin (k + 1)) (Fin (k + 1)) F} {c : Nat → Fin (k + 1) → F}
    {d0 : Fin (k + 1) → F} {κ : Nat → F} (hrp : 1 ≤ rp) (h : OptRel M Mi rp E c d0 κ)
    (x : Fin (k + 1) → F) :
    (do
      let y ← loopN (fun r y => do
        let y ← s0R a y
        .ok ((E (rp - r - 1)).mulVec (y + Pi.single 0 (κ r)))) (rp - 1) 0 (Mi.mulVec (x + d0))
      let y ← s0R a y
      .ok ((E 0).mulVec y)) = loopN (fun r => roundR a M false (c r)) rp 0 x := by
  obtain ⟨⟨A, hA0, hMi, hE⟩, d, hd0, hdl, hd⟩ := h
  -- S-box through the block matrix
  have hs0 : ∀ (B : Matrix (Fin k) (Fin k) F) (y : Fin (k + 1) → F),
      s0R a ((diag1 B).mulVec y) = (fun z => (diag1 B).mulVec z) <$> s0R a y := by
    intro B y
    rw [s0R, s0R, diag1_zero]
    split
    · rw [map_ok, diag1_update]
    · rfl
  have hsingle : ∀ (B : Matrix (Fin k) (Fin k) F) (z : F),
      (Pi.single 0 z : Fin (k + 1) → F) = (diag1 B).mulVec (Pi.single 0 z) := by
    intro B z
    funext i
    cases i using Fin.cases with
    | zero => rw [diag1_zero]
    | succ i =>
      rw [diag1_succ]
      have : (fun j : Fin k => (Pi.single 0 z : Fin (k + 1) → F) j.succ) = 0 := by
        funext j; simp
      rw [this]; simp
  have step : ∀ r x, r < rp - 1 → (do
      let y ← s0R a ((diag1 (A (rp - r))).mulVec (x + d r))
      .ok ((E (rp - r - 1)).mulVec (y + Pi.single 0 (κ r)))) =
      (fun x => (diag1 (A (rp - (r + 1)))).mulVec (x + d (r + 1))) <$> roundR a M false (c r) x := by
    intro r x hr
    obtain ⟨hd1, hd2⟩ := hd r hr
    rw [hs0, roundR_false, s0R, s0R]
    have h0 : (x + d r) 0 = (x + c r) 0 := by simp [hd1]
    rw [h0]
    split
    · simp only [map_ok, ok_bind]
      rw [hsingle (A (rp - r)) (κ r), ← Matrix.mulVec_add, Matrix.mulVec_mulVec]
      have hE' := hE (rp - r - 1) (by omega)
      rw [show rp - r - 1 + 1 = rp - r by omega] at hE'
      have hv : Function.update (x + d r) 0 (a.val ((x + c r) 0)) + Pi.single 0 (κ r) =
          Function.update (x + c r) 0 (a.val ((x + c r) 0)) + (d r - c r + Pi.single 0 (κ r)) := by
        funext i
        by_cases hi : i = 0
        · subst hi; simp [hd1]
        · simp [hi]
      rw [← hE', ← Matrix.mulVec_mulVec, show rp - (r + 1) = rp - r - 1 by omega, ← hd2, hv,
        Matrix.mulVec_add]
    · rfl
  have hloop : loopN (fun r y => do
        let y ← s0R a y
        .ok ((E (rp - r - 1)).mulVec (y + Pi.single 0 (κ r)))) (rp - 1) 0
        ((diag1 (A rp)).mulVec (x + d 0)) =
      (fun x => (diag1 (A (rp - (rp - 1)))).mulVec (x + d (rp - 1))) <$>
        loopN (fun r => roundR a M false (c r)) (rp - 1) 0 x := by
    have := loopN_map' (fun (r : Nat) (x : Fin (k + 1) → F) => (diag1 (A (rp - r))).mulVec (x + d r))
      (fun r y => do
        let y ← s0R a y
        .ok ((E (rp - r - 1)).mulVec (y + Pi.single 0 (κ r))))
      (fun r => roundR a M false (c r)) (rp - 1) 0 x (by
        intro r x _ hr
        rw [Nat.zero_add] at hr
        exact step r x hr)
    rw [Nat.zero_add] at this
    exact this
  rw [hMi, ← hd0, hloop]
  have hsplit : loopN (fun r => roundR a M false (c r)) rp 0 x =
      loopN (fun r => roundR a M false (c r)) (rp - 1) 0 x >>= roundR a M false (c (rp - 1)) := by
    conv_lhs => rw [show rp = (rp - 1) + 1 by omega]
    rw [loopN_add]
    congr 1
    funext y
    simp only [loopN, Nat.zero_add]
    cases roundR a M false (c (rp - 1)) y <;> rfl
  rw [hsplit]
  cases loopN (fun r => roundR a M false (c r)) (rp - 1) 0 x with
  | error e => rfl
  | ok y =>
    rw [map_ok, ok_bind, ok_bind, hs0, roundR_false, hdl]
    cases s0R a (y + c (rp - 1)) with
    | error e => rfl
    | ok z =>
      simp only [map_ok, ok_bind]
      have hE' := hE 0 (by omega)
      rw [Nat.zero_add] at hE'
      rw [Matrix.mulVec_mulVec, show rp - (rp - 1) = 1 by omega, ← hE', hA0, diag1_one, one_mul]

/-- The sparse matrices stored in a parameter set (index `r` must be below the number of partial
rounds; other indices give an arbitrary matrix). -/
def storedSparse (o : OptimizedMds F npart (k + 1) k nmds nhat) (r : Nat) :
    Matrix (Fin (k + 1)) (Fin (k + 1)) F :=
  if h : r < npart then
    sparseM o.m00 (fun i => o.vCollection[r].elements[i]) (fun i => o.wHatCollection[r].elements[i])
  else 0

/-- A parameter set whose optimized tables are consistent with its MDS matrix and constants. -/
structure Consistent (p : Params F (k + 1) k nmds nhat rows (k + 1) nround npart)
    (hm : nmds = (k + 1) * (k + 1)) (ha : nround = rows * (k + 1)) : Prop where
  rows_le : p.rounds.rF / 2 + p.rounds.rP + p.rounds.rF / 2 ≤ rows
  rp_pos : 1 ≤ p.rounds.rP
  rp_le : p.rounds.rP ≤ npart
  rel : OptRel (p.mds.toM hm) (p.optimizedMds.mI.toM hm) p.rounds.rP (storedSparse p.optimizedMds)
    (fun r => rowFn ha p.arc (p.rounds.rF / 2 + r))
    (rowFn ha p.optimizedArc (p.rounds.rF / 2))
    (fun r => rowFn ha p.optimizedArc (p.rounds.rF / 2 + r + 1) 0)
  full_pre : ∀ r, r < p.rounds.rF / 2 → rowFn ha p.optimizedArc r = rowFn ha p.arc r
  full_post : ∀ r, p.rounds.rF / 2 + p.rounds.rP ≤ r →
    r < p.rounds.rF / 2 + p.rounds.rP + p.rounds.rF / 2 → rowFn ha p.optimizedArc r = rowFn ha p.arc r

theorem permute_eq (p : Params F (k + 1) k nmds nhat rows (k + 1) nround npart)
    (hm : nmds = (k + 1) * (k + 1)) (ha : nround = rows * (k + 1)) (hc : Consistent p hm ha)
    (x : Fin (k + 1) → F) :
    permute p (Vector.ofFn x) = reported (textbook p.alpha (p.mds.toM hm) (p.rounds.rF / 2)
      p.rounds.rP (fun r => p.arc.toM ha ⟨r.val, lt_of_lt_of_le r.isLt hc.rows_le⟩) x) := by
  have ht : 0 < k + 1 := Nat.succ_pos k
  obtain ⟨rows_le, rp_pos, rp_le, rel, full_pre, full_post⟩ := hc
  have hrow : ∀ r (h : r < rows) (m : Mat F rows (k + 1) nround), rowFn ha m r = m.toM ha ⟨r, h⟩ :=
    fun r h m => by rw [rowFn, dif_pos h]
  rw [textbook_eq_loops _ _ _ _ _ (rowFn ha p.arc) (fun r => hrow _ _ _)]
  set rf := p.rounds.rF / 2 with hrf
  set rp := p.rounds.rP with hrp
  rw [permute]
  -- first full rounds
  have L1 : ∀ x : Fin (k + 1) → F, forRange 0 rf (Vector.ofFn x) (fun r s => do
      let s ← addRow p.optimizedArc r s
      let s ← fullSubWords p.alpha s
      mixLayer p.mds s) =
      Vector.ofFn <$> loopN (fun r => roundR p.alpha (p.mds.toM hm) true (rowFn ha p.arc r)) rf 0 x := by
    intro x
    rw [forRange, Nat.sub_zero]
    apply loopN_map
    intro j x _ hj
    rw [addRow_eq ha _ (by omega : j < rows), ok_bind, roundR_full ht hm, ← hrow j (by omega),
      full_pre j (by omega)]
  -- final full rounds
  have L3 : ∀ x : Fin (k + 1) → F, forRange 0 rf (Vector.ofFn x, rf + rp) (fun _ (y : Vector F (k + 1) × Nat) => do
      let s ← addRow p.optimizedArc y.2 y.1
      let s ← fullSubWords p.alpha s
      let s ← mixLayer p.mds s
      return (s, y.2 + 1)) = (fun x => (Vector.ofFn x, rf + rp + rf)) <$>
        loopN (fun r => roundR p.alpha (p.mds.toM hm) true (rowFn ha p.arc r)) rf (rf + rp) x := by
    intro x
    have := loopN_map' (fun j (x : Fin (k + 1) → F) => (Vector.ofFn x, j))
      (fun _ (y : Vector F (k + 1) × Nat) => do
      let s ← addRow p.optimizedArc y.2 y.1
      let s ← fullSubWords p.alpha s
      let s ← mixLayer p.mds s
      return (s, y.2 + 1)) (fun r => roundR p.alpha (p.mds.toM hm) true (rowFn ha p.arc r)) rf (rf + rp) x
      (by
        intro j x hj1 hj2
        simp only
        rw [addRow_eq ha _ (by omega : j < rows), ok_bind, ← bind_assoc, roundR_full ht hm,
          ← hrow j (by omega), full_post j (by omega) (by omega)]
        cases roundR p.alpha (p.mds.toM hm) true (rowFn ha p.arc j) x <;> rfl)
    rw [← this]
    have sh := loopN_shift (fun _ (y : Vector F (k + 1) × Nat) => do
      let s ← addRow p.optimizedArc y.2 y.1
      let s ← fullSubWords p.alpha s
      let s ← mixLayer p.mds s
      return (s, y.2 + 1)) rf 0 (rf + rp) (Vector.ofFn x, rf + rp)
    rw [Nat.zero_add] at sh
    exact sh
  -- partial rounds
  have hsp : ∀ r, r < rp → ∀ x, sparseMatMul p.optimizedMds r (Vector.ofFn x) =
      .ok (Vector.ofFn ((storedSparse p.optimizedMds r).mulVec x)) := by
    intro r hr x
    rw [sparseMatMul_eq _ (by omega : r < npart), storedSparse, dif_pos (by omega : r < npart)]
  have L2 : ∀ x : Fin (k + 1) → F, forRange 0 (rp - 1) (Vector.ofFn x, rf)
      (fun r (y : Vector F (k + 1) × Nat) => do
        let s ← partialSubWords p.alpha y.1
        let counter := y.2 + 1
        let x ← aget s 0
        let k ← p.optimizedArc.get counter 0
        let s ← aset s 0 (x + k)
        let idx ← usub rp r
        let idx ← usub idx 1
        let s ← sparseMatMul p.optimizedMds idx s
        return (s, counter)) = (fun x => (Vector.ofFn x, rf + (rp - 1))) <$>
      loopN (fun r y => do
        let y ← s0R p.alpha y
        .ok ((storedSparse p.optimizedMds (rp - r - 1)).mulVec
          (y + Pi.single 0 (rowFn ha p.optimizedArc (rf + r + 1) 0)))) (rp - 1) 0 x := by
    intro x
    rw [forRange, Nat.sub_zero]
    have := loopN_map' (fun j (x : Fin (k + 1) → F) => (Vector.ofFn x, rf + j))
      (fun r (y : Vector F (k + 1) × Nat) => do
        let s ← partialSubWords p.alpha y.1
        let counter := y.2 + 1
        let x ← aget s 0
        let k ← p.optimizedArc.get counter 0
        let s ← aset s 0 (x + k)
        let idx ← usub rp r
        let idx ← usub idx 1
        let s ← sparseMatMul p.optimizedMds idx s
        return (s, counter))
      (fun r y => do
        let y ← s0R p.alpha y
        .ok ((storedSparse p.optimizedMds (rp - r - 1)).mulVec
          (y + Pi.single 0 (rowFn ha p.optimizedArc (rf + r + 1) 0)))) (rp - 1) 0 x (by
        intro r x _ hr
        simp only
        rw [partialSubWords_s0R]
        cases s0R p.alpha x with
        | error e => rfl
        | ok y =>
          simp only [map_ok, ok_bind]
          rw [aget_ofFn y ht, ok_bind, Mat.get_eq ha _ (by omega : rf + r + 1 < rows) ht, ok_bind,
            aset_ofFn y ht, ok_bind, usub, if_pos (by omega), ok_bind, usub, if_pos (by omega), ok_bind,
            hsp _ (by omega), hrow _ (by omega)]
          simp only [ok_bind, pure_eq_ok]
          have hv : Function.update y ⟨0, ht⟩ (y ⟨0, ht⟩ + p.optimizedArc.toM ha ⟨rf + r + 1, by omega⟩ ⟨0, ht⟩)
              = y + Pi.single 0 (p.optimizedArc.toM ha ⟨rf + r + 1, by omega⟩ 0) := by
            funext i
            by_cases hi : i = 0
            · subst hi; simp
            · have : i ≠ (⟨0, ht⟩ : Fin (k + 1)) := hi
              simp [hi]
          rw [hv]
          rfl)
    simpa using this
  show (forRange 0 rf (Vector.ofFn x) _ >>= _) = _
  rw [L1]
  cases loopN (fun r => roundR p.alpha (p.mds.toM hm) true (rowFn ha p.arc r)) rf 0 x with
  | error e => rfl
  | ok y =>
    rw [map_ok, ok_bind, ok_bind]
    show (addRow p.optimizedArc rf (Vector.ofFn y) >>= _) = _
    rw [addRow_eq ha _ (by omega : rf < rows), ok_bind, mixLayer_eq ht hm, ok_bind,
      usub, if_pos (show 1 ≤ p.rounds.partialRounds from rp_pos), ok_bind]
    have mid := optimized_middle p.alpha rp_pos rel y
    have hshift : loopN (fun r => roundR p.alpha (p.mds.toM hm) false (rowFn ha p.arc (rf + r))) rp 0 y =
        loopN (fun r => roundR p.alpha (p.mds.toM hm) false (rowFn ha p.arc r)) rp rf y := by
      have := loopN_shift (fun r => roundR p.alpha (p.mds.toM hm) false (rowFn ha p.arc r)) rp 0 rf y
      rw [Nat.zero_add] at this
      rw [← this]
      apply loopN_congr
      intro j s _ _
      rw [Nat.add_comm rf j]
    rw [hshift] at mid
    rw [← mid, ← hrow rf (by omega)]
    refine Eq.trans (congrArg (· >>= _) (L2 _)) ?_
    cases loopN (fun r y => do
        let y ← s0R p.alpha y
        .ok ((storedSparse p.optimizedMds (rp - r - 1)).mulVec
          (y + Pi.single 0 (rowFn ha p.optimizedArc (rf + r + 1) 0)))) (rp - 1) 0
          ((p.optimizedMds.mI.toM hm).mulVec (y + rowFn ha p.optimizedArc rf)) with
    | error e => rfl
    | ok z =>
      simp only [map_ok, ok_bind]
      rw [partialSubWords_s0R]
      cases s0R p.alpha z with
      | error e => rfl
      | ok w =>
        simp only [map_ok, ok_bind]
        rw [hsp 0 (by omega), ok_bind]
        have e1 : rf + (rp - 1) + 1 = rf + rp := by omega
        rw [e1]
        refine Eq.trans (congrArg (· >>= _) (L3 _)) ?_
        cases loopN (fun r => roundR p.alpha (p.mds.toM hm) true (rowFn ha p.arc r)) rf (rf + rp)
          ((storedSparse p.optimizedMds 0).mulVec w) <;> rfl

end Poseidon
