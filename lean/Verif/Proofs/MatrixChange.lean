import Verif.Proofs.ConstantChange

/-! # The optimized permutation with one entry of its matrices changed -/

set_option linter.unusedSectionVars false

namespace Poseidon

open Polynomial

variable {F : Type} [Field F] [DecidableEq F] {k nmds nhat rows nround npart t e : Nat}

/-! ## The optimized permutation, whatever the tables -/

theorem loopN_ok {σ : Type _} (f : Nat → σ → σ) : ∀ (m j : Nat) (x : σ), loopN (fun r x => .ok (f r x)) m j x = .ok ((List.range' j m).foldl (fun x r => f r x) x) := by
  intro m
  induction m with
  | zero => intro j x; rfl
  | succ m ih =>
    intro j x
    rw [loopN, ok_bind, ih, List.range'_succ, List.foldl_cons]

/-- The loops of the optimized permutation, for any tables of the right sizes. -/
theorem permute_loops (p : Params F (k + 1) k nmds nhat rows (k + 1) nround npart)
    (hm : nmds = (k + 1) * (k + 1)) (ha : nround = rows * (k + 1)) (rows_le : p.rounds.rF / 2 + p.rounds.rP + p.rounds.rF / 2 ≤ rows)
    (rp_pos : 1 ≤ p.rounds.rP) (rp_le : p.rounds.rP ≤ npart) (x : Fin (k + 1) → F) :
    permute p (Vector.ofFn x) = Vector.ofFn <$> (do
      let y ← loopN (fun r => roundR p.alpha (p.mds.toM hm) true (rowFn ha p.optimizedArc r)) (p.rounds.rF / 2) 0 x
      let y ← loopN (fun r y => do
        let y ← s0R p.alpha y
        .ok ((storedSparse p.optimizedMds (p.rounds.rP - r - 1)).mulVec
          (y + Pi.single 0 (rowFn ha p.optimizedArc (p.rounds.rF / 2 + r + 1) 0)))) (p.rounds.rP - 1) 0
            ((p.optimizedMds.mI.toM hm).mulVec (y + rowFn ha p.optimizedArc (p.rounds.rF / 2)))
      let y ← s0R p.alpha y
      loopN (fun r => roundR p.alpha (p.mds.toM hm) true (rowFn ha p.optimizedArc r)) (p.rounds.rF / 2) (p.rounds.rF / 2 + p.rounds.rP)
        ((storedSparse p.optimizedMds 0).mulVec y)) := by
  have ht : 0 < k + 1 := Nat.succ_pos k
  have hrow : ∀ r (h : r < rows) (m : Mat F rows (k + 1) nround), rowFn ha m r = m.toM ha ⟨r, h⟩ :=
    fun r h m => by rw [rowFn, dif_pos h]
  set rf := p.rounds.rF / 2 with hrf
  set rp := p.rounds.rP with hrp
  rw [permute]
  -- first full rounds
  have L1 : ∀ x : Fin (k + 1) → F, forRange 0 rf (Vector.ofFn x) (fun r s => do
      let s ← addRow p.optimizedArc r s
      let s ← fullSubWords p.alpha s
      mixLayer p.mds s) =
      Vector.ofFn <$> loopN (fun r => roundR p.alpha (p.mds.toM hm) true (rowFn ha p.optimizedArc r)) rf 0 x := by
    intro x
    rw [forRange, Nat.sub_zero]
    apply loopN_map
    intro j x _ hj
    rw [addRow_eq ha _ (by omega : j < rows), ok_bind, roundR_full ht hm, ← hrow j (by omega)]
  -- final full rounds
  have L3 : ∀ x : Fin (k + 1) → F, forRange 0 rf (Vector.ofFn x, rf + rp) (fun _ (y : Vector F (k + 1) × Nat) => do
      let s ← addRow p.optimizedArc y.2 y.1
      let s ← fullSubWords p.alpha s
      let s ← mixLayer p.mds s
      return (s, y.2 + 1)) = (fun x => (Vector.ofFn x, rf + rp + rf)) <$>
        loopN (fun r => roundR p.alpha (p.mds.toM hm) true (rowFn ha p.optimizedArc r)) rf (rf + rp) x := by
    intro x
    have := loopN_map' (fun j (x : Fin (k + 1) → F) => (Vector.ofFn x, j))
      (fun _ (y : Vector F (k + 1) × Nat) => do
      let s ← addRow p.optimizedArc y.2 y.1
      let s ← fullSubWords p.alpha s
      let s ← mixLayer p.mds s
      return (s, y.2 + 1)) (fun r => roundR p.alpha (p.mds.toM hm) true (rowFn ha p.optimizedArc r)) rf (rf + rp) x
      (by
        intro j x hj1 hj2
        simp only
        rw [addRow_eq ha _ (by omega : j < rows), ok_bind, ← bind_assoc, roundR_full ht hm,
          ← hrow j (by omega)]
        cases roundR p.alpha (p.mds.toM hm) true (rowFn ha p.optimizedArc j) x <;> rfl)
    rw [← this]
    have sh := loopN_shift (fun _ (y : Vector F (k + 1) × Nat) => do
      let s ← addRow p.optimizedArc y.2 y.1
      let s ← fullSubWords p.alpha s
      let s ← mixLayer p.mds s
      return (s, y.2 + 1)) rf 0 (rf + rp) (Vector.ofFn x, rf + rp)
    rw [Nat.zero_add] at sh
    exact sh
  -- partial rounds
  have hsp : ∀ r, r < rp → ∀ x, sparseMatMul p.optimizedMds r (Vector.ofFn x) =
      .ok (Vector.ofFn ((storedSparse p.optimizedMds r).mulVec x)) := by
    intro r hr x
    rw [sparseMatMul_eq _ (by omega : r < npart), storedSparse, dif_pos (by omega : r < npart)]
  have L2 : ∀ x : Fin (k + 1) → F, forRange 0 (rp - 1) (Vector.ofFn x, rf)
      (fun r (y : Vector F (k + 1) × Nat) => do
        let s ← partialSubWords p.alpha y.1
        let counter := y.2 + 1
        let x ← aget s 0
        let k ← p.optimizedArc.get counter 0
        let s ← aset s 0 (x + k)
        let idx ← usub rp r
        let idx ← usub idx 1
        let s ← sparseMatMul p.optimizedMds idx s
        return (s, counter)) = (fun x => (Vector.ofFn x, rf + (rp - 1))) <$>
      loopN (fun r y => do
        let y ← s0R p.alpha y
        .ok ((storedSparse p.optimizedMds (rp - r - 1)).mulVec
          (y + Pi.single 0 (rowFn ha p.optimizedArc (rf + r + 1) 0)))) (rp - 1) 0 x := by
    intro x
    rw [forRange, Nat.sub_zero]
    have := loopN_map' (fun j (x : Fin (k + 1) → F) => (Vector.ofFn x, rf + j))
      (fun r (y : Vector F (k + 1) × Nat) => do
        let s ← partialSubWords p.alpha y.1
        let counter := y.2 + 1
        let x ← aget s 0
        let k ← p.optimizedArc.get counter 0
        let s ← aset s 0 (x + k)
        let idx ← usub rp r
        let idx ← usub idx 1
        let s ← sparseMatMul p.optimizedMds idx s
        return (s, counter))
      (fun r y => do
        let y ← s0R p.alpha y
        .ok ((storedSparse p.optimizedMds (rp - r - 1)).mulVec
          (y + Pi.single 0 (rowFn ha p.optimizedArc (rf + r + 1) 0)))) (rp - 1) 0 x (by
        intro r x _ hr
        simp only
        rw [partialSubWords_s0R]
        cases s0R p.alpha x with
        | error e => rfl
        | ok y =>
          simp only [map_ok, ok_bind]
          rw [aget_ofFn y ht, ok_bind, Mat.get_eq ha _ (by omega : rf + r + 1 < rows) ht, ok_bind,
            aset_ofFn y ht, ok_bind, usub, if_pos (by omega), ok_bind, usub, if_pos (by omega), ok_bind,
            hsp _ (by omega), hrow _ (by omega)]
          simp only [ok_bind, pure_eq_ok]
          have hv : Function.update y ⟨0, ht⟩ (y ⟨0, ht⟩ + p.optimizedArc.toM ha ⟨rf + r + 1, by omega⟩ ⟨0, ht⟩)
              = y + Pi.single 0 (p.optimizedArc.toM ha ⟨rf + r + 1, by omega⟩ 0) := by
            funext i
            by_cases hi : i = 0
            · subst hi; simp
            · have : i ≠ (⟨0, ht⟩ : Fin (k + 1)) := hi
              simp [hi]
          rw [hv]
          rfl)
    simpa using this
  show (forRange 0 rf (Vector.ofFn x) _ >>= _) = _
  rw [L1]
  cases loopN (fun r => roundR p.alpha (p.mds.toM hm) true (rowFn ha p.optimizedArc r)) rf 0 x with
  | error e => rfl
  | ok y =>
    rw [map_ok, ok_bind, ok_bind]
    show (addRow p.optimizedArc rf (Vector.ofFn y) >>= _) = _
    rw [addRow_eq ha _ (by omega : rf < rows), ok_bind, mixLayer_eq ht hm, ok_bind,
      usub, if_pos (show 1 ≤ p.rounds.partialRounds from rp_pos), ok_bind, ← hrow rf (by omega)]
    refine Eq.trans (congrArg (· >>= _) (L2 _)) ?_
    cases loopN (fun r y => do
        let y ← s0R p.alpha y
        .ok ((storedSparse p.optimizedMds (rp - r - 1)).mulVec
          (y + Pi.single 0 (rowFn ha p.optimizedArc (rf + r + 1) 0)))) (rp - 1) 0
          ((p.optimizedMds.mI.toM hm).mulVec (y + rowFn ha p.optimizedArc rf)) with
    | error e => rfl
    | ok z =>
      simp only [map_ok, ok_bind]
      rw [partialSubWords_s0R]
      cases s0R p.alpha z with
      | error e => rfl
      | ok w =>
        simp only [map_ok, ok_bind]
        rw [hsp 0 (by omega), ok_bind]
        have e1 : rf + (rp - 1) + 1 = rf + rp := by omega
        rw [e1]
        refine Eq.trans (congrArg (· >>= _) (L3 _)) ?_
        cases loopN (fun r => roundR p.alpha (p.mds.toM hm) true (rowFn ha p.optimizedArc r)) rf (rf + rp)
          ((storedSparse p.optimizedMds 0).mulVec w) <;> rfl

/-- The partial S-box layer with a power. -/
def s0E (e : Nat) (y : Fin (k + 1) → F) : Fin (k + 1) → F := Function.update y 0 (y 0 ^ e)

/-- The partial rounds of a list, in optimized form. -/
def midE (e : Nat) (E : Nat → Matrix (Fin (k + 1)) (Fin (k + 1)) F) (κ : Nat → F) (rp : Nat) (l : List Nat) (y : Fin (k + 1) → F) : Fin (k + 1) → F :=
  l.foldl (fun y r => (E (rp - r - 1)).mulVec (s0E e y + Pi.single 0 (κ r))) y

/-- The textbook rounds of a list, all full or all partial. -/
def sameE (e : Nat) (M : Matrix (Fin t) (Fin t) F) (full : Bool) (c : Nat → Fin t → F) (l : List Nat) (x : Fin t → F) : Fin t → F :=
  l.foldl (fun x r => roundE e M full (c r) x) x

theorem roundR_exponent (M : Matrix (Fin t) (Fin t) F) (full : Bool) (c x : Fin t → F) : roundR (.exponent e) M full c x = .ok (roundE e M full c x) := by
  rw [roundR, if_pos]
  · rfl
  · intro i _; trivial

theorem s0R_exponent (y : Fin (k + 1) → F) : s0R (.exponent e) y = .ok (s0E e y) := by
  rw [s0R, if_pos]
  · rfl
  · trivial

/-- The constants added inside the partial rounds. -/
def innerConstants (ha : nround = rows * (k + 1)) (m : Mat F rows (k + 1) nround) (rf rp : Nat) (r : Nat) : F :=
  if r < rp - 1 then rowFn ha m (rf + r + 1) 0 else 0

theorem permute_pure (p : Params F (k + 1) k nmds nhat rows (k + 1) nround npart)
    (hm : nmds = (k + 1) * (k + 1)) (ha : nround = rows * (k + 1)) {rf rp : Nat} (h1 : p.rounds.rF / 2 = rf) (h2 : p.rounds.rP = rp) (rows_le : rf + rp + rf ≤ rows)
    (rp_pos : 1 ≤ rp) (rp_le : rp ≤ npart) (he : p.alpha = .exponent e) (x : Fin (k + 1) → F) :
    permute p (Vector.ofFn x) = .ok (Vector.ofFn (sameE e (p.mds.toM hm) true (rowFn ha p.optimizedArc) (List.range' (rf + rp) rf)
      (midE e (storedSparse p.optimizedMds) (innerConstants ha p.optimizedArc rf rp) rp (List.range' 0 rp)
        ((p.optimizedMds.mI.toM hm).mulVec (sameE e (p.mds.toM hm) true (rowFn ha p.optimizedArc) (List.range' 0 rf) x + rowFn ha p.optimizedArc rf))))) := by
  subst h1 h2
  rw [permute_loops p hm ha rows_le rp_pos rp_le, he]
  have hr : ∀ c : Nat → Fin (k + 1) → F, (fun r : Nat => roundR (.exponent e) (p.mds.toM hm) true (c r)) = fun r x => .ok (roundE e (p.mds.toM hm) true (c r) x) :=
    fun c => funext fun r => funext fun x => roundR_exponent _ _ _ _
  simp only [hr, s0R_exponent, ok_bind, loopN_ok]
  rw [map_ok]
  congr 3
  obtain ⟨n, hn⟩ : ∃ n, p.rounds.rP = n + 1 := ⟨p.rounds.rP - 1, by omega⟩
  rw [midE, hn, List.range'_concat, List.foldl_append]
  simp only [Nat.zero_add, Nat.add_sub_cancel, one_mul, List.foldl_cons, List.foldl_nil]
  rw [innerConstants, if_neg (by omega), Pi.single_zero, add_zero, show n + 1 - n - 1 = 0 by omega]
  congr 2
  refine List.foldl_ext _ _ _ fun y r hr => ?_
  have hr : r < n := by
    have := List.mem_range'_1.1 hr
    omega
  rw [innerConstants, if_pos (by omega)]

/-! ## The optimized partial rounds and the textbook rounds -/

theorem roundE_false (M : Matrix (Fin (k + 1)) (Fin (k + 1)) F) (c x : Fin (k + 1) → F) : roundE e M false c x = M.mulVec (s0E e (x + c)) := by
  have h := roundR_false (.exponent e) M c x
  rw [roundR_exponent, s0R_exponent, map_ok] at h
  exact Except.ok.inj h

theorem s0E_diag1 (B : Matrix (Fin k) (Fin k) F) (y : Fin (k + 1) → F) : s0E e ((diag1 B).mulVec y) = (diag1 B).mulVec (s0E e y) := by
  rw [s0E, s0E, diag1_zero, diag1_update]

theorem single_diag1 (B : Matrix (Fin k) (Fin k) F) (z : F) : (diag1 B).mulVec (Pi.single 0 z) = (Pi.single 0 z : Fin (k + 1) → F) := by
  funext i
  cases i using Fin.cases with
  | zero => rw [diag1_zero]
  | succ i =>
    rw [diag1_succ]
    have : (fun j : Fin k => (Pi.single 0 z : Fin (k + 1) → F) j.succ) = 0 := by
      funext j; simp
    rw [this]; simp

/-- What a state of the optimized rounds is to the state of the textbook rounds. -/
structure Related (M : Matrix (Fin (k + 1)) (Fin (k + 1)) F) (rp : Nat) (E : Nat → Matrix (Fin (k + 1)) (Fin (k + 1)) F) (c : Nat → Fin (k + 1) → F) (κ : Nat → F)
    (A : Nat → Matrix (Fin k) (Fin k) F) (d : Nat → Fin (k + 1) → F) : Prop where
  one : A 0 = 1
  mats : ∀ j, j < rp → diag1 (A j) * M = E j * diag1 (A (j + 1))
  last : d rp = 0
  word : ∀ r, r < rp → d r 0 = c r 0
  move : ∀ r, r < rp → M.mulVec (d r - c r + Pi.single 0 (κ r)) = d (r + 1)

theorem Related.step {M : Matrix (Fin (k + 1)) (Fin (k + 1)) F} {rp : Nat} {E : Nat → Matrix (Fin (k + 1)) (Fin (k + 1)) F} {c : Nat → Fin (k + 1) → F} {κ : Nat → F}
    {A : Nat → Matrix (Fin k) (Fin k) F} {d : Nat → Fin (k + 1) → F} (h : Related M rp E c κ A d) {r : Nat} (hr : r < rp) (x : Fin (k + 1) → F) :
    (E (rp - r - 1)).mulVec (s0E e ((diag1 (A (rp - r))).mulVec (x + d r)) + Pi.single 0 (κ r)) =
      (diag1 (A (rp - (r + 1)))).mulVec (roundE e M false (c r) x + d (r + 1)) := by
  have hE' := h.mats (rp - r - 1) (by omega)
  rw [show rp - r - 1 + 1 = rp - r by omega] at hE'
  rw [s0E_diag1, ← single_diag1 (A (rp - r)) (κ r), ← Matrix.mulVec_add, Matrix.mulVec_mulVec, ← hE', ← Matrix.mulVec_mulVec, show rp - (r + 1) = rp - r - 1 by omega,
    ← h.move r hr, roundE_false, ← Matrix.mulVec_add]
  congr 2
  funext i
  by_cases hi : i = 0
  · subst hi
    simp [s0E, h.word r hr]
  · simp [s0E, hi]

theorem Related.steps {M : Matrix (Fin (k + 1)) (Fin (k + 1)) F} {rp : Nat} {E : Nat → Matrix (Fin (k + 1)) (Fin (k + 1)) F} {c : Nat → Fin (k + 1) → F} {κ : Nat → F}
    {A : Nat → Matrix (Fin k) (Fin k) F} {d : Nat → Fin (k + 1) → F} (h : Related M rp E c κ A d) (m : Nat) :
    ∀ (n : Nat) (_ : n + m ≤ rp) (x : Fin (k + 1) → F), midE e E κ rp (List.range' n m) ((diag1 (A (rp - n))).mulVec (x + d n)) =
      (diag1 (A (rp - (n + m)))).mulVec (sameE e M false c (List.range' n m) x + d (n + m)) := by
  induction m with
  | zero => intro n hn x; rfl
  | succ m ih =>
    intro n hn x
    rw [List.range'_succ, midE, sameE, List.foldl_cons, List.foldl_cons, h.step (by omega)]
    have := ih (n + 1) (by omega) (roundE e M false (c n) x)
    rw [midE, sameE, show n + 1 + m = n + (m + 1) by omega] at this
    exact this

theorem Related.isUnit {M N : Matrix (Fin (k + 1)) (Fin (k + 1)) F} {rp : Nat} {E : Nat → Matrix (Fin (k + 1)) (Fin (k + 1)) F} {c : Nat → Fin (k + 1) → F} {κ : Nat → F}
    {A : Nat → Matrix (Fin k) (Fin k) F} {d : Nat → Fin (k + 1) → F} (h : Related M rp E c κ A d) (hM : M * N = 1) :
    ∀ j, j ≤ rp → ∃ B, diag1 (A j) * B = 1 := by
  intro j
  induction j with
  | zero =>
    intro _
    exact ⟨1, by rw [h.one, diag1_one, one_mul]⟩
  | succ j ih =>
    intro hj
    obtain ⟨B, hB⟩ := ih (by omega)
    have h1 := h.mats j (by omega)
    -- `E j * diag1 (A (j + 1))` has an inverse
    have h2 : (E j * diag1 (A (j + 1))) * (N * B) = 1 := by
      rw [← h1, Matrix.mul_assoc, ← Matrix.mul_assoc M, hM, one_mul, hB]
    have h3 := mul_eq_one_comm.1 h2
    rw [← Matrix.mul_assoc] at h3
    exact ⟨_, mul_eq_one_comm.1 h3⟩

/-! ## Counting -/

/-- A polynomial whose degree is a power of `e` takes the same value at `z` and `u z + c` for few `z`. -/
theorem card_affine {p m : Nat} [Fact p.Prime] [Fintype F] [CharP F p] (he1 : 1 ≤ e) (he : Function.Injective fun x : F => x ^ e) {Q : F[X]} (h1 : Q.natDegree = e ^ m)
    (h2 : Q.natDegree < p) {u c : F} (hc : ¬ (u = 1 ∧ c = 0)) :
    (Finset.univ.filter fun z : F => Q.eval (u * z + c) = Q.eval z).card ≤ Q.natDegree := by
  classical
  have hd : 1 ≤ Q.natDegree := by rw [h1]; exact Nat.one_le_pow _ _ he1
  by_cases hu : u = 1
  · subst hu
    have := card_shift (p := p) hd h2 (δ := c) fun h => hc ⟨rfl, h⟩
    simpa only [one_mul] using this
  set G : F[X] := Q.comp (C u * X + C c) - Q with hG
  have hev : ∀ z, G.eval z = Q.eval (u * z + c) - Q.eval z := fun z => by
    rw [hG, eval_sub, eval_comp, eval_add, eval_mul, eval_X, eval_C, eval_C]
  have hdeg : (Q.comp (C u * X + C c)).natDegree ≤ Q.natDegree := by
    rw [natDegree_comp]
    calc _ ≤ Q.natDegree * 1 := Nat.mul_le_mul_left _ natDegree_linear_le
      _ = _ := mul_one _
  have hlead : Q.leadingCoeff ≠ 0 := by
    rw [Ne, leadingCoeff_eq_zero]
    intro h
    rw [h, natDegree_zero] at hd
    omega
  have hpow : ∀ n, Function.Injective fun x : F => x ^ e ^ n := by
    intro n
    induction n with
    | zero => intro a b h; simpa using h
    | succ n ih =>
      intro a b h
      refine ih (he ?_)
      simpa only [pow_succ, pow_mul] using h
  have h0 : G ≠ 0 := by
    by_cases hu0 : u = 0
    · intro h
      rw [hG, hu0, C_0, zero_mul, zero_add, comp_C, sub_eq_zero] at h
      rw [← h, natDegree_C] at hd
      omega
    · have hlin : (C u * X + C c).natDegree = 1 := natDegree_linear hu0
      have h3 : (Q.comp (C u * X + C c)).coeff Q.natDegree = Q.leadingCoeff * u ^ Q.natDegree := by
        have h4 := leadingCoeff_comp (p := Q) (q := C u * X + C c) (by rw [hlin]; norm_num)
        rw [leadingCoeff, natDegree_comp, hlin, mul_one, leadingCoeff_linear hu0] at h4
        exact h4
      intro h
      have h5 : G.coeff Q.natDegree = Q.leadingCoeff * (u ^ Q.natDegree - 1) := by
        rw [hG, coeff_sub, h3, coeff_natDegree]
        ring
      rw [h, coeff_zero] at h5
      rcases mul_eq_zero.1 h5.symm with h6 | h6
      · exact hlead h6
      · refine hu (hpow m ?_)
        rw [h1] at h6
        show u ^ e ^ m = 1 ^ e ^ m
        rw [one_pow]
        exact sub_eq_zero.1 h6
  have hsub : (Finset.univ.filter fun z : F => Q.eval (u * z + c) = Q.eval z) ⊆ G.roots.toFinset := by
    intro z hz
    rw [Multiset.mem_toFinset, mem_roots h0, IsRoot.def, hev, sub_eq_zero]
    exact (Finset.mem_filter.1 hz).2
  refine (Finset.card_le_card hsub).trans ((Multiset.toFinset_card_le _).trans ((card_roots' G).trans ?_))
  exact (natDegree_sub_le _ _).trans (max_le hdeg le_rfl)

/-- How many states have a zero in a word of an invertible affine image. -/
theorem card_word_zero [Fintype F] {N N' : Matrix (Fin t) (Fin t) F} (hN : N * N' = 1) (c : Fin t → F) (b : Fin t) :
    (Finset.univ.filter fun y : Fin t → F => N.mulVec (y + c) b = 0).card = Fintype.card F ^ (t - 1) := by
  classical
  have hbij : Function.Bijective fun y : Fin t → F => N.mulVec (y + c) := by
    refine ⟨fun y z h => ?_, fun z => ⟨N'.mulVec z - c, ?_⟩⟩
    · have := congrArg N'.mulVec h
      simp only [Matrix.mulVec_mulVec, mul_eq_one_comm.1 hN, Matrix.one_mulVec] at this
      exact add_right_cancel this
    · simp only [sub_add_cancel, Matrix.mulVec_mulVec, hN, Matrix.one_mulVec]
  have e1 : (Finset.univ.filter fun y : Fin t → F => N.mulVec (y + c) b = 0).card = Fintype.card {z : Fin t → F // z b = 0} := by
    rw [← Fintype.card_subtype]
    exact Fintype.card_congr ((Equiv.ofBijective _ hbij).subtypeEquiv fun y => Iff.rfl)
  rw [e1]
  have e2 : Fintype.card {z : Fin t → F // z b = 0} = Fintype.card ({a : Fin t // a ≠ b} → F) := by
    refine Fintype.card_congr ⟨fun z a => z.1 a.1, fun w => ⟨fun a => if h : a = b then 0 else w ⟨a, h⟩, dif_pos rfl⟩, fun z => ?_, fun w => ?_⟩
    · refine Subtype.ext (funext fun a => ?_)
      by_cases h : a = b
      · subst h
        simp [z.2]
      · simp [h]
    · funext a
      simp [a.2]
  rw [e2, Fintype.card_fun]
  congr 1
  rw [Fintype.card_subtype_compl, Fintype.card_fin, Fintype.card_subtype_eq]

/-- The states on which a map and the map after a change of rank one agree in a word. -/
theorem card_rank_one {p : Nat} [Fact p.Prime] [Fintype F] [CharP F p] (hF : Fintype.card F = p) (ht : 1 ≤ t) (he1 : 1 ≤ e) (he : Function.Injective fun x : F => x ^ e)
    {N N' : Matrix (Fin t) (Fin t) F} (hN : N * N' = 1) (c : Fin t → F) (a b : Fin t) {δ : F} (hδ : δ ≠ 0) (D : Fin t → F) (T : (Fin t → F) → Fin t → F) (B : Nat) (hB : B < p)
    (hline : ∀ y, ∃ (Q : F[X]) (m : Nat), Q.natDegree = e ^ m ∧ Q.natDegree ≤ B ∧ ∀ z, T (y + z • D) a = Q.eval z) :
    (Finset.univ.filter fun y : Fin t → F => T (y + (δ * N.mulVec (y + c) b) • D) a = T y a).card * p ≤ (B + 1) * p ^ t := by
  classical
  set S := Finset.univ.filter fun y : Fin t → F => T (y + (δ * N.mulVec (y + c) b) • D) a = T y a with hS
  have hsum : ∑ y : Fin t → F, (Finset.univ.filter fun z : F => y + z • D ∈ S).card = S.card * Fintype.card F := by
    simp only [Finset.card_filter]
    rw [Finset.sum_comm]
    have : ∀ z : F, ∑ y : Fin t → F, (if y + z • D ∈ S then 1 else 0) = S.card := by
      intro z
      refine (Equiv.sum_comp (Equiv.addRight (z • D)) fun y => if y ∈ S then 1 else 0).trans ?_
      rw [Finset.sum_boole]
      simp
    rw [Finset.sum_congr rfl fun z _ => this z, Finset.sum_const, Finset.card_univ, smul_eq_mul, mul_comm]
  have hle : ∀ y : Fin t → F, (Finset.univ.filter fun z : F => y + z • D ∈ S).card ≤ B + if N.mulVec (y + c) b = 0 then p else 0 := by
    intro y
    by_cases h0 : N.mulVec (y + c) b = 0
    · rw [if_pos h0]
      refine (Finset.card_le_univ _).trans ?_
      rw [hF]
      omega
    · rw [if_neg h0, add_zero]
      obtain ⟨Q, m, h1, h2, h3⟩ := hline y
      refine le_trans (Finset.card_le_card ?_) ((card_affine (p := p) he1 he h1 (by omega) (u := 1 + δ * N.mulVec D b) (c := δ * N.mulVec (y + c) b) ?_).trans h2)
      · intro z hz
        have hz := (Finset.mem_filter.1 (Finset.mem_filter.1 hz).2).2
        rw [Finset.mem_filter]
        refine ⟨Finset.mem_univ _, ?_⟩
        rw [← h3, ← h3, ← hz]
        congr 1
        rw [add_assoc, ← add_smul, show y + z • D + c = (y + c) + z • D by abel, Matrix.mulVec_add N (y + c), Matrix.mulVec_smul, Pi.add_apply, Pi.smul_apply, smul_eq_mul]
        congr 2
        ring
      · rintro ⟨-, h⟩
        rcases mul_eq_zero.1 h with h | h
        · exact hδ h
        · exact h0 h
  rw [← hF, ← hsum]
  refine (Finset.sum_le_sum fun y _ => hle y).trans (le_of_eq ?_)
  rw [Finset.sum_add_distrib, Finset.sum_const, Finset.card_univ, Fintype.card_fun, Fintype.card_fin, smul_eq_mul, ← Finset.sum_filter, Finset.sum_const, card_word_zero hN, smul_eq_mul,
    ← hF, add_mul, one_mul, ← pow_succ, Nat.sub_add_cancel ht, mul_comm B]

/-! ## One changed entry -/

theorem Consistent.related {P : Params F (k + 1) k nmds nhat rows (k + 1) nround npart} {hm : nmds = (k + 1) * (k + 1)} {ha : nround = rows * (k + 1)}
    (hc : Consistent P hm ha) {rf rp : Nat} (h1 : P.rounds.rF / 2 = rf) (h2 : P.rounds.rP = rp) :
    ∃ A d, Related (P.mds.toM hm) rp (storedSparse P.optimizedMds) (fun r => rowFn ha P.arc (rf + r)) (innerConstants ha P.optimizedArc rf rp) A d ∧
      P.optimizedMds.mI.toM hm = diag1 (A rp) ∧ d 0 = rowFn ha P.optimizedArc rf := by
  subst h1 h2
  obtain ⟨-, rp_pos, -, ⟨⟨A, hA0, hMi, hE⟩, d, h0, hl, hd⟩, -, -⟩ := hc
  refine ⟨A, fun r => if r < P.rounds.rP then d r else 0, ⟨hA0, hE, ?_, fun r hr => ?_, fun r hr => ?_⟩, hMi, ?_⟩
  · exact if_neg (lt_irrefl _)
  · rw [if_pos hr]
    rcases Nat.lt_or_ge r (P.rounds.rP - 1) with h | h
    · exact (hd r h).1
    · rw [show r = P.rounds.rP - 1 by omega, hl]
  · rw [if_pos hr]
    rcases Nat.lt_or_ge r (P.rounds.rP - 1) with h | h
    · rw [if_pos (by omega), innerConstants, if_pos h]
      exact (hd r h).2
    · rw [if_neg (by omega), innerConstants, if_neg (by omega), Pi.single_zero, add_zero, show r = P.rounds.rP - 1 by omega, hl, sub_self, Matrix.mulVec_zero]
  · dsimp only
    rw [if_pos (by omega), h0]

theorem midE_append (E : Nat → Matrix (Fin (k + 1)) (Fin (k + 1)) F) (κ : Nat → F) (rp : Nat) (l l' : List Nat) (y : Fin (k + 1) → F) :
    midE e E κ rp (l ++ l') y = midE e E κ rp l' (midE e E κ rp l y) := List.foldl_append

theorem midE_congr {E E' : Nat → Matrix (Fin (k + 1)) (Fin (k + 1)) F} {κ : Nat → F} {rp : Nat} {l : List Nat} (h : ∀ r ∈ l, E' (rp - r - 1) = E (rp - r - 1)) (y : Fin (k + 1) → F) :
    midE e E' κ rp l y = midE e E κ rp l y := by
  refine List.foldl_ext _ _ _ fun y r hr => ?_
  rw [h r hr]

/-- An entry of the first matrix was changed by `δ`. -/
theorem Related.change_first {M N : Matrix (Fin (k + 1)) (Fin (k + 1)) F} {rp : Nat} {E : Nat → Matrix (Fin (k + 1)) (Fin (k + 1)) F} {c : Nat → Fin (k + 1) → F} {κ : Nat → F}
    {A : Nat → Matrix (Fin k) (Fin k) F} {d : Nat → Fin (k + 1) → F} (h : Related M rp E c κ A d) (hM : M * N = 1) (a b : Fin (k + 1)) {Mi' : Matrix (Fin (k + 1)) (Fin (k + 1)) F} {δ : F}
    (hMi : ∀ z, Mi'.mulVec z = (diag1 (A rp)).mulVec z + (δ * z b) • Pi.single a 1) :
    ∃ D, (diag1 (A rp)).mulVec D = Pi.single a 1 ∧
      ∀ x, midE e E κ rp (List.range' 0 rp) (Mi'.mulVec (x + d 0)) = sameE e M false c (List.range' 0 rp) (x + (δ * (1 : Matrix _ _ F).mulVec (x + d 0) b) • D) := by
  obtain ⟨B, hB⟩ := h.isUnit hM rp le_rfl
  refine ⟨B.mulVec (Pi.single a 1), by rw [Matrix.mulVec_mulVec, hB, Matrix.one_mulVec], fun x => ?_⟩
  have h1 := h.steps (e := e) rp 0 (by omega) (x + (δ * (1 : Matrix _ _ F).mulVec (x + d 0) b) • B.mulVec (Pi.single a 1))
  rw [Nat.sub_zero, Nat.zero_add, Nat.sub_self, h.one, diag1_one, h.last, add_zero, Matrix.one_mulVec (sameE _ _ _ _ _ _)] at h1
  rw [← h1, hMi]
  congr 1
  rw [add_right_comm, Matrix.mulVec_add _ (x + d 0), Matrix.mulVec_smul, Matrix.mulVec_mulVec, hB, Matrix.one_mulVec, Matrix.one_mulVec]

/-- An entry of a sparse matrix was changed by `δ`. -/
theorem Related.change_sparse {M N : Matrix (Fin (k + 1)) (Fin (k + 1)) F} {rp : Nat} {E : Nat → Matrix (Fin (k + 1)) (Fin (k + 1)) F} {c : Nat → Fin (k + 1) → F} {κ : Nat → F}
    {A : Nat → Matrix (Fin k) (Fin k) F} {d : Nat → Fin (k + 1) → F} (h : Related M rp E c κ A d) (hM : M * N = 1) (a b : Fin (k + 1)) {j : Nat} (hj : j < rp)
    {E' : Nat → Matrix (Fin (k + 1)) (Fin (k + 1)) F} {δ : F} (hE : ∀ j', j' < rp → j' ≠ j → E' j' = E j')
    (hEj : ∀ z, (E' j).mulVec z = (E j).mulVec z + (δ * z b) • Pi.single a 1) :
    ∃ (D : Fin (k + 1) → F) (K K' : Matrix (Fin (k + 1)) (Fin (k + 1)) F), K * K' = 1 ∧ (diag1 (A j)).mulVec D = Pi.single a 1 ∧
      ∀ x, midE e E' κ rp (List.range' 0 rp) ((diag1 (A rp)).mulVec (x + d 0)) =
        sameE e M false c (List.range' (rp - j) j) (sameE e M false c (List.range' 0 (rp - j)) x +
          (δ * K.mulVec (sameE e M false c (List.range' 0 (rp - j)) x + d (rp - j)) b) • D) := by
  obtain ⟨B, hB⟩ := h.isUnit hM j (by omega)
  obtain ⟨B', hB'⟩ := h.isUnit hM (j + 1) (by omega)
  have hB2 := mul_eq_one_comm.1 hB
  have hB'2 := mul_eq_one_comm.1 hB'
  have hm := h.mats j hj
  -- the inverse of the sparse matrix, after the block matrix
  have hK : (diag1 (A (j + 1)) * N * B) * E j = 1 := by
    have h1 : E j = diag1 (A j) * M * B' := by rw [hm, Matrix.mul_assoc, hB', mul_one]
    rw [h1, Matrix.mul_assoc, Matrix.mul_assoc, ← Matrix.mul_assoc B, ← Matrix.mul_assoc B, hB2, one_mul, ← Matrix.mul_assoc N, mul_eq_one_comm.1 hM, one_mul, hB']
  refine ⟨B.mulVec (Pi.single a 1), diag1 (A (j + 1)) * N * B * diag1 (A j), M * B', ?_, by rw [Matrix.mulVec_mulVec, hB, Matrix.one_mulVec], fun x => ?_⟩
  · rw [Matrix.mul_assoc _ B, hB2, mul_one, Matrix.mul_assoc, ← Matrix.mul_assoc N, mul_eq_one_comm.1 hM, one_mul, hB']
  obtain ⟨r, hr⟩ : ∃ r, rp - j = r + 1 := ⟨rp - j - 1, by omega⟩
  have hsplit : List.range' 0 rp = List.range' 0 r ++ ([r] ++ List.range' (r + 1) j) := by
    have e1 : List.range' 0 r ++ List.range' r (j + 1) = List.range' 0 rp := by
      have := List.range'_append_1 (s := 0) (m := r) (n := j + 1)
      rw [Nat.zero_add, show r + (j + 1) = rp by omega] at this
      exact this
    rw [← e1, List.range'_succ]
    rfl
  have hlast : List.range' 0 (r + 1) = List.range' 0 r ++ [r] := by
    rw [List.range'_concat, Nat.zero_add, one_mul]
  rw [hsplit, midE_append, midE_append, midE_congr (E := E) (l := List.range' 0 r) (fun r' hr' => ?_), midE_congr (E := E) (l := List.range' (r + 1) j) (fun r' hr' => ?_)]
  rotate_left
  · have := List.mem_range'_1.1 hr'
    exact hE _ (by omega) (by omega)
  · have := List.mem_range'_1.1 hr'
    exact hE _ (by omega) (by omega)
  have h1 := h.steps (e := e) r 0 (by omega) x
  rw [Nat.sub_zero, Nat.zero_add] at h1
  rw [h1, hr, hlast]
  set y := sameE e M false c (List.range' 0 r) x with hy
  have hy' : sameE e M false c (List.range' 0 r ++ [r]) x = roundE e M false (c r) y := by
    rw [sameE, List.foldl_append]
    rfl
  rw [hy']
  set g := roundE e M false (c r) y with hg
  have hst := h.step (e := e) (r := r) (by omega) y
  rw [show rp - r - 1 = j by omega, show rp - (r + 1) = j by omega, ← hg] at hst
  set z := s0E e ((diag1 (A (rp - r))).mulVec (y + d r)) + Pi.single 0 (κ r) with hz
  have hone : midE e E' κ rp [r] ((diag1 (A (rp - r))).mulVec (y + d r)) = (E' j).mulVec z := by
    rw [midE, List.foldl_cons, List.foldl_nil, show rp - r - 1 = j by omega]
  have hzb : (diag1 (A (j + 1)) * N * B * diag1 (A j)).mulVec (g + d (r + 1)) = z := by
    rw [← Matrix.mulVec_mulVec, ← hst, Matrix.mulVec_mulVec, hK, Matrix.one_mulVec]
  rw [hone, hEj, hst, hzb]
  have h2 := h.steps (e := e) j (r + 1) (by omega) (g + (δ * z b) • B.mulVec (Pi.single a 1))
  rw [show rp - (r + 1) = j by omega, show r + 1 + j = rp by omega, Nat.sub_self, h.one, diag1_one, Matrix.one_mulVec, h.last, add_zero] at h2
  rw [← h2]
  congr 1
  rw [add_right_comm, Matrix.mulVec_add _ (g + d (r + 1)), Matrix.mulVec_smul, Matrix.mulVec_mulVec, hB, Matrix.one_mulVec]

/-- What the direction of the change is after the mix layer of the next round. -/
theorem Related.next {M : Matrix (Fin (k + 1)) (Fin (k + 1)) F} {rp : Nat} {E : Nat → Matrix (Fin (k + 1)) (Fin (k + 1)) F} {c : Nat → Fin (k + 1) → F} {κ : Nat → F}
    {A : Nat → Matrix (Fin k) (Fin k) F} {d : Nat → Fin (k + 1) → F} (h : Related M rp E c κ A d) {a : Fin (k + 1)} {j : Nat} (hj : j < rp) {D : Fin (k + 1) → F}
    (hD : (diag1 (A (j + 1))).mulVec D = Pi.single a 1) : (diag1 (A j)).mulVec (M.mulVec D) = fun i => E j i a := by
  rw [Matrix.mulVec_mulVec, h.mats j hj, ← Matrix.mulVec_mulVec, hD]
  funext i
  simp

/-! ## The textbook rounds of a list -/

/-- The rounds of a list of round numbers. -/
def textE (e : Nat) (M : Matrix (Fin t) (Fin t) F) (full : Nat → Bool) (c : Nat → Fin t → F) (l : List Nat) (x : Fin t → F) : Fin t → F :=
  l.foldl (fun x r => roundE e M (full r) (c r) x) x

theorem textE_append (M : Matrix (Fin t) (Fin t) F) (full : Nat → Bool) (c : Nat → Fin t → F) (l l' : List Nat) (x : Fin t → F) :
    textE e M full c (l ++ l') x = textE e M full c l' (textE e M full c l x) := List.foldl_append

theorem textE_bijective {M N : Matrix (Fin t) (Fin t) F} (hM : M * N = 1) (he : Function.Bijective fun x : F => x ^ e)
    (full : Nat → Bool) (c : Nat → Fin t → F) (l : List Nat) : Function.Bijective (textE e M full c l) := by
  unfold textE
  induction l with
  | nil => exact Function.bijective_id
  | cons r l ih => exact ih.comp (roundE_bijective hM he _ _)

theorem sameE_textE {M : Matrix (Fin t) (Fin t) F} {full : Nat → Bool} {c c' : Nat → Fin t → F} {b : Bool} {m n l : Nat} (h : ∀ r, m ≤ r → r < m + n → full (l + r) = b ∧ c' r = c (l + r))
    (x : Fin t → F) : sameE e M b c' (List.range' m n) x = textE e M full c (List.range' (l + m) n) x := by
  unfold sameE textE
  have e1 : List.range' (l + m) n = (List.range' m n).map (l + ·) := by
    rw [List.map_add_range']
  rw [e1, List.foldl_map]
  refine List.foldl_ext _ _ _ fun y r hr => ?_
  have hr := List.mem_range'_1.1 hr
  rw [(h r hr.1 hr.2).1, (h r hr.1 hr.2).2]

theorem textE_line (M : Matrix (Fin t) (Fin t) F) (full : Nat → Bool) (c : Nat → Fin t → F) (he : 2 ≤ e) (l : List Nat) {D : Fin t → F} {a : Fin t}
    (hl : leadRounds e M (l.map full) D a ≠ 0) (y : Fin t → F) :
    ∃ Q : F[X], Q.natDegree = e ^ l.length ∧ ∀ z, textE e M full c l (y + z • D) a = Q.eval z := by
  obtain ⟨Q, h1, h2⟩ := rounds_poly M full c he l (le_refl 1) (linePoly_top y D)
  rw [one_mul] at h1
  refine ⟨Q a, le_antisymm (h1 a).1 (le_natDegree_of_ne_zero (by rw [(h1 a).2]; exact hl)), fun z => ?_⟩
  rw [← linePoly_eval, textE, ← h2 z]

/-- A map that is `T` after `g`, and the same with a change of rank one between. -/
theorem card_changed {p : Nat} [Fact p.Prime] [Fintype F] [CharP F p] (hF : Fintype.card F = p) (ht : 1 ≤ t) (he1 : 1 ≤ e) (he : Function.Injective fun x : F => x ^ e)
    {N N' : Matrix (Fin t) (Fin t) F} (hN : N * N' = 1) (c : Fin t → F) (a b : Fin t) {δ : F} (hδ : δ ≠ 0) {D : Fin t → F} (hD : D ≠ 0) {g T : (Fin t → F) → Fin t → F}
    (hg : Function.Bijective g) (hT : Function.Injective T) (B : Nat) (hB : B < p)
    (hline : ∀ y, ∃ (Q : F[X]) (m : Nat), Q.natDegree = e ^ m ∧ Q.natDegree ≤ B ∧ ∀ z, T (y + z • D) a = Q.eval z) :
    Nat.card {x // T (g x + (δ * N.mulVec (g x + c) b) • D) = T (g x)} = p ^ (t - 1) ∧
      Nat.card {x // T (g x + (δ * N.mulVec (g x + c) b) • D) a = T (g x) a} * p ≤ (B + 1) * p ^ t := by
  classical
  constructor
  · rw [Nat.card_congr ((Equiv.ofBijective _ hg).subtypeEquiv (q := fun y => N.mulVec (y + c) b = 0) fun x => ?_), Nat.card_eq_fintype_card, Fintype.card_subtype, card_word_zero hN, hF]
    constructor
    · intro h
      have h := hT h
      rw [add_eq_left, smul_eq_zero, mul_eq_zero] at h
      rcases h with (h | h) | h
      · exact absurd h hδ
      · exact h
      · exact absurd h hD
    · intro h
      have h : N.mulVec (g x + c) b = 0 := h
      rw [h, mul_zero, zero_smul, add_zero]
  · refine le_trans (le_of_eq ?_) (card_rank_one hF ht he1 he hN c a b hδ D T B hB hline)
    congr 1
    refine (Nat.card_congr ((Equiv.ofBijective _ hg).subtypeEquiv (q := fun y => T (y + (δ * N.mulVec (y + c) b) • D) a = T y a) fun x => Iff.rfl)).trans ?_
    rw [Nat.card_eq_fintype_card, Fintype.card_subtype]

/-! ## The entry all sparse matrices share, as a variable -/

/-- A partial round in optimized form on polynomials, the shared entry of the matrices being the variable. -/
noncomputable def sparsePoly (e : Nat) (v w : Fin k → F) (κ : F) (P : Fin (k + 1) → F[X]) : Fin (k + 1) → F[X] :=
  Fin.cons (X * (P 0 ^ e + C κ) + ∑ j, C (w j) * P j.succ) fun a => C (v a) * (P 0 ^ e + C κ) + P a.succ

theorem sparsePoly_eval (v w : Fin k → F) (κ : F) (P : Fin (k + 1) → F[X]) (m : F) :
    (fun a => (sparsePoly e v w κ P a).eval m) = (sparseM m v w).mulVec (s0E e (fun a => (P a).eval m) + Pi.single 0 κ) := by
  funext a
  cases a using Fin.cases with
  | zero =>
    rw [sparseM_zero, sparsePoly, Fin.cons_zero]
    simp [s0E, eval_finsetSum]
  | succ a =>
    rw [sparseM_succ, sparsePoly, Fin.cons_succ]
    simp [s0E]

theorem sparsePoly_top (v w : Fin k → F) (κ : F) {P : Fin (k + 1) → F[X]} {n : Nat} {r : F} (h1 : (P 0 ^ e + C κ).natDegree ≤ n) (h2 : (P 0 ^ e + C κ).coeff n = r)
    (h3 : ∀ a, (P a).natDegree ≤ n) : Top (n + 1) (sparsePoly e v w κ P) (Pi.single 0 r) := by
  have h4 : (∑ j, C (w j) * P j.succ).natDegree ≤ n := natDegree_sum_le_of_forall_le _ _ fun j _ => (natDegree_C_mul_le _ _).trans (h3 _)
  intro a
  cases a using Fin.cases with
  | zero =>
    rw [sparsePoly, Fin.cons_zero, Pi.single_eq_same]
    refine ⟨natDegree_add_le_of_degree_le ?_ (by omega), ?_⟩
    · refine natDegree_mul_le.trans ?_
      have := natDegree_X_le (R := F)
      omega
    · rw [coeff_add, coeff_X_mul, h2, coeff_eq_zero_of_natDegree_lt (by omega), add_zero]
  | succ a =>
    have h5 : (C (v a) * (P 0 ^ e + C κ) + P a.succ).natDegree ≤ n := natDegree_add_le_of_degree_le ((natDegree_C_mul_le _ _).trans h1) (h3 _)
    rw [sparsePoly, Fin.cons_succ, Pi.single_eq_of_ne (Fin.succ_ne_zero a)]
    exact ⟨by omega, coeff_eq_zero_of_natDegree_lt (by omega)⟩

theorem midE_entry (he : 2 ≤ e) (v w : Nat → Fin k → F) (κ : Nat → F) (rp : Nat) (l : List Nat) :
    ∀ {P : Fin (k + 1) → F[X]} {d : Nat} {c : F}, 1 ≤ d → c ≠ 0 → Top d P (Pi.single 0 c) →
      ∃ (Q : Fin (k + 1) → F[X]) (d' : Nat) (c' : F), 1 ≤ d' ∧ d' + 1 ≤ e ^ l.length * (d + 1) ∧ c' ≠ 0 ∧ Top d' Q (Pi.single 0 c') ∧
        ∀ m, midE e (fun j => sparseM m (v j) (w j)) κ rp l (fun a => (P a).eval m) = fun a => (Q a).eval m := by
  induction l with
  | nil =>
    intro P d c hd hc h
    exact ⟨P, d, c, hd, by simp, hc, h, fun m => rfl⟩
  | cons r l ih =>
    intro P d c hd hc h
    have h1 : (P 0 ^ e + C (κ r)).natDegree ≤ e * d :=
      natDegree_add_le_of_degree_le (natDegree_pow_le_of_le e (h 0).1) (by rw [natDegree_C]; omega)
    have h2 : (P 0 ^ e + C (κ r)).coeff (e * d) = c ^ e := by
      have : e * d ≠ 0 := Nat.mul_ne_zero (by omega) (by omega)
      rw [coeff_add, coeff_pow_of_natDegree_le (h 0).1, (h 0).2, Pi.single_eq_same, coeff_C, if_neg this, add_zero]
    have h3 := sparsePoly_top (v (rp - r - 1)) (w (rp - r - 1)) (κ r) h1 h2 fun a => (h a).1.trans (Nat.le_mul_of_pos_left d (by omega))
    obtain ⟨Q, d', c', h4, h5, h6, h7, h8⟩ := ih (by omega) (pow_ne_zero e hc) h3
    refine ⟨Q, d', c', h4, h5.trans ?_, h6, h7, fun m => ?_⟩
    · rw [List.length_cons, pow_succ, mul_assoc]
      exact Nat.mul_le_mul_left _ (by nlinarith)
    · rw [← h8 m, sparsePoly_eval]
      rfl

/-- All partial rounds, if the shared entry is multiplied by something in the first one. -/
theorem midE_entry_first (he : 2 ≤ e) (v w : Nat → Fin k → F) (κ : Nat → F) (rp n : Nat) (y : Fin (k + 1) → F) (hy : y 0 ^ e + κ 0 ≠ 0) :
    ∃ (Q : Fin (k + 1) → F[X]) (d : Nat) (c : F), 1 ≤ d ∧ d + 1 ≤ e ^ n * 2 ∧ c ≠ 0 ∧ Top d Q (Pi.single 0 c) ∧
      ∀ m, midE e (fun j => sparseM m (v j) (w j)) κ rp (List.range' 0 (n + 1)) y = fun a => (Q a).eval m := by
  have hP : (C (y 0) ^ e + C (κ 0) : F[X]) = C (y 0 ^ e + κ 0) := by rw [← C_pow, ← C_add]
  have h3 := sparsePoly_top (e := e) (v (rp - 0 - 1)) (w (rp - 0 - 1)) (κ 0) (P := fun a => C (y a)) (n := 0) (r := y 0 ^ e + κ 0)
    (by rw [hP, natDegree_C]) (by rw [hP, coeff_C_zero]) fun a => by rw [natDegree_C]
  obtain ⟨Q, d, c, h4, h5, h6, h7, h8⟩ := midE_entry he v w κ rp (List.range' 1 n) (le_refl 1) hy h3
  rw [List.length_range'] at h5
  refine ⟨Q, d, c, h4, h5, h6, h7, fun m => ?_⟩
  rw [← h8 m, sparsePoly_eval, List.range'_succ]
  simp only [eval_C]
  rfl

/-- If for all but few `x` a relation holds for at most `B` values `m`, then for all but few `m` it holds for few `x`. -/
theorem card_markov {α β : Type} [Finite α] [Finite β] [Nonempty β] (R : α → β → Prop) (B : Nat) (E : β → Prop) (hE : Nat.card {x // E x} * Nat.card α ≤ Nat.card β)
    (h : ∀ x, ¬ E x → Nat.card {m // R m x} ≤ B) (K : Nat) : Nat.card {m // Nat.card β ≤ K * Nat.card {x // R m x}} ≤ K * (B + 1) := by
  classical
  have := Fintype.ofFinite α
  have := Fintype.ofFinite β
  simp only [Nat.card_eq_fintype_card, Fintype.card_subtype] at hE h ⊢
  set S := Finset.univ.filter fun m => Fintype.card β ≤ K * (Finset.univ.filter fun x => R m x).card with hS
  have h1 : S.card * Fintype.card β ≤ K * ∑ m, (Finset.univ.filter fun x => R m x).card := by
    rw [← smul_eq_mul, ← Finset.sum_const, Finset.mul_sum]
    refine (Finset.sum_le_sum fun m hm => (Finset.mem_filter.1 hm).2).trans ?_
    exact Finset.sum_le_sum_of_subset (Finset.subset_univ S)
  have h2 : ∑ m, (Finset.univ.filter fun x => R m x).card = ∑ x, (Finset.univ.filter fun m => R m x).card := by
    simp only [Finset.card_filter]
    exact Finset.sum_comm
  have h3 : ∑ x, (Finset.univ.filter fun m => R m x).card ≤ ∑ x : β, (B + if E x then Fintype.card α else 0) := by
    refine Finset.sum_le_sum fun x _ => ?_
    by_cases hx : E x
    · rw [if_pos hx]
      exact (Finset.card_le_univ _).trans (Nat.le_add_left _ _)
    · rw [if_neg hx]
      exact h x hx
  rw [Finset.sum_add_distrib, Finset.sum_const, smul_eq_mul, Finset.card_univ, ← Finset.sum_filter, Finset.sum_const, smul_eq_mul] at h3
  have h4 : S.card * Fintype.card β ≤ K * (B + 1) * Fintype.card β := by
    refine h1.trans ?_
    rw [h2, mul_assoc]
    refine Nat.mul_le_mul_left _ (h3.trans ?_)
    nlinarith
  exact Nat.le_of_mul_le_mul_right h4 Fintype.card_pos

end Poseidon
