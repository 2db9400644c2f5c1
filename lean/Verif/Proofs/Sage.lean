import Verif.Model.Sage
import Verif.Proofs.GenConsistent
import Verif.Proofs.Derived

/-! # The reference script -/

set_option linter.unusedSectionVars false

namespace Poseidon

open scoped Matrix

variable {F : Type} [Field F] [DecidableEq F] {k : Nat}

/-- Rows of a table as a function on naturals (zero outside). -/
def listRow (l : List (Fin (k + 1) → F)) (r : Nat) : Fin (k + 1) → F := l.getD r 0

theorem lget_listRow (l : List (Fin (k + 1) → F)) {r : Nat} (h : r < l.length) : lget l r = .ok (listRow l r) := by
  rw [lget_lt l h, listRow, List.getD_eq_getElem?_getD, List.getElem?_eq_getElem h]; rfl

theorem sageRows_length (c : List F) : (sageRows k c).length = c.length / (k + 1) := by simp [sageRows]

theorem listRow_sageRows (c : List F) {r : Nat} (h : r < c.length / (k + 1)) (j : Fin (k + 1)) :
    listRow (sageRows k c) r j = c.getD (r * (k + 1) + j.val) 0 := by
  have h' : r < (sageRows k c).length := by rw [sageRows_length]; exact h
  rw [listRow, List.getD_eq_getElem?_getD, List.getElem?_eq_getElem h']
  simp [sageRows]

/-- What the functions of the script need from the global variables. -/
structure SageGlobals.Valid (g : SageGlobals F k) : Prop where
  even : g.rF % 2 = 0
  rp_pos : 1 ≤ g.rP
  consts : g.roundConstants.length = (g.rF + g.rP) * (k + 1)
  det : g.mds.det ≠ 0
  detHat : (g.mds.submatrix Fin.succ Fin.succ).det ≠ 0

theorem SageGlobals.Valid.rows {g : SageGlobals F k} (h : g.Valid) :
    g.roundConstants.length / (k + 1) = g.rF + g.rP := by
  rw [h.consts, Nat.mul_div_cancel _ (Nat.succ_pos k)]

theorem fullRound_eq (g : SageGlobals F k) (T : List (Fin (k + 1) → F)) {r : Nat} (h : r < T.length) (x : Fin (k + 1) → F) :
    g.fullRound T (x, r) = (fun y => (y, r + 1)) <$> roundR (.exponent g.alpha) g.mds true (listRow T r) x := by
  rw [SageGlobals.fullRound, lget_listRow T h, ok_bind, roundR, if_pos (by intro i _; trivial)]
  simp [Active, Alpha.val]

theorem partialRound_eq (g : SageGlobals F k) (T : List (Fin (k + 1) → F)) {r : Nat} (h : r < T.length) (x : Fin (k + 1) → F) :
    g.partialRound T (x, r) = (fun y => (y, r + 1)) <$> roundR (.exponent g.alpha) g.mds false (listRow T r) x := by
  rw [SageGlobals.partialRound, lget_listRow T h, ok_bind, roundR_false, s0R, if_pos (by trivial)]
  rfl

theorem fullRounds_eq (g : SageGlobals F k) (T : List (Fin (k + 1) → F)) (n r : Nat) (h : r + n ≤ T.length)
    (x : Fin (k + 1) → F) :
    forRange 0 n (x, r) (fun _ s => g.fullRound T s) = (fun y => (y, r + n)) <$>
      loopN (fun r => roundR (.exponent g.alpha) g.mds true (listRow T r)) n r x := by
  have h1 := loopN_map' (fun j (x : Fin (k + 1) → F) => (x, j)) (fun _ s => g.fullRound T s)
    (fun r => roundR (.exponent g.alpha) g.mds true (listRow T r)) n r x (by
      intro j x _ hj
      exact fullRound_eq g T (by omega) x)
  have sh := loopN_shift (fun _ s => g.fullRound T s) n 0 r (x, r)
  rw [Nat.zero_add] at sh
  rw [forRange, Nat.sub_zero, ← h1]
  exact sh

theorem partialRounds_eq (g : SageGlobals F k) (T : List (Fin (k + 1) → F)) (n r : Nat) (h : r + n ≤ T.length)
    (x : Fin (k + 1) → F) :
    forRange 0 n (x, r) (fun _ s => g.partialRound T s) = (fun y => (y, r + n)) <$>
      loopN (fun r => roundR (.exponent g.alpha) g.mds false (listRow T r)) n r x := by
  have h1 := loopN_map' (fun j (x : Fin (k + 1) → F) => (x, j)) (fun _ s => g.partialRound T s)
    (fun r => roundR (.exponent g.alpha) g.mds false (listRow T r)) n r x (by
      intro j x _ hj
      exact partialRound_eq g T (by omega) x)
  have sh := loopN_shift (fun _ s => g.partialRound T s) n 0 r (x, r)
  rw [Nat.zero_add] at sh
  rw [forRange, Nat.sub_zero, ← h1]
  exact sh

/-- `perm_original` as three loops. -/
theorem permOriginal_eq (g : SageGlobals F k) (h : g.Valid) (x : Fin (k + 1) → F) :
    g.permOriginal x = (do
      let C := listRow (sageRows k g.roundConstants)
      let x ← loopN (fun r => roundR (.exponent g.alpha) g.mds true (C r)) (g.rF / 2) 0 x
      let x ← loopN (fun r => roundR (.exponent g.alpha) g.mds false (C r)) g.rP (g.rF / 2) x
      loopN (fun r => roundR (.exponent g.alpha) g.mds true (C r)) (g.rF / 2) (g.rF / 2 + g.rP) x) := by
  have hlen : (sageRows k g.roundConstants).length = g.rF + g.rP := by rw [sageRows_length, h.rows]
  have he := h.even
  rw [SageGlobals.permOriginal, SageGlobals.halfFull, fullRounds_eq g _ _ _ (by omega)]
  simp only [Nat.zero_add]
  cases loopN (fun r => roundR (.exponent g.alpha) g.mds true (listRow (sageRows k g.roundConstants) r)) (g.rF / 2) 0 x with
  | error e => rfl
  | ok y =>
    simp only [map_ok, ok_bind]
    rw [partialRounds_eq g _ _ _ (by omega)]
    cases loopN (fun r => roundR (.exponent g.alpha) g.mds false (listRow (sageRows k g.roundConstants) r)) g.rP
      (g.rF / 2) y with
    | error e => rfl
    | ok z =>
      simp only [map_ok, ok_bind]
      rw [fullRounds_eq g _ _ _ (by omega)]
      cases loopN (fun r => roundR (.exponent g.alpha) g.mds true (listRow (sageRows k g.roundConstants) r)) (g.rF / 2)
        (g.rF / 2 + g.rP) z <;> rfl

/-! ## The equivalent constants -/

theorem sageInverse_eq {n : Nat} {A : Matrix (Fin n) (Fin n) F} (h : A.det ≠ 0) : sageInverse A = .ok A⁻¹ := by
  rw [sageInverse, if_neg h]

theorem cons_tail_tail0 (y : Fin (k + 1) → F) : (Fin.cons 0 (Fin.tail y) : Fin (k + 1) → F) = tail0 y := by
  funext j
  cases j using Fin.cases with
  | zero => simp [tail0]
  | succ j => simp [tail0, Fin.tail]

theorem cons_zero_single (a : F) : (Fin.cons a 0 : Fin (k + 1) → F) = Pi.single 0 a := by
  funext j
  cases j using Fin.cases with
  | zero => simp
  | succ j => simp

theorem listRow_set (T : List (Fin (k + 1) → F)) (i : Nat) (c : Fin (k + 1) → F) (h : i < T.length) (r : Nat) :
    listRow (T.set i c) r = if r = i then c else listRow T r := by
  rw [listRow, listRow, List.getD_eq_getElem?_getD, List.getD_eq_getElem?_getD, List.getElem?_set]
  by_cases hr : i = r
  · subst hr; simp [h]
  · rw [if_neg hr, if_neg (Ne.symm hr)]

theorem sage_constants_eq (g : SageGlobals F k) (h : g.Valid) :
    ∃ T, g.calcEquivalentConstants g.roundConstants = .ok T ∧ T.length = g.rF + g.rP ∧
      ∀ r, listRow T r = optArc g.mds (listRow (sageRows k g.roundConstants)) (g.rF / 2 + g.rP - 1) (g.rP - 1) r := by
  have hlen : (sageRows k g.roundConstants).length = g.rF + g.rP := by rw [sageRows_length, h.rows]
  have he := h.even
  have hp := h.rp_pos
  set c := listRow (sageRows k g.roundConstants) with hc
  set last := g.rF / 2 + g.rP - 1 with hlast
  have hinv : ∀ x : Fin (k + 1) → F, x ᵥ* (g.mdsᵀ)⁻¹ = g.mds⁻¹ *ᵥ x := by
    intro x
    rw [← Matrix.transpose_nonsing_inv, Matrix.vecMul_transpose]
  rw [SageGlobals.calcEquivalentConstants, SageGlobals.halfFull, SageGlobals.total,
    show g.rF + g.rP - 1 - g.rF / 2 - g.rF / 2 = g.rP - 1 by omega]
  obtain ⟨T, h1, h2, h3⟩ := forRange_spec
    (fun q (T : List (Fin (k + 1) → F)) => T.length = g.rF + g.rP ∧ ∀ r, listRow T r = optArc g.mds c last q r)
    (body := fun n table => g.constantsStep (g.rF + g.rP - 2 - g.rF / 2 - n) table) (lo := 0) (hi := g.rP - 1) (by omega)
    (s := sageRows k g.roundConstants) ⟨hlen, by
      intro r
      rw [optArc, if_neg (by omega)]
      split
      · next h => rw [h]; rfl
      · rfl⟩ (by
      rintro q T - hq ⟨hT, hs⟩
      rw [show g.rF + g.rP - 2 - g.rF / 2 - q = last - 1 - q by omega, SageGlobals.constantsStep,
        lget_listRow T (by omega), ok_bind, sageInverse_eq (by rw [Matrix.det_transpose]; exact h.det), ok_bind,
        lget_listRow T (by omega), ok_bind, pySet, if_pos (by omega), ok_bind, pySet, if_pos (by simp; omega)]
      refine ⟨_, rfl, by simpa using hT, ?_⟩
      intro r
      have e1 : optArc g.mds c last q (last - 1 - q + 1) = moved g.mds c last q := by
        rw [optArc, if_neg (by omega), if_pos (by omega)]
      have e2 : optArc g.mds c last q (last - 1 - q) = c (last - (q + 1)) := by
        rw [optArc, if_neg (by omega), if_neg (by omega), show last - 1 - q = last - (q + 1) by omega]
      rw [hs, hs, e1, e2, hinv, cons_tail_tail0, cons_zero_single, listRow_set _ _ _ (by simp; omega),
        listRow_set _ _ _ (by omega), optArc]
      by_cases c1 : r = last - 1 - q + 1
      · rw [if_pos c1, if_pos (by omega), show last - r = q by omega]
      · rw [if_neg c1]
        by_cases c2 : r = last - 1 - q
        · rw [if_pos c2, if_neg (by omega), if_pos (by omega)]; rfl
        · rw [if_neg c2, hs, optArc]
          by_cases c3 : last - q < r ∧ r ≤ last
          · rw [if_pos c3, if_pos (by omega)]
          · rw [if_neg c3, if_neg (by omega), if_neg (by omega), if_neg (by omega)])
  exact ⟨T, h1, h2, h3⟩

/-! ## The equivalent matrices -/

theorem diag1_eq_cons (A : Matrix (Fin k) (Fin k) F) :
    (Matrix.of (Fin.cons (Fin.cons 1 fun _ => 0) fun i => Fin.cons 0 (A i)) : Matrix (Fin (k + 1)) (Fin (k + 1)) F) = diag1 A := by
  ext i j
  cases i using Fin.cases <;> cases j using Fin.cases <;> simp [diag1]

theorem mul_diag1_hat (B : Matrix (Fin (k + 1)) (Fin (k + 1)) F) (A : Matrix (Fin k) (Fin k) F) :
    (B * diag1 A).submatrix Fin.succ Fin.succ = hatM B * A := by
  ext i j
  simp [Matrix.mul_apply, Fin.sum_univ_succ, diag1, hatM]

theorem mul_diag1_row (B : Matrix (Fin (k + 1)) (Fin (k + 1)) F) (A : Matrix (Fin k) (Fin k) F) :
    (fun j : Fin k => (B * diag1 A) 0 j.succ) = rowM B ᵥ* A := by
  funext j
  simp [Matrix.mul_apply, Fin.sum_univ_succ, diag1, rowM, Matrix.vecMul, _root_.dotProduct]

theorem mul_diag1_col (B : Matrix (Fin (k + 1)) (Fin (k + 1)) F) (A : Matrix (Fin k) (Fin k) F) :
    (fun i : Fin k => (B * diag1 A) i.succ 0) = colM B := by
  funext j
  simp [Matrix.mul_apply, Fin.sum_univ_succ, diag1, colM]

/-- What `calc_equivalent_matrices` returns. -/
theorem sage_matrices_eq (g : SageGlobals F k) (h : g.Valid) :
    ∃ m, g.calcEquivalentMatrices = .ok m ∧ m.mI = diag1 ((hatM g.mds)ᵀ ^ g.rP) ∧
      m.vCollection = (List.range g.rP).map (fun j => (hatM g.mds ^ j) *ᵥ colM g.mds) ∧
      m.wHatCollection = (List.range g.rP).map fun j => ((hatM g.mds)ᵀ ^ (j + 1))⁻¹ *ᵥ rowM g.mds := by
  have hp := h.rp_pos
  set H := hatM g.mds with hH
  have hHt : hatM g.mdsᵀ = Hᵀ := by ext i j; rfl
  have hrow : rowM g.mdsᵀ = colM g.mds := rfl
  have hcol : colM g.mdsᵀ = rowM g.mds := rfl
  have hdet : H.det ≠ 0 := h.detHat
  obtain ⟨m, h1, h2, h3, h4, h5⟩ := forRange_spec
    (fun q (m : SageMatrices F k) => (1 ≤ q → m.mI = diag1 (Hᵀ ^ q)) ∧ m.mMul = g.mdsᵀ * diag1 (Hᵀ ^ q) ∧
      m.vCollection = (List.range q).map (fun j => (H ^ j) *ᵥ colM g.mds) ∧
      m.wHatCollection = (List.range q).map fun j => (Hᵀ ^ (j + 1))⁻¹ *ᵥ rowM g.mds)
    (body := fun _ s => g.matricesStep s) (lo := 0) (hi := g.rP) (by omega)
    (s := { mI := 0, mMul := g.mdsᵀ, vCollection := [], wHatCollection := [] })
    ⟨by omega, by simp [diag1_one], rfl, rfl⟩ (by
      rintro q m - hq ⟨-, hm, hv, hw⟩
      have hhat : m.mMul.submatrix Fin.succ Fin.succ = Hᵀ ^ (q + 1) := by
        rw [hm, mul_diag1_hat, hHt, pow_succ']
      have hu : (Hᵀ ^ (q + 1)).det ≠ 0 := by
        rw [Matrix.det_pow, Matrix.det_transpose]; exact pow_ne_zero _ hdet
      rw [SageGlobals.matricesStep]
      simp only
      rw [hhat, sageInverse_eq hu, ok_bind]
      refine ⟨_, rfl, ?_, ?_, ?_, ?_⟩
      · intro _; exact diag1_eq_cons _
      · simp only; rw [diag1_eq_cons]
      · simp only
        rw [hv, List.range_succ, List.map_append, hm, mul_diag1_row, hrow]
        congr 1
        simp only [List.map_cons, List.map_nil]
        rw [← Matrix.transpose_pow, Matrix.vecMul_transpose]
      · simp only
        rw [hw, List.range_succ, List.map_append, hm, mul_diag1_col, hcol]
        rfl)
  exact ⟨m, h1, h2 hp, h4, h5⟩

/-! ## The optimized permutation -/

theorem cheapMatrixMul_eq (x : Fin (k + 1) → F) (v w : Fin k → F) (m00 : F) :
    cheapMatrixMul x v w m00 = sparseM m00 v w *ᵥ x := by
  funext i
  cases i using Fin.cases with
  | zero => rw [sparseM_zero, cheapMatrixMul]; simp [Fin.sum_univ_succ]
  | succ i => rw [sparseM_succ, cheapMatrixMul]; simp [mul_comm]

/-- The tables of the script are equivalent to its round constants and matrix. -/
theorem sage_optRel (g : SageGlobals F k) (h : g.Valid) {c : Nat → Fin (k + 1) → F} :
    OptRel g.mds (diag1 (hatM g.mds ^ g.rP)) g.rP
      (fun j => sparseM (g.mds 0 0) ((hatM g.mds ^ j) *ᵥ colM g.mds) (((hatM g.mds)ᵀ ^ (j + 1))⁻¹ *ᵥ rowM g.mds))
      (fun r => c (g.rF / 2 + r)) (optArc g.mds c (g.rF / 2 + g.rP - 1) (g.rP - 1) (g.rF / 2))
      (fun r => optArc g.mds c (g.rF / 2 + g.rP - 1) (g.rP - 1) (g.rF / 2 + r + 1) 0) := by
  have hp := h.rp_pos
  have hu : IsUnit (hatM g.mds).det := isUnit_iff_ne_zero.2 h.detHat
  have huA : IsUnit g.mds.det := isUnit_iff_ne_zero.2 h.det
  set f := g.rF / 2
  set last := f + g.rP - 1 with hlast
  refine { mats := ⟨fun j => hatM g.mds ^ j, pow_zero _, rfl, ?_⟩, consts := ?_ }
  · intro j hj
    have key : (((hatM g.mds)ᵀ ^ (j + 1))⁻¹ *ᵥ rowM g.mds) ᵥ* (hatM g.mds ^ j * hatM g.mds) = rowM g.mds := by
      rw [← pow_succ, ← Matrix.mulVec_transpose, Matrix.transpose_pow, Matrix.mulVec_mulVec,
        Matrix.mul_nonsing_inv, Matrix.one_mulVec]
      rw [Matrix.det_pow, Matrix.det_transpose]
      exact hu.pow _
    have := diag1_mul_mds (hatM g.mds ^ j) (hatM g.mds) g.mds (fun i j => rfl) _ _ rfl key
    rw [← pow_succ] at this
    exact this
  · refine ⟨fun r => moved g.mds c last (g.rP - 1 - r), ?_, ?_, ?_⟩
    · beta_reduce
      rw [Nat.sub_zero, optArc, if_neg (by omega), if_pos (by omega)]
    · beta_reduce
      rw [Nat.sub_self, moved, show last = f + (g.rP - 1) by omega]
    · intro r hr
      have e : g.rP - 1 - r = g.rP - 1 - (r + 1) + 1 := by omega
      have e2 : last - (g.rP - 1 - (r + 1) + 1) = f + r := by omega
      beta_reduce
      constructor
      · rw [e, moved, e2]
        simp [tail0]
      · rw [optArc, if_pos (by omega), Pi.single_eq_same, show last - (f + r + 1) = g.rP - 1 - (r + 1) by omega, e, moved,
          e2]
        exact tail0_mulVec _ huA _ _

/-- `perm` computes what `perm_original` computes. -/
theorem perm_eq_permOriginal (g : SageGlobals F k) (h : g.Valid) (x : Fin (k + 1) → F) :
    g.perm x = g.permOriginal x := by
  have he := h.even
  have hp := h.rp_pos
  obtain ⟨T, hT, hTl, hTr⟩ := sage_constants_eq g h
  obtain ⟨m, hm, hmI, hmv, hmw⟩ := sage_matrices_eq g h
  rw [permOriginal_eq g h, SageGlobals.perm, hT, ok_bind, hm, ok_bind, SageGlobals.halfFull]
  set C := listRow (sageRows k g.roundConstants) with hC
  set f := g.rF / 2 with hf
  set a : Alpha := .exponent g.alpha with ha
  have hfull : ∀ n r x, r + n ≤ T.length → (∀ j, r ≤ j → j < r + n → listRow T j = C j) →
      forRange 0 n (x, r) (fun _ s => g.fullRound T s) = (fun y => (y, r + n)) <$>
        loopN (fun r => roundR a g.mds true (C r)) n r x := by
    intro n r x h1 h2
    rw [fullRounds_eq g T n r h1]
    congr 1
    apply loopN_congr
    intro j s h3 h4
    rw [h2 j h3 h4]
  have hsame : ∀ j, j < f ∨ f + g.rP ≤ j → listRow T j = C j := by
    intro j hj
    rw [hTr, optArc, if_neg (by omega), if_neg (by omega)]
  rw [hfull f 0 x (by omega) (fun j _ _ => hsame j (by omega))]
  simp only [Nat.zero_add]
  cases loopN (fun r => roundR a g.mds true (C r)) f 0 x with
  | error e => rfl
  | ok y =>
    simp only [map_ok, ok_bind]
    rw [lget_listRow T (by omega), ok_bind]
    -- partial rounds
    set E : Nat → Matrix (Fin (k + 1)) (Fin (k + 1)) F := fun j =>
      sparseM (g.mds 0 0) ((hatM g.mds ^ j) *ᵥ colM g.mds) (((hatM g.mds)ᵀ ^ (j + 1))⁻¹ *ᵥ rowM g.mds) with hE
    have hcheap : ∀ r x, r < g.rP → g.cheapRound T m r (x, f + r) =
        if r < g.rP - 1 then
          (fun y => (y, f + r + 1)) <$> (do
            let y ← s0R a x
            .ok (E (g.rP - r - 1) *ᵥ (y + Pi.single 0 (listRow T (f + r + 1) 0))))
        else (fun y => (y, f + r)) <$> (do
            let y ← s0R a x
            .ok (E (g.rP - r - 1) *ᵥ y)) := by
      intro r x hr
      have hv : lget m.vCollection (g.rP - r - 1) = .ok ((hatM g.mds ^ (g.rP - r - 1)) *ᵥ colM g.mds) := by
        rw [hmv, lget_lt _ (by simp; omega)]; simp
      have hw : lget m.wHatCollection (g.rP - r - 1) =
          .ok (((hatM g.mds)ᵀ ^ (g.rP - r - 1 + 1))⁻¹ *ᵥ rowM g.mds) := by
        rw [hmw, lget_lt _ (by simp; omega)]; simp
      have hs : s0R a x = .ok (Function.update x 0 (x 0 ^ g.alpha)) := by
        rw [s0R, if_pos (by trivial)]; rfl
      rw [SageGlobals.cheapRound, hs]
      by_cases hlt : r < g.rP - 1
      · simp only [if_pos hlt]
        rw [lget_listRow T (by omega), ok_bind]
        simp only [pure_eq_ok, ok_bind, map_ok]
        rw [hv, ok_bind, hw, ok_bind, cheapMatrixMul_eq]
        congr 4
        funext i
        by_cases hi : i = 0
        · subst hi; simp
        · simp [hi]
      · simp only [if_neg hlt]
        simp only [pure_eq_ok, ok_bind, map_ok]
        rw [hv, ok_bind, hw, ok_bind, cheapMatrixMul_eq]
    have hmid : forRange 0 g.rP ((y + listRow T f) ᵥ* m.mI, f) (fun r s => g.cheapRound T m r s) =
        (fun y => (y, f + (g.rP - 1))) <$> loopN (fun r => roundR a g.mds false (C (f + r))) g.rP 0 y := by
      have rel : OptRel g.mds (diag1 (hatM g.mds ^ g.rP)) g.rP E (fun r => C (f + r))
          (optArc g.mds C (f + g.rP - 1) (g.rP - 1) f)
          (fun r => optArc g.mds C (f + g.rP - 1) (g.rP - 1) (f + r + 1) 0) := sage_optRel g h (c := C)
      have mid := optimized_middle a hp rel y
      rw [← mid, forRange, Nat.sub_zero]
      conv_lhs => rw [show g.rP = (g.rP - 1) + 1 by omega]
      rw [loopN_add]
      have hstart : (y + listRow T f) ᵥ* m.mI = diag1 (hatM g.mds ^ g.rP) *ᵥ
          (y + optArc g.mds C (f + g.rP - 1) (g.rP - 1) f) := by
        rw [hmI, ← Matrix.transpose_pow, ← diag1_transpose, Matrix.vecMul_transpose, hTr]
      rw [hstart]
      have L := loopN_map' (fun j (x : Fin (k + 1) → F) => (x, f + j)) (fun r s => g.cheapRound T m r s)
        (fun r y => do
          let y ← s0R a y
          .ok (E (g.rP - r - 1) *ᵥ (y + Pi.single 0 (listRow T (f + r + 1) 0)))) (g.rP - 1) 0
        (diag1 (hatM g.mds ^ g.rP) *ᵥ (y + optArc g.mds C (f + g.rP - 1) (g.rP - 1) f)) (by
          intro j x _ hj
          rw [hcheap j x (by omega), if_pos (by omega)]
          rfl)
      simp only [Nat.zero_add, Nat.add_zero] at L
      rw [L]
      simp only [hTr]
      cases loopN (fun r y => do
          let y ← s0R a y
          .ok (E (g.rP - r - 1) *ᵥ (y + Pi.single 0 (optArc g.mds C (f + g.rP - 1) (g.rP - 1) (f + r + 1) 0))))
          (g.rP - 1) 0 (diag1 (hatM g.mds ^ g.rP) *ᵥ (y + optArc g.mds C (f + g.rP - 1) (g.rP - 1) f)) with
      | error e => rfl
      | ok z =>
        simp only [map_ok, ok_bind, Nat.zero_add, loopN]
        rw [hcheap (g.rP - 1) z (by omega), if_neg (by omega), show g.rP - (g.rP - 1) - 1 = 0 by omega]
        cases s0R a z <;> rfl
    rw [hmid]
    have hshift : loopN (fun r => roundR a g.mds false (C (f + r))) g.rP 0 y =
        loopN (fun r => roundR a g.mds false (C r)) g.rP f y := by
      have := loopN_shift (fun r => roundR a g.mds false (C r)) g.rP 0 f y
      rw [Nat.zero_add] at this
      rw [← this]
      apply loopN_congr
      intro j s _ _
      rw [Nat.add_comm f j]
    rw [hshift]
    cases loopN (fun r => roundR a g.mds false (C r)) g.rP f y with
    | error e => rfl
    | ok z =>
      simp only [map_ok, ok_bind]
      rw [show f + (g.rP - 1) + 1 = f + g.rP by omega,
        hfull f (f + g.rP) z (by omega) (fun j h1 _ => hsame j (by omega))]
      cases loopN (fun r => roundR a g.mds true (C r)) f (f + g.rP) z <;> rfl

end Poseidon
