import Verif.Proofs.GenMds

/-! # The generator's optimized round constants -/

set_option linter.unusedSectionVars false

namespace Poseidon

open scoped Matrix

variable {F : Type _} [Field F] [DecidableEq F] {k rows cols n nmds nround : Nat}

/-- Replace one row of a table. -/
def setRow (T : Matrix (Fin rows) (Fin cols) F) (r : Fin rows) (x : Fin cols → F) : Matrix (Fin rows) (Fin cols) F :=
  Matrix.of fun i j => if i = r then x j else T i j

theorem constantsByRound_eq (ha : nround = rows * cols) (m : Mat F rows cols nround) (r : Fin rows) :
    constantsByRound m r.val =
      .ok (Mat.ofM (Nat.one_mul cols).symm (Matrix.of fun _ j => m.toM ha r j)) := by
  rw [constantsByRound]
  set B : Mat F 1 cols cols := Mat.ofM (Nat.one_mul cols).symm (Matrix.of fun _ j => m.toM ha r j) with hB
  obtain ⟨s, h1, h2⟩ := forRange_spec
    (fun q (els : Vector F cols) => ∀ p (hp : p < cols), p < q → els[p] = m.toM ha r ⟨p, hp⟩)
    (body := fun j els => do let x ← m.get r.val j; aset els j x) (lo := 0) (hi := cols) (by omega)
    (s := Vector.replicate cols (0 : F)) (by intro p _ hp; omega) (by
      intro q els _ hq hinv
      rw [Mat.get_eq ha m r.isLt hq, ok_bind, aset_lt _ _ hq]
      refine ⟨_, rfl, ?_⟩
      intro p hp hpq
      rw [Vector.getElem_set]
      split
      · next heq => subst heq; rfl
      · next hne => exact hinv p hp (by omega))
  rw [h1, ok_bind]
  apply Mat.new_list (Nat.one_mul cols).symm
  congr 1
  ext p hp
  rw [h2 p hp hp, hB]
  simp [Mat.ofM, Nat.mod_eq_of_lt hp]

theorem setConstantsByRound_eq (ha : nround = rows * cols) (m : Mat F rows cols nround) (r : Fin rows)
    (x : Fin cols → F) :
    setConstantsByRound m r.val (List.ofFn x) = .ok (Mat.ofM ha (setRow (m.toM ha) r x)) := by
  rw [setConstantsByRound, if_neg (by simp)]
  obtain ⟨s, h1, h2⟩ := forList_spec (fun q (s : Mat F rows cols nround) =>
      s.toM ha = setRow (m.toM ha) r fun j => if j.val < q then x j else m.toM ha r j)
    (body := fun (e : F × Nat) (arc : Mat F rows cols nround) => arc.set r.val e.2 e.1)
    (List.ofFn x).zipIdx 0 m (by
      ext i j
      simp only [setRow, Matrix.of_apply, Nat.not_lt_zero, if_false]
      split
      · next h => rw [h]
      · rfl) (by
      intro q hq s hs
      have hq' : q < cols := by simpa using hq
      rw [Nat.zero_add] at hs ⊢
      simp only [List.getElem_zipIdx, List.getElem_ofFn, Nat.zero_add]
      rw [Mat.set_eq ha s r.isLt hq']
      refine ⟨_, rfl, ?_⟩
      rw [Mat.toM_ofM, hs]
      ext i j
      simp only [setRow, Matrix.of_apply, Fin.eta]
      by_cases hi : i = r
      · subst hi
        by_cases hj : j = ⟨q, hq'⟩
        · subst hj; simp
        · have : j.val ≠ q := fun hh => hj (Fin.ext hh)
          simp only [hj, and_false, if_false, if_true]
          by_cases hjq : j.val < q
          · rw [if_pos hjq, if_pos (by omega)]
          · rw [if_neg hjq, if_neg (by omega)]
      · simp [hi])
  rw [h1]
  congr 1
  apply Mat.toM_injective ha
  rw [h2, Mat.toM_ofM]
  congr 1
  funext j
  simp

/-- `[0] + x[1:]` -/
def tail0 (x : Fin (k + 1) → F) : Fin (k + 1) → F := fun j => if j = 0 then 0 else x j

theorem arcStep_eq (hm : nmds = (k + 1) * (k + 1)) (ha : nround = rows * (k + 1))
    (inv : Mat F (k + 1) (k + 1) nmds) (m : Mat F rows (k + 1) nround) (r : Nat) (hr : r + 1 < rows) :
    arcStep inv r m = .ok (Mat.ofM ha (setRow (setRow (m.toM ha) ⟨r, by omega⟩ (m.toM ha ⟨r, by omega⟩ +
      tail0 ((m.toM ha ⟨r + 1, hr⟩) ᵥ* inv.toM hm))) ⟨r + 1, hr⟩
        (Pi.single 0 (((m.toM ha ⟨r + 1, hr⟩) ᵥ* inv.toM hm) 0)))) := by
  set y := (m.toM ha ⟨r + 1, hr⟩) ᵥ* inv.toM hm with hy
  rw [arcStep, constantsByRound_eq ha m ⟨r + 1, hr⟩, ok_bind,
    matMul_eq (Nat.one_mul _).symm hm (Nat.one_mul _).symm (by omega), ok_bind, Mat.toM_ofM]
  set I : Mat F 1 (k + 1) (k + 1) := Mat.ofM (Nat.one_mul (k + 1)).symm
    ((Matrix.of fun _ j => m.toM ha ⟨r + 1, hr⟩ j) * inv.toM hm) with hI
  have hget : ∀ j (hj : j < k + 1), I.get 0 j = .ok (y ⟨j, hj⟩) := by
    intro j hj
    rw [Mat.get_eq (Nat.one_mul _).symm I (by omega) hj, hI, Mat.toM_ofM]
    rfl
  obtain ⟨d, h1, h2⟩ := forRange_spec
    (fun q (d : List F) => d = (List.ofFn (tail0 y)).take q)
    (body := fun j d => do let x ← I.get 0 j; return d ++ [x]) (lo := 1) (hi := k + 1) (by omega)
    (s := [0]) (by simp [tail0]) (by
      intro j d hj1 hj hd
      rw [hget j hj, ok_bind]
      refine ⟨_, rfl, ?_⟩
      have hlt : j < (List.ofFn (tail0 y)).length := by simpa using hj
      rw [hd, List.take_add_one, List.getElem?_eq_getElem hlt]
      have : (⟨j, hj⟩ : Fin (k + 1)) ≠ 0 := by
        intro h; have := congrArg Fin.val h; simp at this; omega
      rw [List.getElem_ofFn, tail0, if_neg this]; rfl)
  rw [List.take_of_length_le (by simp)] at h2
  rw [h1, ok_bind, h2]
  obtain ⟨s, h3, h4⟩ := forRange_spec
    (fun q (s : Mat F rows (k + 1) nround) => s.toM ha = setRow (m.toM ha) ⟨r, by omega⟩
      fun j => if j.val < q then (m.toM ha ⟨r, by omega⟩ + tail0 y) j else m.toM ha ⟨r, by omega⟩ j)
    (body := fun j (s : Mat F rows (k + 1) nround) => do
      let curr ← s.get r j
      let d ← lget (List.ofFn (tail0 y)) j
      s.set r j (curr + d)) (lo := 0) (hi := k + 1) (by omega)
    (s := m) (by
      ext i j
      simp only [setRow, Matrix.of_apply, Nat.not_lt_zero, if_false]
      split
      · next h => rw [h]
      · rfl) (by
      intro q s _ hq hs
      have hrr : r < rows := by omega
      rw [Mat.get_eq ha s hrr hq, ok_bind, lget_lt _ (by simpa using hq), ok_bind, Mat.set_eq ha s hrr hq]
      refine ⟨_, rfl, ?_⟩
      rw [Mat.toM_ofM, hs]
      ext i j
      simp only [setRow, Matrix.of_apply]
      by_cases hi : i = ⟨r, hrr⟩
      · subst hi
        by_cases hj : j = ⟨q, hq⟩
        · subst hj; simp [-List.ofFn_succ]
        · have : j.val ≠ q := fun hh => hj (Fin.ext hh)
          simp only [hj, and_false, if_false, if_true]
          by_cases hjq : j.val < q
          · rw [if_pos hjq, if_pos (by omega)]
          · rw [if_neg hjq, if_neg (by omega)]
      · simp [hi])
  rw [h3, ok_bind, hget 0 (by omega), ok_bind]
  have hl : (y ⟨0, by omega⟩ :: List.replicate k 0) = List.ofFn (Pi.single 0 (y 0) : Fin (k + 1) → F) := by
    rw [List.ofFn_succ]
    simp [List.ofFn_const]
  rw [hl, setConstantsByRound_eq ha s ⟨r + 1, hr⟩, h4]
  congr 4
  funext j
  rw [if_pos j.isLt]

/-- The constants still to be added before the `i`-th partial round counted from the last one. -/
noncomputable def moved (A : Matrix (Fin (k + 1)) (Fin (k + 1)) F) (c : Nat → Fin (k + 1) → F) (last : Nat) :
    Nat → Fin (k + 1) → F
  | 0 => c last
  | i + 1 => c (last - (i + 1)) + tail0 (A⁻¹.mulVec (moved A c last i))

/-- The table of optimized constants after `q` steps. -/
noncomputable def optArc (A : Matrix (Fin (k + 1)) (Fin (k + 1)) F) (c : Nat → Fin (k + 1) → F) (last q : Nat)
    (r : Nat) : Fin (k + 1) → F :=
  if last - q < r ∧ r ≤ last then Pi.single 0 (A⁻¹.mulVec (moved A c last (last - r)) 0)
  else if r = last - q then moved A c last q else c r

theorem toM_rowFn (ha : nround = rows * (k + 1)) (m : Mat F rows (k + 1) nround) (r : Fin rows) :
    m.toM ha r = rowFn ha m r.val := by
  rw [rowFn, dif_pos r.isLt]

/-- What `generate_optimized` computes for an invertible MDS matrix: `last` is the last row it reads. -/
theorem arcGenerateOptimized_eq (debug : Bool) (hm : nmds = (k + 1) * (k + 1)) (ha : nround = rows * (k + 1))
    (h8 : k + 1 ≤ 8) (arc : Mat F rows (k + 1) nround) (mds : Mat F (k + 1) (k + 1) nmds) (rounds : RoundNumbers)
    (hdet : (mds.toM hm).det ≠ 0) (last : Nat) (hlast : last + 1 + rounds.rF / 2 = rounds.total)
    (hle : rounds.rF / 2 ≤ last) (hrows : last < rows) :
    ∃ T, arcGenerateOptimized debug arc mds rounds = .ok T ∧ ∀ r < rows,
      rowFn ha T r = optArc (mds.toM hm) (rowFn ha arc) last (last - rounds.rF / 2) r := by
  set A := mds.toM hm with hA
  rw [arcGenerateOptimized]
  simp only [RoundNumbers.full]
  rw [transpose_eq hm, ok_bind, mdsInverse_eq,
    inverseExpect_eq debug (hm.trans (Nat.mul_comm _ _)) _ (by omega) h8
      (by rw [Mat.toM_ofM, Matrix.det_transpose]; exact hdet), ok_bind, usub, if_pos (by omega), ok_bind, usub,
    if_pos (by omega), ok_bind]
  rw [Mat.toM_ofM, forRangeRev, show rounds.total - 1 - rounds.rF / 2 = last by omega]
  set f := rounds.rF / 2 with hf
  have hinv : ∀ x : Fin (k + 1) → F, x ᵥ* (Aᵀ)⁻¹ = A⁻¹.mulVec x := by
    intro x
    rw [← Matrix.transpose_nonsing_inv, Matrix.vecMul_transpose]
  obtain ⟨T, h1, h2⟩ := forRange_spec
    (fun q (s : Mat F rows (k + 1) nround) => ∀ r < rows, rowFn ha s r = optArc A (rowFn ha arc) last q r)
    (body := fun i (s : Mat F rows (k + 1) nround) => arcStep (Mat.ofM (hm.trans (Nat.mul_comm _ _)) (mds.toM hm)ᵀ⁻¹)
      (last - 1 - i) s) (lo := 0) (hi := last - f) (by omega) (s := arc) (by
      intro r hr
      rw [optArc, if_neg (by omega)]
      split
      · next h => rw [h]; rfl
      · rfl) (by
      intro q s _ hq hs
      have hr : last - 1 - q + 1 < rows := by omega
      rw [arcStep_eq hm ha _ s _ hr]
      refine ⟨_, rfl, ?_⟩
      intro r hrr
      rw [← toM_rowFn ha _ ⟨r, hrr⟩, Mat.toM_ofM, Mat.toM_ofM]
      rw [toM_rowFn ha s, toM_rowFn ha s, hs _ (by omega), hs _ (by omega)]
      have e1 : optArc A (rowFn ha arc) last q (last - 1 - q + 1) = moved A (rowFn ha arc) last q := by
        rw [optArc, if_neg (by omega), if_pos (by omega)]
      have e2 : optArc A (rowFn ha arc) last q (last - 1 - q) = rowFn ha arc (last - (q + 1)) := by
        rw [optArc, if_neg (by omega), if_neg (by omega), show last - 1 - q = last - (q + 1) by omega]
      rw [e1, e2, ← hA, hinv]
      funext j
      simp only [setRow, Matrix.of_apply, Fin.mk.injEq]
      rw [optArc]
      by_cases c1 : r = last - 1 - q + 1
      · rw [if_pos c1, if_pos (by omega), show last - r = q by omega]
      · rw [if_neg c1]
        by_cases c2 : r = last - 1 - q
        · rw [if_pos c2, if_neg (by omega), if_pos (by omega)]; rfl
        · rw [if_neg c2, toM_rowFn ha s, hs r hrr, optArc]
          by_cases c3 : last - q < r ∧ r ≤ last
          · rw [if_pos c3, if_pos (by omega)]
          · rw [if_neg c3, if_neg (by omega), if_neg (by omega), if_neg (by omega)])
  exact ⟨T, h1, h2⟩

end Poseidon
