import Verif.Proofs.Loops
import Verif.Spec.Matrix
import Mathlib.Data.Matrix.Mul
import Mathlib.LinearAlgebra.Matrix.Determinant.Basic
import Mathlib.Algebra.BigOperators.Fin

/-! # Closed forms of the matrix operations -/

set_option linter.unusedSectionVars false

namespace Poseidon

open Matrix

variable {F : Type _} [Field F] [DecidableEq F] {r c n k : Nat}

theorem Mat.get_eq (h : n = r * c) (m : Mat F r c n) {i j : Nat} (hi : i < r) (hj : j < c) :
    m.get i j = .ok (m.toM h ⟨i, hi⟩ ⟨j, hj⟩) :=
  aget_lt _ (lt_of_lt_of_eq (flat_lt hi hj) h.symm)

/-- Flat contents, `0` outside (only used inside proofs). -/
def Mat.flat (B : Mat F r c n) (p : Nat) : F := if h : p < n then B.elements[p] else 0

theorem Mat.flat_toM (h : n = r * c) (B : Mat F r c n) {i j : Nat} (hi : i < r) (hj : j < c) :
    B.flat (i * c + j) = B.toM h ⟨i, hi⟩ ⟨j, hj⟩ := by
  rw [Mat.flat, dif_pos (lt_of_lt_of_eq (flat_lt hi hj) h.symm)]; rfl

theorem Filled.elements {B : Mat F r c n} {idx : Nat} {s : Vector F n × Nat} (h : Filled B.flat idx s)
    (hn : n ≤ idx) : s.1 = B.elements := by
  rw [h.full hn]
  ext p hp
  simp [Mat.flat]

theorem Mat.new_elements (h : n = r * c) (B : Mat F r c n) :
    Mat.new r c n B.elements.toList = .ok B := by
  rw [Mat.new, if_neg (by simpa using h), dif_pos (by simp)]
  cases B with
  | mk els => cases els; simp

theorem Mat.new_list (h : n = r * c) (B : Mat F r c n) (l : List F) (hl : l = B.elements.toList) :
    Mat.new r c n l = .ok B := by rw [hl, Mat.new_elements h]

/-- The common shape of the fill-then-construct functions. -/
theorem fill2_new (h : n = r * c) (B : Mat F r c n) (s0 : Vector F n)
    {body : Nat → Nat → Vector F n × Nat → R (Vector F n × Nat)} (v : Nat → Nat → R F)
    (hv : ∀ i j (hi : i < r) (hj : j < c), v i j = .ok (B.toM h ⟨i, hi⟩ ⟨j, hj⟩))
    (hbody : ∀ i j s, body i j s =
      (v i j >>= fun x => do let els ← aset s.1 s.2 x; return (els, s.2 + 1))) :
    (do let (els, _) ← forRange 0 r (s0, 0) fun i s => forRange 0 c s (body i)
        Mat.new r c n els.toList) = .ok B := by
  obtain ⟨s', h1, h2⟩ := forRange_fill2 (g := B.flat) (ilo := 0) (ihi := r) (jlo := 0) (jhi := c)
    (Nat.zero_le _) (Nat.zero_le _) (Filled.zero _ s0) (by simp [h]) v
    (fun i j _ hi _ hj => by
      rw [hv i j hi hj]
      simp only [Nat.zero_add, Nat.sub_zero]
      rw [Mat.flat_toM h]) (fun i j s _ _ _ _ => hbody i j s)
  rw [h1, ok_bind]
  show Mat.new r c n s'.1.toList = _
  rw [h2.elements (by simp [h]), Mat.new_elements h]

theorem transpose_eq (h : n = r * c) (m : Mat F r c n) :
    m.transpose = .ok (Mat.ofM (h.trans (Nat.mul_comm _ _)) (m.toM h)ᵀ) := by
  rw [Mat.transpose]
  apply fill2_new (h.trans (Nat.mul_comm _ _)) _ _ (fun j i => m.get i j)
  · intro j i hj hi
    rw [Mat.toM_ofM, Mat.get_eq h m hi hj]; rfl
  · intro i j s; rfl

theorem hadamard_eq (h : n = r * c) (m m' : Mat F r c n) :
    m.hadamard m' = .ok (Mat.ofM h (Matrix.of fun i j => m.toM h i j * m'.toM h i j)) := by
  rw [Mat.hadamard]
  apply fill2_new h _ _ (fun i j => do let x ← m.get i j; let y ← m'.get i j; return x * y)
  · intro i j hi hj
    rw [Mat.toM_ofM, Mat.get_eq h m hi hj, Mat.get_eq h m' hi hj]; rfl
  · intro i j s
    cases h1 : m.get i j <;> cases h2 : m'.get i j <;> simp

theorem cofactors_eq (h : n = k * k) (m : Mat F k k n) :
    m.cofactors = .ok (Mat.ofM h (Matrix.of fun i j => (-1) ^ (i.val + j.val))) := by
  classical
  rw [Mat.cofactors]
  apply fill2_new h _ _ (fun i j => .ok ((-1) ^ (i + j)))
  · intro i j hi hj
    rw [Mat.toM_ofM, Matrix.of_apply]
  · intro i j s; rfl

theorem scale_eq (h : n = r * c) (m : Mat F r c n) (x : F) :
    m.scale x = .ok (Mat.ofM h (Matrix.of fun i j => m.toM h i j * x)) := by
  have hB : (Mat.ofM h (Matrix.of fun i j => m.toM h i j * x)).elements.toList
      = m.elements.toList.map (· * x) := by
    apply List.ext_getElem
    · simp
    · intro p h1 h2
      have hp : p < n := by simpa using h1
      simp only [Vector.getElem_toList, List.getElem_map, Mat.ofM, Vector.getElem_ofFn, Mat.toM, Matrix.of_apply]
      congr 2
      rw [Nat.mul_comm, Nat.div_add_mod]
  rw [Mat.scale]
  have := forList_spec (fun (q : Nat) (els : Vector F n) => ∀ p (hp : p < n), p < q →
      els[p] = m.elements[p] * x)
    (body := fun (e : F × Nat) els => aset els e.2 (e.1 * x)) m.elements.toList.zipIdx 0
    (Vector.replicate n 0) (fun _ _ hh => by omega) (by
      intro j hj els hinv
      have hj' : j < n := by simpa using hj
      refine ⟨els.set j (m.elements[j] * x) hj', ?_, ?_⟩
      · simp [aset_lt, hj']
      · intro p hp hp'
        rw [Vector.getElem_set]
        split
        · next heq => subst heq; rfl
        · next hne => exact hinv p hp (by omega))
  obtain ⟨els, h1, h2⟩ := this
  rw [h1, ok_bind]
  apply Mat.new_list h
  rw [hB]
  apply List.ext_getElem
  · simp
  · intro p hp1 hp2
    have hp : p < n := by simpa using hp1
    simpa using h2 p hp (by simpa using hp)

theorem Mat.set_eq (h : n = r * c) (m : Mat F r c n) {i j : Nat} (hi : i < r) (hj : j < c) (x : F) :
    m.set i j x = .ok (Mat.ofM h (Matrix.of fun a b => if a = ⟨i, hi⟩ ∧ b = ⟨j, hj⟩ then x else m.toM h a b)) := by
  have hlt := lt_of_lt_of_eq (flat_lt hi hj) h.symm
  rw [Mat.set, aset_lt _ _ hlt]
  simp only [ok_bind, pure_eq_ok]
  congr 1
  apply Mat.toM_injective h
  rw [Mat.toM_ofM]
  funext a b
  simp only [Mat.toM, Matrix.of_apply, Vector.getElem_set]
  have hb := b.isLt
  by_cases hab : a = ⟨i, hi⟩ ∧ b = ⟨j, hj⟩
  · obtain ⟨rfl, rfl⟩ := hab; simp
  · rw [if_neg hab, if_neg]
    intro heq
    apply hab
    have hc : 0 < c := by omega
    constructor
    · ext
      have := congrArg (· / c) heq
      simpa [Nat.mul_comm _ c, Nat.mul_add_div hc, Nat.div_eq_of_lt hb, Nat.div_eq_of_lt hj] using this.symm
    · ext
      have := congrArg (· % c) heq
      simpa [Nat.mul_comm _ c, Nat.mod_eq_of_lt hb, Nat.mod_eq_of_lt hj] using this.symm

theorem identity_eq (h : n = k * k) : Mat.identity F k n = .ok (Mat.ofM h (1 : Matrix (Fin k) (Fin k) F)) := by
  rw [Mat.identity, Mat.new_list h (⟨Vector.replicate n 0⟩ : Mat F k k n) _ rfl, ok_bind]
  obtain ⟨m, h1, h2⟩ := forRange_spec
    (fun q (m : Mat F k k n) => ∀ i j, m.toM h i j = if i = j ∧ i.val < q then 1 else 0)
    (body := fun i m => m.set i i 1) (lo := 0) (hi := k) (Nat.zero_le _) (s := ⟨Vector.replicate n 0⟩)
    (by intro i j; simp [Mat.toM]) (by
      intro q m _ hq hinv
      refine ⟨_, Mat.set_eq h m hq hq 1, ?_⟩
      intro i j
      rw [Mat.toM_ofM, Matrix.of_apply, hinv i j]
      by_cases h1 : i = ⟨q, hq⟩ ∧ j = ⟨q, hq⟩
      · obtain ⟨rfl, rfl⟩ := h1; simp
      · rw [if_neg h1]
        by_cases h2 : i = j
        · subst h2
          have : i.val ≠ q := fun hh => h1 ⟨Fin.ext hh, Fin.ext hh⟩
          congr 1
          simp only [true_and, eq_iff_iff]; omega
        · simp [h2])
  rw [h1]
  congr 1
  apply Mat.toM_injective h
  rw [Mat.toM_ofM]
  funext i j
  rw [h2 i j, Matrix.one_apply]
  simp [i.isLt]

/-- The rows of a well-formed matrix. -/
theorem iterRows_eq (hc : 0 < c) (h : n = r * c) (m : Mat F r c n) :
    m.iterRows = .ok (List.ofFn fun i : Fin r => List.ofFn fun j : Fin c => m.toM h i j) := by
  rw [Mat.iterRows, chunks_eq hc m.elements.toList (m := r) (by simpa using h)]
  congr 2
  funext i
  have hi := i.isLt
  apply List.ext_getElem
  · have := flat_lt hi (show c - 1 < c by omega)
    simp; omega
  · intro j h1 h2
    have hj : j < c := by simpa using h2
    simp [Mat.toM]

theorem dotProduct_ofFn (f g : Fin k → F) :
    dotProduct (List.ofFn f) (List.ofFn g) = .ok (∑ i, f i * g i) := by
  rw [dotProduct, if_neg (by simp), fsum_eq_sum]
  congr 1
  rw [← List.sum_ofFn]
  congr 1
  apply List.ext_getElem
  · simp
  · intro i h1 h2; simp

theorem matMul_eq {lr lc ln rc rn resN : Nat} (hl : ln = lr * lc) (hr : rn = lc * rc)
    (hres : resN = lr * rc) (hlc : 0 < lc) (lhs : Mat F lr lc ln) (rhs : Mat F lc rc rn) :
    matMul resN lhs rhs = .ok (Mat.ofM hres (lhs.toM hl * rhs.toM hr)) := by
  rw [matMul, transpose_eq hr, ok_bind, iterRows_eq hlc hl, ok_bind]
  set B : Mat F lr rc resN := Mat.ofM hres (lhs.toM hl * rhs.toM hr) with hB
  obtain ⟨s, h1, h2⟩ := forList_spec (fun q (s : Vector F resN × Nat) => Filled B.flat (q * rc) s)
    (body := fun row s => do
      let cols ← (Mat.ofM (hr.trans (Nat.mul_comm _ _)) (rhs.toM hr)ᵀ : Mat F rc lc rn).iterRows
      forList cols s fun column (x : Vector F resN × Nat) => do
        let d ← dotProduct row column
        let els ← aset x.1 x.2 d
        return (els, x.2 + 1))
    (List.ofFn fun i : Fin lr => List.ofFn fun j : Fin lc => lhs.toM hl i j) 0
    (Vector.replicate resN (0 : F), 0) (by rw [Nat.zero_mul]; exact Filled.zero _ _) (by
      intro i hi s hs
      have hi' : i < lr := by simpa using hi
      rw [iterRows_eq hlc (hr.trans (Nat.mul_comm _ _)), ok_bind, Mat.toM_ofM]
      obtain ⟨s', h3, h4⟩ := forList_spec
        (fun q (s : Vector F resN × Nat) => Filled B.flat ((0 + i) * rc + q) s)
        (body := fun column (x : Vector F resN × Nat) => do
          let d ← dotProduct (List.ofFn fun i : Fin lr => List.ofFn fun j : Fin lc => lhs.toM hl i j)[i] column
          let els ← aset x.1 x.2 d
          return (els, x.2 + 1))
        (List.ofFn fun j : Fin rc => List.ofFn fun l : Fin lc => (rhs.toM hr)ᵀ j l) 0 s (by simpa using hs) (by
          intro j hj s hs
          have hj' : j < rc := by simpa using hj
          simp only [List.getElem_ofFn, dotProduct_ofFn, ok_bind]
          have hlt := flat_lt hi' hj'
          obtain ⟨s'', h5, h6⟩ := hs.step (x := ∑ l, lhs.toM hl ⟨i, hi'⟩ l * (rhs.toM hr)ᵀ ⟨j, hj'⟩ l)
            (by simp only [Nat.zero_add] at hs ⊢; omega) (by
              simp only [Nat.zero_add]
              rw [Mat.flat_toM hres B hi' hj', hB, Mat.toM_ofM, Matrix.mul_apply]; rfl)
          exact ⟨s'', h5, by simpa [Nat.add_assoc] using h6⟩)
      refine ⟨s', h3, ?_⟩
      simpa [Nat.succ_mul] using h4)
  refine Eq.trans (congrArg (· >>= _) h1) ?_
  show Mat.new lr rc resN s.1.toList = _
  rw [h2.elements (by simp [hres]), Mat.new_elements hres]

/-! ### Determinant -/

/-- A strictly increasing enumeration skipping `i`, on naturals. -/
def skip (i a : Nat) : Nat := if a < i then a else a + 1

theorem skip_lt {i a k : Nat} (ha : a < k) : skip i a < k + 1 := by
  unfold skip; split <;> omega

theorem succAbove_val {k : Nat} (i : Fin (k + 1)) (a : Fin k) : (i.succAbove a).val = skip i.val a.val := by
  unfold skip Fin.succAbove
  simp only [Fin.lt_def, Fin.val_castSucc]
  split <;> simp

theorem detMinor_eq (h : n = (k + 1) * (k + 1)) (m : Mat F (k + 1) (k + 1) n) (i : Fin (k + 1)) :
    detMinor m k i = .ok (Mat.ofM rfl ((m.toM h).submatrix i.succAbove Fin.succ)) := by
  have hi := i.isLt
  rw [detMinor]
  set B : Mat F k k (k * k) := Mat.ofM rfl ((m.toM h).submatrix i.succAbove Fin.succ) with hB
  have key : ∀ a b (ha : a < k) (hb : b < k),
      m.get (skip i a) (b + 1) = .ok (B.flat (a * k + b)) := by
    intro a b ha hb
    rw [Mat.get_eq h m (skip_lt ha) (show b + 1 < k + 1 by omega), Mat.flat_toM rfl B ha hb, hB,
      Mat.toM_ofM, Matrix.submatrix_apply]
    congr 2
    ext; rw [succAbove_val]
  obtain ⟨s1, h1, h2⟩ := forRange_fill2 (g := B.flat) (ilo := 0) (ihi := i.val) (jlo := 1) (jhi := k + 1)
    (Nat.zero_le _) (by omega) (Filled.zero _ (Vector.replicate (k * k) (0 : F)))
    (by simp only [Nat.zero_add, Nat.add_sub_cancel, Nat.sub_zero]; exact Nat.mul_le_mul_right _ (by omega))
    (fun a b => m.get a b)
    (fun a b _ ha hb1 hb => by
      have := key a (b - 1) (by omega) (by omega)
      rw [show skip i a = a by simp [skip, ha], show b - 1 + 1 = b by omega] at this
      simpa using this)
    (body := fun a b s => m.get a b >>= fun x => do let els ← aset s.1 s.2 x; return (els, s.2 + 1))
    (fun a b s _ _ _ _ => rfl)
  obtain ⟨s2, h3, h4⟩ := forRange_fill2 (g := B.flat) (ilo := i.val + 1) (ihi := k + 1) (jlo := 1)
    (jhi := k + 1) (by omega) (by omega) h2
    (by
      have : i.val * k + (k - i.val) * k = k * k := by rw [← Nat.add_mul]; congr 1; omega
      simp only [Nat.zero_add, Nat.add_sub_cancel, Nat.sub_zero, Nat.add_sub_add_right]; omega)
    (fun a b => m.get a b)
    (fun a b ha1 ha hb1 hb => by
      have := key (a - 1) (b - 1) (by omega) (by omega)
      rw [show skip i (a - 1) = a by unfold skip; split <;> omega, show b - 1 + 1 = b by omega] at this
      rw [this]
      congr 2
      simp only [Nat.zero_add, Nat.add_sub_cancel, Nat.sub_zero]
      have h5 : a - 1 = i.val + (a - (i.val + 1)) := by omega
      conv_lhs => rw [h5]
      ring)
    (body := fun a b s => m.get a b >>= fun x => do let els ← aset s.1 s.2 x; return (els, s.2 + 1))
    (fun a b s _ _ _ _ => rfl)
  refine Eq.trans (congrArg (· >>= _) h1) ?_
  rw [ok_bind]
  refine Eq.trans (congrArg (· >>= _) h3) ?_
  show Mat.new k k (k * k) s2.1.toList = _
  rw [h4.elements, Mat.new_elements rfl]
  have : i.val * k + (k - i.val) * k = k * k := by rw [← Nat.add_mul]; congr 1; omega
  simp only [Nat.zero_add, Nat.add_sub_cancel, Nat.sub_zero, Nat.add_sub_add_right]; omega

theorem determinant_eq : ∀ (k : Nat) {n : Nat} (h : n = k * k) (m : Mat F k k n), 1 ≤ k → k ≤ 8 →
    determinant k m = .ok (m.toM h).det := by
  intro k
  induction k with
  | zero => intro n h m h1; omega
  | succ k ih =>
    cases k with
    | zero =>
      intro n h m _ _
      rw [determinant, Mat.get_eq h m (by omega) (by omega), Matrix.det_fin_one]; rfl
    | succ k =>
      intro n h m _ h8
      rw [determinant, if_neg (by omega)]
      have hm : ∀ i : Fin (k + 2), detMinor m (k + 1) i =
          .ok (Mat.ofM rfl ((m.toM h).submatrix i.succAbove Fin.succ)) := detMinor_eq h m
      obtain ⟨s, h1, h2⟩ := forRange_spec
        (fun q (s : F × Bool) => s.2 = decide (q % 2 = 0) ∧
          s.1 = ∑ i : Fin (k + 2), if i.val < q then
            (-1) ^ i.val * m.toM h i 0 * ((m.toM h).submatrix i.succAbove Fin.succ).det else 0)
        (body := fun i (s : F × Bool) => do
          let minor ← detMinor m (k + 1) i
          let det ←
            if s.2 then do
              let x ← m.get i 0
              let d ← determinant (k + 1) minor
              pure (s.1 + x * d)
            else do
              let x ← m.get i 0
              let d ← determinant (k + 1) minor
              pure (s.1 - x * d)
          return (det, !s.2)) (lo := 0) (hi := k + 2) (Nat.zero_le _) (s := (0, true)) (by simp) (by
          intro q s _ hq ⟨hs1, hs2⟩
          have hd := ih rfl (Mat.ofM rfl ((m.toM h).submatrix (⟨q, hq⟩ : Fin (k+2)).succAbove Fin.succ) :
            Mat F (k+1) (k+1) _) (by omega) (by omega)
          rw [Mat.toM_ofM] at hd
          have hsum : (∑ i : Fin (k + 2), if i.val < q + 1 then
              (-1) ^ i.val * m.toM h i 0 * ((m.toM h).submatrix i.succAbove Fin.succ).det else 0)
              = (∑ i : Fin (k + 2), if i.val < q then
              (-1) ^ i.val * m.toM h i 0 * ((m.toM h).submatrix i.succAbove Fin.succ).det else 0) +
              (-1) ^ q * m.toM h ⟨q, hq⟩ 0 * ((m.toM h).submatrix (⟨q, hq⟩ : Fin (k+2)).succAbove Fin.succ).det := by
            have : ∀ i : Fin (k + 2), (if i.val < q + 1 then
              (-1) ^ i.val * m.toM h i 0 * ((m.toM h).submatrix i.succAbove Fin.succ).det else 0)
              = (if i.val < q then
              (-1) ^ i.val * m.toM h i 0 * ((m.toM h).submatrix i.succAbove Fin.succ).det else 0)
              + (if i = ⟨q, hq⟩ then (-1) ^ q * m.toM h ⟨q, hq⟩ 0 *
                ((m.toM h).submatrix (⟨q, hq⟩ : Fin (k+2)).succAbove Fin.succ).det else 0) := by
              intro i
              by_cases h1 : i = ⟨q, hq⟩
              · subst h1; simp
              · have : i.val ≠ q := fun hh => h1 (Fin.ext hh)
                by_cases h2 : i.val < q
                · simp [h1, h2, Nat.lt_succ_of_lt h2]
                · have : ¬ i.val < q + 1 := by omega
                  simp [h1, h2, this]
            rw [Finset.sum_congr rfl (fun i _ => this i), Finset.sum_add_distrib]
            simp
          have hg : m.get q 0 = .ok (m.toM h ⟨q, hq⟩ 0) := Mat.get_eq h m hq (by omega)
          simp only [hm ⟨q, hq⟩, ok_bind, hg, hd, pure_eq_ok]
          rcases Nat.mod_two_eq_zero_or_one q with hpar | hpar
          · have : s.2 = true := by rw [hs1]; simp [hpar]
            refine ⟨(s.1 + m.toM h ⟨q, hq⟩ 0 * ((m.toM h).submatrix (⟨q, hq⟩ : Fin (k+2)).succAbove Fin.succ).det, false), by rw [this]; rfl, ?_, ?_⟩
            · simp; omega
            · rw [hsum, ← hs2, (Nat.even_iff.2 hpar).neg_one_pow, one_mul]
          · have : s.2 = false := by rw [hs1]; simp [hpar]
            refine ⟨(s.1 - m.toM h ⟨q, hq⟩ 0 * ((m.toM h).submatrix (⟨q, hq⟩ : Fin (k+2)).succAbove Fin.succ).det, true), by rw [this]; rfl, ?_, ?_⟩
            · simp; omega
            · rw [hsum, ← hs2, (Nat.odd_iff.2 hpar).neg_one_pow]; ring)
      refine Eq.trans (congrArg (· >>= _) h1) ?_
      rw [Matrix.det_succ_column_zero]
      show Except.ok s.1 = _
      rw [h2.2]
      congr 1
      exact Finset.sum_congr rfl (fun i _ => by rw [if_pos i.isLt])

end Poseidon
