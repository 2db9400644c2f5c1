import Verif.Proofs.StarkRuns
import Verif.Proofs.StarkRounds
import Verif.Props.Trail
import Mathlib.Tactic.FinCases

/-!
# C83: `vendor/generate_mds.sage`

The script that, by its own header, writes the parameters of the crate.
-/

namespace Poseidon

open Matrix

section
variable {F : Type} [Field F] {h : List Nat → Nat} {name : List Char} {m : Nat}

/-! ## What the script returns and raises -/

/-- **C83, the result.** For every field, hash function, name and size: the script returns the Cauchy matrix of the first attempt without
eigenvectors, if that is one of the attempts 0 to 99 and the elements of every attempt up to it are different. -/
theorem C83_returns (M : Matrix (Fin m) (Fin m) F) :
    Stark.generateMdsMatrix F h name m false = .ok M ↔
      ∃ a < 100, (∀ b ≤ a, StarkDistinct F h name m b) ∧ (∀ b < a, HasEigenvector (starkMatrix F h name m b)) ∧
        ¬ HasEigenvector (starkMatrix F h name m a) ∧ M = starkMatrix F h name m a := by
  rw [Stark.generateMdsMatrix, attempts_ok_iff]
  simp only [Nat.zero_add]

/-- **C83, the errors.** Otherwise it raises: at the first attempt with two equal elements, or after 100 matrices with eigenvectors.  The
assertions about the determinant never fail. -/
theorem C83_raises (e : Stark.Err) :
    Stark.generateMdsMatrix F h name m false = .error e ↔
      (e = .notDistinct ∧ ∃ a < 100, ¬ StarkDistinct F h name m a ∧
        ∀ b < a, StarkDistinct F h name m b ∧ HasEigenvector (starkMatrix F h name m b)) ∨
      (e = .noGoodMds ∧ ∀ b < 100, StarkDistinct F h name m b ∧ HasEigenvector (starkMatrix F h name m b)) := by
  rw [Stark.generateMdsMatrix, attempts_error_iff]
  simp only [Nat.zero_add]

/-- **C83, the matrix.** A returned matrix is MDS and has no eigenvector, as the comment of the function says. -/
theorem C83_mds {M : Matrix (Fin m) (Fin m) F} (hM : Stark.generateMdsMatrix F h name m false = .ok M) : IsMDS M ∧ ¬ HasEigenvector M := by
  obtain ⟨a, -, h1, -, h2, rfl⟩ := (C83_returns M).1 hM
  exact ⟨(h1 a le_rfl).isMDS, h2⟩

/-- With every name and hash function, some field is too small for size 2: a run that raises -/
example (h : List Nat → Nat) : Stark.generateMdsMatrix (ZMod 3) h ['M'] 2 false = .error .notDistinct := by
  refine (C83_raises _).2 (.inl ⟨rfl, 0, by norm_num, fun d => ?_, fun b hb => by omega⟩)
  have h1 := d.rows 0 1
  have h2 := d.columns 0 1
  have h3 := d.both 0 0
  have h4 := d.both 0 1
  have h5 := d.both 1 0
  have h6 := d.both 1 1
  generalize starkRows (ZMod 3) h ['M'] 2 0 0 = a at *
  generalize starkRows (ZMod 3) h ['M'] 2 0 1 = b at *
  generalize starkColumns (ZMod 3) h ['M'] 2 0 0 = c at *
  generalize starkColumns (ZMod 3) h ['M'] 2 0 1 = e at *
  have h1 : a ≠ b := fun e => absurd (h1 e) (by decide)
  have h2 : c ≠ e := fun e => absurd (h2 e) (by decide)
  revert a b c e
  decide

/-- Every matrix of size 1 has an eigenvector, so this size always ends with an error. -/
example (h : List Nat → Nat) (M : Matrix (Fin 1) (Fin 1) Fq) : Stark.generateMdsMatrix Fq h ['M'] 1 false ≠ .ok M := by
  intro hM
  refine (C83_mds hM).2 ⟨M 0 0, fun _ => 1, fun h0 => one_ne_zero (congrFun h0 0), ?_⟩
  ext i
  fin_cases i
  simp [mulVec, _root_.dotProduct]

/-! ## Inactive trails -/

/-- **C83, trails.** For two and three words, a returned matrix leaves no difference outside word 0 for good: every non-zero vector reaches
word 0 within `m - 1` multiplications.  (So the check of eigenvectors does, for these sizes, what the authors' matrix tests are for.) -/
theorem C83_trail {M : Matrix (Fin m) (Fin m) F} (hm : m = 2 ∨ m = 3) (hM : Stark.generateMdsMatrix F h name m false = .ok M)
    (v : Fin m → F) (hv : v ≠ 0) : ∃ n < m, ∃ i : Fin m, i.val = 0 ∧ ((M ^ n).mulVec v) i ≠ 0 := by
  obtain ⟨hmds, hno⟩ := C83_mds hM
  have entry : ∀ i j, M i j ≠ 0 := fun i j => by
    have := hmds 1 (fun _ => i) (fun _ => j) (fun a b _ => Subsingleton.elim _ _) (fun a b _ => Subsingleton.elim _ _)
    simpa [Matrix.det_unique] using this
  by_contra hcon
  push Not at hcon
  rcases hm with rfl | rfl
  · have e0 : v 0 = 0 := by simpa using hcon 0 (by norm_num) 0 rfl
    have e1 : (M *ᵥ v) 0 = 0 := by simpa using hcon 1 (by norm_num) 0 rfl
    have e1' : M 0 1 * v 1 = 0 := by simpa [mulVec, _root_.dotProduct, Fin.sum_univ_two, e0] using e1
    apply hv
    ext i
    fin_cases i
    · exact e0
    · exact (mul_eq_zero.1 e1').resolve_left (entry 0 1)
  · have e0 : v 0 = 0 := by simpa using hcon 0 (by norm_num) 0 rfl
    have e1 : (M *ᵥ v) 0 = 0 := by simpa using hcon 1 (by norm_num) 0 rfl
    have e2 : (M *ᵥ (M *ᵥ v)) 0 = 0 := by simpa [pow_two, Matrix.mulVec_mulVec] using hcon 2 (by norm_num) 0 rfl
    set w := M *ᵥ v with hw
    have f1 : M 0 1 * v 1 + M 0 2 * v 2 = 0 := by
      have := e1; rw [hw] at this; simpa [mulVec, _root_.dotProduct, Fin.sum_univ_three, e0] using this
    have f2 : M 0 1 * w 1 + M 0 2 * w 2 = 0 := by simpa [mulVec, _root_.dotProduct, Fin.sum_univ_three, e1] using e2
    have hv2 : v 2 ≠ 0 := by
      intro h2
      rw [h2, mul_zero, add_zero] at f1
      apply hv
      ext i
      fin_cases i
      · exact e0
      · exact (mul_eq_zero.1 f1).resolve_left (entry 0 1)
      · exact h2
    apply hno
    refine ⟨w 2 / v 2, v, hv, ?_⟩
    rw [← hw]
    ext i
    fin_cases i
    · show w 0 = w 2 / v 2 * v 0
      rw [e0, e1, mul_zero]
    · show w 1 = w 2 / v 2 * v 1
      rw [div_mul_eq_mul_div, eq_div_iff hv2]
      apply mul_left_cancel₀ (entry 0 1)
      linear_combination v 2 * f2 - w 2 * f1
    · show w 2 = w 2 / v 2 * v 2
      rw [div_mul_cancel₀ _ hv2]

/-- Its hypotheses are met for both sizes (`C83_run`). -/
example : (∃ M, Stark.generateMdsMatrix Fq Sha256.sha256 hadesMds 2 false = .ok M) ∧
    ∃ M, Stark.generateMdsMatrix Fq Sha256.sha256 hadesMds 3 false = .ok M := ⟨⟨_, generate2⟩, ⟨_, generate3⟩⟩

/-! ## `optimize_mds=True` -/

/-- **C83, the option.** With `optimize_mds=True` (the default of the function, which the script overrides) the result does not depend on
the elements: three and four words have fixed matrices of zeros and ones, any other size is an error. -/
theorem C83_optimized :
    Stark.generateMdsMatrix F h name m true =
      open Classical in
      if StarkDistinct F h name m 0 then
        if m = 3 then .ok (Matrix.of fun i j => if (j.val + m - i.val) % 3 = 1 then 0 else 1)
        else if m = 4 then .ok (Matrix.of fun i j => if i = j then 0 else 1)
        else .error .runtimeError
      else .error .notDistinct := by
  classical
  rw [Stark.generateMdsMatrix, Stark.attempts]
  simp only [injective_elim_iff]
  by_cases d : StarkDistinct F h name m 0
  · rw [if_neg (not_not.2 d), if_pos d, if_pos trivial]
    by_cases h3 : m = 3
    · rw [if_pos h3, if_pos h3]
      subst h3
      congr 1
      ext i j
      fin_cases i <;> fin_cases j <;> rfl
    · rw [if_neg h3, if_neg h3]
      by_cases h4 : m = 4
      · rw [if_pos h4, if_pos h4]
        congr 1
        ext i j
        simp only [Stark.near4, Matrix.of_apply, ne_eq, ite_not, eq_comm]
      · rw [if_neg h4, if_neg h4]
  · rw [if_pos d, if_neg d]

/-- Over the scalar field, with SHA-256, the hypotheses of the next three theorems are met. -/
example : (∃ M, Stark.generateMdsMatrix Fq Sha256.sha256 hadesMds 3 true = .ok M) ∧
    ∃ M, Stark.generateMdsMatrix Fq Sha256.sha256 hadesMds 4 true = .ok M := by
  rw [C83_optimized, C83_optimized, if_pos (starkCauchyN_sound stark3_0).1, if_pos (starkCauchyN_sound stark4_0).1]
  exact ⟨⟨_, rfl⟩, ⟨_, rfl⟩⟩

theorem near3_mulVec (v : Fin 3 → F) : (Stark.near3 : Matrix (Fin 3) (Fin 3) F) *ᵥ v = ![v 0 + v 2, v 0 + v 1, v 1 + v 2] := by
  ext i; fin_cases i <;> simp [Stark.near3, mulVec, _root_.dotProduct, Fin.sum_univ_three]

theorem near4_mulVec (v : Fin 4 → F) : (Stark.near4 : Matrix (Fin 4) (Fin 4) F) *ᵥ v =
    ![v 1 + v 2 + v 3, v 0 + v 2 + v 3, v 0 + v 1 + v 3, v 0 + v 1 + v 2] := by
  ext i; fin_cases i <;> simp [Stark.near4, mulVec, _root_.dotProduct, Fin.sum_univ_four]

theorem optimized3 {M : Matrix (Fin 3) (Fin 3) F} (hM : Stark.generateMdsMatrix F h name 3 true = .ok M) : M = Stark.near3 := by
  classical
  rw [Stark.generateMdsMatrix, Stark.attempts] at hM
  simp only [injective_elim_iff] at hM
  split at hM
  · cases hM
  · rw [if_pos trivial, if_pos trivial] at hM
    injection hM with hM
    exact hM.symm

theorem optimized4 {M : Matrix (Fin 4) (Fin 4) F} (hM : Stark.generateMdsMatrix F h name 4 true = .ok M) : M = Stark.near4 := by
  classical
  rw [Stark.generateMdsMatrix, Stark.attempts] at hM
  simp only [injective_elim_iff] at hM
  split at hM
  · cases hM
  · rw [if_pos trivial, if_neg (by norm_num), if_pos trivial] at hM
    injection hM with hM
    exact hM.symm

/-- **C83, near-MDS.** The matrices of the option are near-MDS, as the comment says, over every field: two states that differ have at least
`m` differing words before and after the matrix together, one less than for an MDS matrix, and `m` is reached. -/
theorem C83_optimized_branch [DecidableEq F] {M : Matrix (Fin m) (Fin m) F} (hM : Stark.generateMdsMatrix F h name m true = .ok M) :
    (∀ x y : Fin m → F, x ≠ y → m ≤ diffWords x y + diffWords (M.mulVec x) (M.mulVec y)) ∧
      ∃ x y : Fin m → F, x ≠ y ∧ diffWords x y + diffWords (M.mulVec x) (M.mulVec y) = m := by
  have hm : m = 3 ∨ m = 4 := by
    classical
    rw [C83_optimized] at hM
    by_contra hcon
    rw [not_or] at hcon
    split at hM
    · rw [if_neg hcon.1, if_neg hcon.2] at hM; cases hM
    · cases hM
  rcases hm with rfl | rfl
  · obtain rfl := optimized3 hM
    refine ⟨fun x y hne => ?_, ![1, 0, 0], 0, fun h0 => one_ne_zero (congrFun h0 0), ?_⟩
    · have h' : ¬ (x 0 = y 0 ∧ x 1 = y 1 ∧ x 2 = y 2) := by
        rintro ⟨a, b, c⟩; apply hne; ext i; fin_cases i <;> assumption
      rw [near3_mulVec, near3_mulVec]
      simp only [diffWords, Finset.card_filter, Fin.sum_univ_three, Matrix.cons_val_zero, Matrix.cons_val_one, Matrix.cons_val]
      grind
    · rw [near3_mulVec, near3_mulVec]
      simp [diffWords, Finset.card_filter, Fin.sum_univ_three]
  · obtain rfl := optimized4 hM
    refine ⟨fun x y hne => ?_, ![1, 0, 0, 0], 0, fun h0 => one_ne_zero (congrFun h0 0), ?_⟩
    · have h' : ¬ (x 0 = y 0 ∧ x 1 = y 1 ∧ x 2 = y 2 ∧ x 3 = y 3) := by
        rintro ⟨a, b, c, d⟩; apply hne; ext i; fin_cases i <;> assumption
      rw [near4_mulVec, near4_mulVec]
      simp only [diffWords, Finset.card_filter, Fin.sum_univ_four, Matrix.cons_val_zero, Matrix.cons_val_one, Matrix.cons_val]
      grind
    · rw [near4_mulVec, near4_mulVec]
      simp [diffWords, Finset.card_filter, Fin.sum_univ_four]

/-- **C83, the option is not a permutation in every field.** The matrix for three words has determinant 2, that for four words -3: the
script does not check either, although the fields with two and three elements are not the only ones of these characteristics. -/
theorem C83_optimized_det {M : Matrix (Fin m) (Fin m) F} (hM : Stark.generateMdsMatrix F h name m true = .ok M) :
    (m = 3 ∧ M.det = 2) ∨ (m = 4 ∧ M.det = -3) := by
  have hm : m = 3 ∨ m = 4 := by
    classical
    rw [C83_optimized] at hM
    by_contra hcon
    rw [not_or] at hcon
    split at hM
    · rw [if_neg hcon.1, if_neg hcon.2] at hM; cases hM
    · cases hM
  rcases hm with rfl | rfl
  · refine .inl ⟨rfl, ?_⟩
    rw [optimized3 hM, Matrix.det_fin_three]
    simp [Stark.near3]
    norm_num
  · refine .inr ⟨rfl, ?_⟩
    rw [optimized4 hM, Matrix.det_succ_row_zero]
    simp [Fin.sum_univ_succ, Matrix.det_fin_three, Stark.near4, Fin.succAbove]
    norm_num

/-- **C83, a weak option.** With the matrix for four words, over every field, the difference (0, 1, -1, 0) stays outside word 0 for any number
of multiplications (it only changes sign), so it passes all partial rounds without an active S-box; with the matrix for three words every
difference reaches word 0 after at most two. -/
theorem C83_optimized_trail {M : Matrix (Fin m) (Fin m) F} (hM : Stark.generateMdsMatrix F h name m true = .ok M) :
    (m = 3 ∧ ∀ v : Fin m → F, v ≠ 0 → ∃ n < 3, ∃ i : Fin m, i.val = 0 ∧ ((M ^ n).mulVec v) i ≠ 0) ∨
    (m = 4 ∧ ∃ v : Fin m → F, v ≠ 0 ∧ ∀ n, ∀ i : Fin m, i.val = 0 → ((M ^ n).mulVec v) i = 0) := by
  rcases C83_optimized_det hM with ⟨rfl, -⟩ | ⟨rfl, -⟩
  · refine .inl ⟨rfl, fun v hv => ?_⟩
    rw [optimized3 hM]
    by_contra hcon
    push Not at hcon
    have e0 := hcon 0 (by norm_num) 0 rfl
    have e1 := hcon 1 (by norm_num) 0 rfl
    have e2 := hcon 2 (by norm_num) 0 rfl
    rw [pow_zero, Matrix.one_mulVec] at e0
    rw [pow_one, near3_mulVec] at e1
    rw [pow_two, ← Matrix.mulVec_mulVec, near3_mulVec, near3_mulVec] at e2
    simp only [Matrix.cons_val_zero, Matrix.cons_val] at e1 e2
    have f2 : v 2 = 0 := by linear_combination e1 - e0
    have f1 : v 1 = 0 := by linear_combination e2 - e1 - f2
    apply hv
    ext i
    fin_cases i <;> assumption
  · refine .inr ⟨rfl, ![0, 1, -1, 0], fun h0 => one_ne_zero (congrFun h0 1), ?_⟩
    rw [optimized4 hM]
    have key : ∀ n, (Stark.near4 : Matrix (Fin 4) (Fin 4) F) ^ n *ᵥ ![0, 1, -1, 0] = (-1 : F) ^ n • ![0, 1, -1, 0] := by
      intro n
      induction n with
      | zero => simp
      | succ n ih =>
        rw [pow_succ', ← Matrix.mulVec_mulVec, ih, Matrix.mulVec_smul, near4_mulVec, pow_succ, mul_smul]
        congr 1
        ext i
        fin_cases i <;> simp
    intro n i hi
    obtain rfl : i = 0 := Fin.ext hi
    rw [key n]
    simp

end

/-! ## The five runs of the script -/

/-- The script returns the matrix `M` for `m` words: the Cauchy matrix of attempt `a` with SHA-256 over the scalar field, which is MDS, has no
eigenvector, leaves no difference outside word 0, and passes the three tests of the authors of Poseidon. -/
structure StarkRun (k a : Nat) (M : Matrix (Fin (k + 1)) (Fin (k + 1)) Fq) : Prop where
  run : Stark.generateMdsMatrix Fq Sha256.sha256 ("HadesMDS".toList) (k + 1) false = .ok M
  attempt : M = starkMatrix Fq Sha256.sha256 ("HadesMDS".toList) (k + 1) a
  mds : IsMDS M
  eigen : ¬ HasEigenvector M
  trail : ∀ v : Fin (k + 1) → Fq, v ≠ 0 → ∃ n < k + 1, ((M ^ n).mulVec v) 0 ≠ 0
  test1 : algorithm1 M = (true, 0)
  test2 : algorithm2 M = true
  test3 : algorithm3 M = true

theorem starkRun_of {k a : Nat} (hk : 1 ≤ k) {T N NT cs : List (List Nat)} {L r : List Nat}
    (h1 : Stark.generateMdsMatrix Fq Sha256.sha256 hadesMds (k + 1) false = .ok (starkMatrix Fq Sha256.sha256 hadesMds (k + 1) a))
    (h2 : starkCauchyN Sha256.sha256 hadesMds (k + 1) a T = true) (h3 : starkTestsN (k + 1) T L N NT r cs = true) :
    StarkRun k a (starkMatrix Fq Sha256.sha256 hadesMds (k + 1) a) := by
  obtain ⟨t0, t1, t2, t3⟩ := starkTestsN_sound hk h3
  have e := (starkCauchyN_sound h2).2
  have hname : "HadesMDS".toList = hadesMds := by decide +kernel
  refine ⟨by rw [hname]; exact h1, by rw [hname], (C83_mds h1).1, (C83_mds h1).2, fun v hv => ?_, by rw [e]; exact t1, by rw [e]; exact t2, by rw [e]; exact t3⟩
  obtain ⟨n, hn, i, hi, hne⟩ := t0 v hv
  obtain rfl : i = 0 := Fin.ext hi
  exact ⟨n, hn, by rw [e]; exact hne⟩

/-- **C83, the runs.** For arities 1 to 5 over the scalar field the script returns the matrices of its attempts 0, 0, 2, 1 and 1. -/
theorem C83_run : (∃ M, StarkRun 1 0 M) ∧ (∃ M, StarkRun 2 0 M) ∧ (∃ M, StarkRun 3 2 M) ∧ (∃ M, StarkRun 4 1 M) ∧ ∃ M, StarkRun 5 1 M :=
  ⟨⟨_, starkRun_of (by norm_num) generate2 stark2_0 stark2_tests⟩, ⟨_, starkRun_of (by norm_num) generate3 stark3_0 stark3_tests⟩,
    ⟨_, starkRun_of (by norm_num) generate4 stark4_2 stark4_tests⟩, ⟨_, starkRun_of (by norm_num) generate5 stark5_1 stark5_tests⟩,
    ⟨_, starkRun_of (by norm_num) generate6 stark6_1 stark6_tests⟩⟩

/-- `T` and the matrix of the crate differ in the first entry. -/
def differsN (t : Nat) (T : List (List Nat)) : Bool := !Nat.beq (nth (nthL T 0) 0 * t % q) 1

theorem differsN_sound {k : Nat} {T : List (List Nat)} (hk : ((k + 1 : Nat) : Fq) ≠ 0) (h : differsN (k + 1) T = true) :
    toFqM (k + 1) T ≠ cauchyMds Fq (k + 1) := by
  intro e
  have e0 := congrFun (congrFun e 0) 0
  rw [toFqM, cauchyMds, Matrix.of_apply, Matrix.of_apply] at e0
  rw [differsN, Bool.not_eq_true'] at h
  have h1 := Nat.ne_of_beq_eq_false h
  have e1 : (nth (nthL T 0) 0 : Fq) * ((k + 1 : Nat) : Fq) = 1 := by
    have e2 : (nth (nthL T 0) 0 : Fq) = ((k + 1 : Nat) : Fq)⁻¹ := by simpa using e0
    rw [e2, inv_mul_cancel₀ hk]
  apply h1
  have e3 : ((nth (nthL T 0) 0 * (k + 1) % q : Nat) : Fq) = ((1 : Nat) : Fq) := by
    rw [cast_mod]; push_cast; push_cast at e1; exact e1
  exact cast_inj_lt (Nat.mod_lt _ (by norm_num [q])) (by norm_num [q]) e3

/-- **C83, not the crate's matrices.** The matrices of the script are not the ones the crate ships: running it as its header says would change
every hash. -/
theorem C83_not_shipped (i : Fin 7) (hi : i.val ≤ 4) (M : Matrix (Fin (i.val + 2)) (Fin (i.val + 2)) Fq)
    (h : Stark.generateMdsMatrix Fq Sha256.sha256 ("HadesMDS".toList) (i.val + 2) false = .ok M) : M ≠ (shippedParams i).mds.toM rfl := by
  rw [shipped_mds_cauchy]
  have hname : "HadesMDS".toList = hadesMds := by decide +kernel
  rw [hname] at h
  have hq : ∀ n : Nat, n < 6 → ((n + 1 : Nat) : Fq) ≠ 0 := fun n hn h0 => by
    have := cast_inj_lt (a := n + 1) (b := 0) (by norm_num [q]; omega) (by norm_num [q]) (by rw [h0, Nat.cast_zero])
    omega
  obtain ⟨i, hi7⟩ := i
  obtain rfl | rfl | rfl | rfl | rfl : i = 0 ∨ i = 1 ∨ i = 2 ∨ i = 3 ∨ i = 4 := by simp only at hi; omega
  · obtain rfl : starkMatrix Fq Sha256.sha256 hadesMds 2 0 = M := Except.ok.inj (generate2.symm.trans h)
    rw [(starkCauchyN_sound stark2_0).2]; exact differsN_sound (hq 1 (by norm_num)) (by decide +kernel)
  · obtain rfl : starkMatrix Fq Sha256.sha256 hadesMds 3 0 = M := Except.ok.inj (generate3.symm.trans h)
    rw [(starkCauchyN_sound stark3_0).2]; exact differsN_sound (hq 2 (by norm_num)) (by decide +kernel)
  · obtain rfl : starkMatrix Fq Sha256.sha256 hadesMds 4 2 = M := Except.ok.inj (generate4.symm.trans h)
    rw [(starkCauchyN_sound stark4_2).2]; exact differsN_sound (hq 3 (by norm_num)) (by decide +kernel)
  · obtain rfl : starkMatrix Fq Sha256.sha256 hadesMds 5 1 = M := Except.ok.inj (generate5.symm.trans h)
    rw [(starkCauchyN_sound stark5_1).2]; exact differsN_sound (hq 4 (by norm_num)) (by decide +kernel)
  · obtain rfl : starkMatrix Fq Sha256.sha256 hadesMds 6 1 = M := Except.ok.inj (generate6.symm.trans h)
    rw [(starkCauchyN_sound stark6_1).2]; exact differsN_sound (hq 5 (by norm_num)) (by decide +kernel)

/-! ## The hashed strings -/

theorem label_inj {n₁ n₂ : List Char} (h₁ : ∀ c ∈ n₁, c.isDigit = false) (h₂ : ∀ c ∈ n₂, c.isDigit = false) {i₁ i₂ : Nat}
    (h : Stark.label n₁ i₁ = Stark.label n₂ i₂) : n₁ = n₂ ∧ i₁ = i₂ := by
  have h' : n₁ ++ Nat.toDigits 10 i₁ = n₂ ++ Nat.toDigits 10 i₂ :=
    List.map_injective_iff.2 (fun a b hab => Char.toNat_inj.1 hab) h
  have key : ∀ (n : List Char) (i : Nat), (∀ c ∈ n, c.isDigit = false) →
      (n ++ Nat.toDigits 10 i).takeWhile (fun c => !c.isDigit) = n := by
    intro n i hn
    obtain ⟨d, ds, hd⟩ : ∃ d ds, Nat.toDigits 10 i = d :: ds := List.exists_cons_of_ne_nil Nat.toDigits_ne_nil
    have hdd : d.isDigit = true := Nat.isDigit_of_mem_toDigits (b := 10) (n := i) (by norm_num) le_rfl (by rw [hd]; exact List.mem_cons_self)
    induction n with
    | nil => rw [List.nil_append, hd, List.takeWhile_cons, hdd]; rfl
    | cons c n ih =>
      rw [List.cons_append, List.takeWhile_cons, hn c List.mem_cons_self]
      simp only [Bool.not_false, if_true]
      rw [ih fun x hx => hn x (List.mem_cons_of_mem _ hx)]
  have e : n₁ = n₂ := by rw [← key n₁ i₁ h₁, h', key n₂ i₂ h₂]
  refine ⟨e, ?_⟩
  rw [e, List.append_cancel_left_eq] at h'
  rw [← Nat.ofDigitChars_ten_toDigits (n := i₁), h', Nat.ofDigitChars_ten_toDigits]

/-- **C83, the hashed strings.** In one run for one size no string is hashed for two purposes: the round constants (round `i`, word `j`), the
row elements and the column elements (attempt `i`, place `j`) all come from different strings. -/
theorem C83_inputs {n₁ n₂ : List Char} (h₁ : n₁ ∈ ["Hades".toList, "HadesMDSx".toList, "HadesMDSy".toList])
    (h₂ : n₂ ∈ ["Hades".toList, "HadesMDSx".toList, "HadesMDSy".toList]) {t i₁ j₁ i₂ j₂ : Nat} (hj₁ : j₁ < t) (hj₂ : j₂ < t)
    (h : Stark.label n₁ (t * i₁ + j₁) = Stark.label n₂ (t * i₂ + j₂)) : n₁ = n₂ ∧ i₁ = i₂ ∧ j₁ = j₂ := by
  have nodigit : ∀ n ∈ ["Hades".toList, "HadesMDSx".toList, "HadesMDSy".toList], ∀ c ∈ n, c.isDigit = false := by decide +kernel
  obtain ⟨e, e'⟩ := label_inj (nodigit _ h₁) (nodigit _ h₂) h
  refine ⟨e, ?_, ?_⟩
  · have a := congrArg (· / t) e'
    simp only [Nat.mul_add_div (by omega : t > 0), Nat.div_eq_of_lt hj₁, Nat.div_eq_of_lt hj₂] at a
    omega
  · have a := congrArg (· % t) e'
    simp only [Nat.mul_add_mod, Nat.mod_eq_of_lt hj₁, Nat.mod_eq_of_lt hj₂] at a
    exact a

/-- **C83, shared constants.** The string does not contain the size: written in one row, the round constants of the script for every size are
the beginning of the same sequence.  (The crate puts the size into its transcript.) -/
theorem C83_constants_shared (F : Type) [Field F] (h : List Nat → Nat) (t i j : Nat) :
    Stark.ark F h t i j = starkElement F h "Hade".toList 's' (t * i + j) := by
  rw [Stark.ark, Stark.roundConstant, starkElement, Stark.label]
  have e : "Hade".toList ++ ['s'] = ['H', 'a', 'd', 'e', 's'] := by decide +kernel
  rw [e]

/-- The constant of word 0 in round 1 for two words is that of word 2 in round 0 for three words. -/
example (F : Type) [Field F] (h : List Nat → Nat) : Stark.ark F h 2 1 0 = Stark.ark F h 3 0 2 := by
  rw [C83_constants_shared, C83_constants_shared]

/-! ## SHA-256: test vectors -/

example : Sha256.sha256 ("".toList.map Char.toNat) = 0xe3b0c44298fc1c149afbf4c8996fb92427ae41e4649b934ca495991b7852b855 := by decide +kernel
example : Sha256.sha256 ("abc".toList.map Char.toNat) = 0xba7816bf8f01cfea414140de5dae2223b00361a396177a9cb410ff61f20015ad := by decide +kernel
example : Sha256.sha256 ("abcdbcdecdefdefgefghfghighijhijkijkljklmklmnlmnomnopnopq".toList.map Char.toNat) =
    0x248d6a61d20638b8e5c026930c3e6039a33ce45964ff2167f6ecedd419db06c1 := by decide +kernel

/-! ## Round numbers -/

/-- **C83, round numbers.** For the five states of the script, S-box 17, 128 bits and the scalar field: 8 full rounds, and fewer partial
rounds than the 31 of the crate for every width but three, because the script takes the logarithm of the field size to the base of the
number of words. -/
theorem C83_rounds :
    Stark.numRounds q 128 17 1 2 q = .ok (8, 30) ∧ Stark.numRounds q 128 17 1 3 q = .ok (8, 31) ∧
    Stark.numRounds q 128 17 1 4 q = .ok (8, 30) ∧ Stark.numRounds q 128 17 1 5 q = .ok (8, 26) ∧
    Stark.numRounds q 128 17 1 6 q = .ok (8, 23) :=
  ⟨numRounds_of minRounds2 (by norm_num) (by norm_num) (by norm_num), numRounds_of minRounds3 (by norm_num) (by norm_num) (by norm_num),
    numRounds_of minRounds4 (by norm_num) (by norm_num) (by norm_num), numRounds_of minRounds5 (by norm_num) (by norm_num) (by norm_num),
    numRounds_of minRounds6 (by norm_num) (by norm_num) (by norm_num)⟩

/-- **C83, round numbers and the paper.** For six words the script's numbers do not meet the paper's inequalities for 128 bits, security margin
included; for the other widths they do. -/
theorem C83_rounds_paper (t rP : Nat) (ht : 2 ≤ t ∧ t ≤ 6) (h : Stark.numRounds q 128 17 1 t q = .ok (8, (rP : ℤ))) :
    Spec.SecurePower 0 128 (Real.logb 2 q) t 17 rP 8 ↔ t ≠ 6 := by
  rw [securePower_iff (by omega) (by omega)]
  obtain ⟨h2, h3, h4, h5, h6⟩ := C83_rounds
  obtain rfl | rfl | rfl | rfl | rfl : t = 2 ∨ t = 3 ∨ t = 4 ∨ t = 5 ∨ t = 6 := by omega
  · rw [h2] at h; injection h with h; injection h with _ h; omega
  · rw [h3] at h; injection h with h; injection h with _ h; omega
  · rw [h4] at h; injection h with h; injection h with _ h; omega
  · rw [h5] at h; injection h with h; injection h with _ h; omega
  · rw [h6] at h; injection h with h; injection h with _ h; omega

/-- **C83, the minimum.** Before the margin, the number that the script calls the minimum meets the inequalities only for three words. -/
theorem C83_rounds_minimum (t rP : Nat) (ht : 2 ≤ t ∧ t ≤ 6) (h : Stark.minNumRounds 128 17 t q = 6 + (rP : ℤ)) :
    Spec.SecurePower 0 128 (Real.logb 2 q) t 17 rP 6 ↔ t = 3 := by
  rw [securePower_iff (by omega) (by omega)]
  obtain rfl | rfl | rfl | rfl | rfl : t = 2 ∨ t = 3 ∨ t = 4 ∨ t = 5 ∨ t = 6 := by omega
  · rw [minRounds2] at h; omega
  · rw [minRounds3] at h; omega
  · rw [minRounds4] at h; omega
  · rw [minRounds5] at h; omega
  · rw [minRounds6] at h; omega

/-- The hypotheses of the last two theorems for six words -/
example : Stark.numRounds q 128 17 1 6 q = .ok (8, ((23 : Nat) : ℤ)) ∧ Stark.minNumRounds 128 17 6 q = 6 + ((21 : Nat) : ℤ) :=
  ⟨C83_rounds.2.2.2.2, minRounds6⟩

/-- Other hypotheses are met too: 127 bits of the field are not enough. -/
example : Stark.numRounds (2 ^ 127 - 1) 128 17 1 2 (2 ^ 127 - 1) = .error .fieldTooSmall := by
  rw [Stark.numRounds, if_pos]
  rw [one_mul, Nat.size_le]; norm_num

end Poseidon
