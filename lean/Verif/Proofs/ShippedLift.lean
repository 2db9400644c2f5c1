import Verif.Proofs.ShippedCheck
import Verif.Proofs.Derived

/-! # Lifting the Boolean table checks to statements over `Fq` -/

set_option linter.unusedSectionVars false

namespace Poseidon

open Matrix

/-- Matrix over `Fq` of a row-major list of naturals. -/
def natM (r c : Nat) (l : List Nat) : Matrix (Fin r) (Fin c) Fq :=
  Matrix.of fun i j => ((ent c l i j : Nat) : Fq)

theorem vecM {r c n : Nat} (l : List Limbs) (h : l.length = n) (hn : n = r * c) :
    (Mat.toM hn ⟨vecOf n l h⟩ : Matrix (Fin r) (Fin c) Fq) = natM r c (canons l) := by
  ext i j
  rw [Mat.toM, Matrix.of_apply, vecOf_get]
  rfl

theorem beq_cast {a b : Nat} (h : Nat.beq a b = true) : a = b := Nat.eq_of_beq_eq_true h

theorem dotIs_cast {n : Nat} {f g : Nat → Nat} {c : Nat} (h : dotIs n f g c = true) :
    ∑ l : Fin n, (f l : Fq) * (g l : Fq) = (c : Fq) := by
  have h1 := beq_cast h
  have h2 := congrArg (Nat.cast (R := Fq)) h1
  rw [cast_mod, sumN_cast] at h2
  simpa using h2

theorem checkProd_cast {n : Nat} {a b : List Nat} {c : Nat → Nat → Nat} (h : checkProd n a b c = true) :
    natM n n a * natM n n b = Matrix.of fun (i j : Fin n) => ((c i j : Nat) : Fq) := by
  ext i j
  rw [Matrix.mul_apply]
  exact dotIs_cast (allN_iff.1 (allN_iff.1 h i i.isLt) j j.isLt)

theorem idN_cast (n : Nat) : (Matrix.of fun (i j : Fin n) => ((idN i j : Nat) : Fq)) = 1 := by
  ext i j
  rw [Matrix.of_apply, Matrix.one_apply, idN]
  by_cases h : i = j
  · subst h; simp
  · have : Nat.beq i.val j.val = false := by
      have : ¬ i.val = j.val := fun e => h (Fin.ext e)
      exact Bool.eq_false_iff.2 fun hh => this (beq_cast hh)
    rw [this, if_neg h]; simp

theorem checkDiag_cast {k : Nat} {a h : List Nat} (hc : checkDiag (k + 1) a h = true) :
    natM (k + 1) (k + 1) a = diag1 (natM k k h) := by
  ext i j
  have h1 := beq_cast (allN_iff.1 (allN_iff.1 hc i i.isLt) j j.isLt)
  rw [natM, Matrix.of_apply, h1]
  cases i using Fin.cases with
  | zero =>
    cases j using Fin.cases with
    | zero => simp [diag1]
    | succ j => simp [diag1]
  | succ i =>
    cases j using Fin.cases with
    | zero => simp [diag1]
    | succ j => simp [diag1, natM]

theorem mulFlat_ent {k : Nat} (a b : List Nat) {i j : Nat} (hi : i < k) (hj : j < k) :
    ent k (mulFlat k a b) i j = sumN k (fun l => ent k a i l * ent k b l j) % q := by
  have hp : i * k + j < k * k := flat_lt hi hj
  have h1 : (i * k + j) / k = i := by
    rw [Nat.mul_comm, Nat.mul_add_div (by omega), Nat.div_eq_of_lt hj]; rfl
  have h2 : (i * k + j) % k = j := by
    rw [Nat.mul_comm, Nat.mul_add_mod, Nat.mod_eq_of_lt hj]
  conv_lhs => rw [ent, mulFlat, nth_tabN _ hp]
  rw [h1, h2]

theorem mulFlat_cast (k : Nat) (a b : List Nat) : natM k k (mulFlat k a b) = natM k k a * natM k k b := by
  ext i j
  rw [Matrix.mul_apply, natM, Matrix.of_apply, mulFlat_ent a b i.isLt j.isLt, cast_mod, sumN_cast]
  simp [natM]

theorem powFlat_cast (k : Nat) (h : List Nat) (n : Nat) (a : List Nat) (f : List Nat → Bool)
    (hf : powFlat k h n a f = true) : ∃ p, f p = true ∧ natM k k p = natM k k a * natM k k h ^ n := by
  induction n generalizing a with
  | zero => exact ⟨a, hf, by simp⟩
  | succ n ih =>
    rw [powFlat, forceL_eq] at hf
    obtain ⟨p, h1, h2⟩ := ih _ hf
    exact ⟨p, h1, by rw [h2, mulFlat_cast, pow_succ', mul_assoc]⟩

theorem forceLL_eq {α : Type} (l : List (List Nat)) (f : List (List Nat) → α) : forceLL l f = f l := by
  induction l generalizing f with
  | nil => rfl
  | cons x xs ih =>
    show forceL x (fun x' => forceLL xs fun ys => f (x' :: ys)) = _
    rw [forceL_eq]
    exact ih _

theorem nthL_eq (l : List (List Nat)) (i : Nat) : nthL l i = l.getD i [] := by
  induction l generalizing i with
  | nil => simp [nthL]
  | cons x xs ih =>
    cases i with
    | zero => rfl
    | succ i => exact (ih i).trans (by simp)

theorem nthL_lt {l : List (List Nat)} {i : Nat} (h : i < l.length) : nthL l i = l[i] := by
  rw [nthL_eq]; simp [h]

theorem nth_rows {c : Nat} (hc : 0 < c) : ∀ (fuel : Nat) (l : List Nat) (r i : Nat), l.length ≤ fuel →
    i < c → r * c + i < l.length → nth (nthL (chunksAux c fuel l) r) i = nth l (r * c + i) := by
  intro fuel
  induction fuel with
  | zero => intro l r i h1 _ h3; omega
  | succ fuel ih =>
    intro l r i h1 h2 h3
    cases l with
    | nil => simp at h3
    | cons x xs =>
      cases r with
      | zero =>
        show nth ((x :: xs).take c) i = _
        rw [nth_eq, nth_eq]
        simp only [Nat.zero_mul, Nat.zero_add, List.getD_eq_getElem?_getD]
        rw [List.getElem?_take_of_lt h2]
      | succ r =>
        show nth (nthL (chunksAux c fuel ((x :: xs).drop c)) r) i = _
        rw [Nat.succ_mul] at h3
        rw [ih _ _ _ (by simp only [List.length_drop, List.length_cons] at *; omega) h2
          (by simp only [List.length_drop] at *; omega)]
        rw [nth_eq, nth_eq, List.getD_eq_getElem?_getD, List.getD_eq_getElem?_getD, List.getElem?_drop,
          Nat.succ_mul]
        congr 2
        omega

/-- Row `r` of a constants table as a vector over `Fq`. -/
def natRow (t : Nat) (f : Nat → Nat → Nat) (r : Nat) : Fin t → Fq := fun i => ((f r i : Nat) : Fq)

theorem nextD_cast {k : Nat} (mds d : List Nat) (c : Nat → Nat) (κ : Nat) (hc : ∀ l, l < k + 1 → c l ≤ q) :
    (fun i : Fin (k + 1) => ((nth (nextD (k + 1) mds d c κ) i : Nat) : Fq)) =
      (natM (k + 1) (k + 1) mds).mulVec ((fun i : Fin (k + 1) => ((nth d i : Nat) : Fq)) -
        (fun i : Fin (k + 1) => ((c i : Nat) : Fq)) + Pi.single 0 (κ : Fq)) := by
  funext i
  rw [nextD, nth_tabN _ i.isLt, cast_mod, Matrix.mulVec_add]
  rw [Nat.cast_add, sumN_cast, Pi.add_apply]
  congr 1
  · rw [Matrix.mulVec, _root_.dotProduct]
    apply Finset.sum_congr rfl
    intro j _
    rw [Nat.cast_mul, Nat.cast_add, Nat.cast_sub (hc j j.isLt)]
    simp [natM, sub_eq_add_neg]
  · simp [natM]

theorem checkArcLoop_cast {k : Nat} (mds : List Nat) (arc opt : Nat → Nat → Nat) (n : Nat)
    (r : Nat) (hq : ∀ r' l, r' < r + n → l < k + 1 → arc r' l ≤ q) (d : List Nat)
    (h : checkArcLoop (k + 1) mds arc opt n r d = true) :
    ∃ D : Nat → Fin (k + 1) → Fq, (D 0 = fun i : Fin (k + 1) => ((nth d i : Nat) : Fq)) ∧
      D n = natRow (k + 1) arc (r + n) ∧
      ∀ j, j < n → D j 0 = natRow (k + 1) arc (r + j) 0 ∧
        (natM (k + 1) (k + 1) mds).mulVec (D j - natRow (k + 1) arc (r + j) +
          Pi.single 0 (natRow (k + 1) opt (r + j + 1) 0)) = D (j + 1) := by
  induction n generalizing r d with
  | zero =>
    refine ⟨fun _ => fun i => ((nth d i : Nat) : Fq), rfl, ?_, fun j hj => by omega⟩
    funext i
    have := beq_cast (allN_iff.1 h i i.isLt)
    show ((nth d i : Nat) : Fq) = _
    rw [this]; rfl
  | succ n ih =>
    rw [checkArcLoop, Bool.and_eq_true, forceL_eq] at h
    obtain ⟨D, h0, h1, h2⟩ := ih (r + 1) (fun r' l h => hq r' l (by omega)) _ h.2
    refine ⟨fun j => Nat.casesOn j (fun i => ((nth d i : Nat) : Fq)) D, rfl, ?_, ?_⟩
    · show D n = _
      rw [h1]; congr 1; omega
    · intro j hj
      cases j with
      | zero =>
        refine ⟨?_, ?_⟩
        · have := beq_cast h.1
          show ((nth d 0 : Nat) : Fq) = _
          rw [this]; rfl
        · show _ = D 0
          rw [h0, nextD_cast _ _ _ _ (fun l hl => hq r l (by omega) hl)]
          rfl
      | succ j =>
        have := h2 j (by omega)
        rw [show r + 1 + j = r + (j + 1) by omega] at this
        exact this

theorem canon_lt (x : Limbs) : x.canon < q := Nat.mod_lt _ q_prime.pos

theorem canons_lt (l : List Limbs) (i : Nat) : nth (canons l) i < q := by
  rw [nth_eq, List.getD_eq_getElem?_getD]
  cases h : (canons l)[i]? with
  | none => rw [Option.getD_none]; exact q_prime.pos
  | some x =>
    rw [Option.getD_some]
    obtain ⟨y, _, rfl⟩ := List.mem_map.1 (List.mem_of_getElem? h)
    exact canon_lt y

/-- All tables of one rate are the ones its MDS matrix and round constants determine. -/
theorem shipped_derived {k : Nat} {r : RawTables} (hw : r.wf (k + 1) = true)
    (hc : checkTables (k + 1) r = true) :
    DerivedMds (k := k) (r.toParams hw) rfl rfl ∧ DerivedArc (k := k) (r.toParams hw) rfl rfl ∧
      ∀ i j : Fin (k + 1), Mat.toM rfl (r.toParams hw).mds i j * ((i.val + j.val + (k + 1) : Nat) : Fq) = 1 := by
  simp only [checkTables, forceL_eq, force_eq, forceLL_eq, Bool.and_eq_true] at hc
  obtain ⟨⟨⟨⟨⟨⟨⟨⟨hmds, hblocks⟩, ⟨⟨hdiag, hshape⟩, hprod⟩⟩, hinv⟩, hhinv⟩, hv⟩, hw'⟩, hmi⟩, harc⟩ := hc
  have W := RawTables.wf_iff hw
  simp only [Nat.add_sub_cancel] at hblocks hhinv hv hw' hmi hshape
  -- the tables as matrices
  have eMds : Mat.toM rfl (r.toParams hw).mds = natM (k + 1) (k + 1) (canons r.mds) := vecM _ _ _
  have eHat : (Mat.toM (r := k) (c := k) rfl (r.toParams hw).optimizedMds.mHat) = natM k k (canons r.mHat) :=
    vecM _ _ _
  have ePrime : Mat.toM rfl (r.toParams hw).optimizedMds.mPrime = natM (k + 1) (k + 1) (canons r.mPrime) :=
    vecM _ _ _
  have eDP : Mat.toM rfl (r.toParams hw).optimizedMds.mDoublePrime =
      natM (k + 1) (k + 1) (canons r.mDoublePrime) := vecM _ _ _
  have eInv : Mat.toM rfl (r.toParams hw).optimizedMds.mInverse =
      natM (k + 1) (k + 1) (canons r.mInverse) := vecM _ _ _
  have eHInv : (Mat.toM (r := k) (c := k) rfl (r.toParams hw).optimizedMds.mHatInverse) =
      natM k k (canons r.mHatInverse) := vecM _ _ _
  have eMi : Mat.toM rfl (r.toParams hw).optimizedMds.mI = natM (k + 1) (k + 1) (canons r.mI) :=
    vecM _ _ _
  have eArc : Mat.toM rfl (r.toParams hw).arc = natM 39 (k + 1) (canons r.arc) := vecM _ _ _
  have eOpt : Mat.toM rfl (r.toParams hw).optimizedArc = natM 39 (k + 1) (canons r.optimizedArc) :=
    vecM _ _ _
  have eV : ∀ j : Fin k, (r.toParams hw).optimizedMds.v.elements[j] = ((nth (canons r.v) j : Nat) : Fq) :=
    fun j => vecOf_get k _ W.2.2.2.1 j j.isLt
  have eW : ∀ j : Fin k, (r.toParams hw).optimizedMds.w.elements[j] = ((nth (canons r.w) j : Nat) : Fq) :=
    fun j => vecOf_get k _ W.2.2.2.2.1 j j.isLt
  have e00 : (r.toParams hw).optimizedMds.m00 = ((r.m00.canon : Nat) : Fq) := Limbs.toFq_eq _
  have eVs : ∀ (j : Nat) (h : j < 31) (i : Fin k), (r.toParams hw).optimizedMds.vCollection[j].elements[i] =
      ((nth (nthL (r.vCollection.map canons) j) i : Nat) : Fq) := by
    intro j hj i
    have hj' : j < r.vCollection.length := by omega
    rw [nthL_lt (by simpa using hj'), List.getElem_map]
    have hl : (r.vCollection[j]'hj').length = k := W.2.2.2.2.2.2.2.2.2.2.2.1 _ (List.getElem_mem _)
    rw [← vecOf_get k _ hl i i.isLt]
    simp [RawTables.toParams]
  have eWs : ∀ (j : Nat) (h : j < 31) (i : Fin k), (r.toParams hw).optimizedMds.wHatCollection[j].elements[i] =
      ((nth (nthL (r.wHatCollection.map canons) j) i : Nat) : Fq) := by
    intro j hj i
    have hj' : j < r.wHatCollection.length := by omega
    rw [nthL_lt (by simpa using hj'), List.getElem_map]
    have hl : (r.wHatCollection[j]'hj').length = k := W.2.2.2.2.2.2.2.2.2.2.2.2.2.1 _ (List.getElem_mem _)
    rw [← vecOf_get k _ hl i i.isLt]
    simp [RawTables.toParams]
  refine ⟨?_, ?_, ?_⟩
  · simp only [checkBlocks, Bool.and_eq_true, Nat.add_sub_cancel] at hblocks
    obtain ⟨⟨⟨b1, b2⟩, b3⟩, b4⟩ := hblocks
    simp only [checkSparseShape, Bool.and_eq_true, Nat.add_sub_cancel] at hshape
    obtain ⟨⟨s1, s2⟩, s3⟩ := hshape
    simp only [checkV, Bool.and_eq_true] at hv
    simp only [checkW, Bool.and_eq_true] at hw'
    constructor
    case mHat =>
      intro i j
      rw [eHat, eMds]
      simp only [natM, Matrix.of_apply]
      rw [beq_cast (allN_iff.1 (allN_iff.1 b1 i i.isLt) j j.isLt)]
      rfl
    case v =>
      intro j
      rw [eV, eMds, beq_cast (allN_iff.1 b2 j j.isLt)]; rfl
    case w =>
      intro i
      rw [eW, eMds, beq_cast (allN_iff.1 b3 i i.isLt)]; rfl
    case m00 => rw [e00, eMds, beq_cast b4]; rfl
    case mPrime => rw [ePrime, eHat, checkDiag_cast hdiag]
    case mDoublePrime =>
      refine ⟨fun i => natM (k + 1) (k + 1) (canons r.mDoublePrime) i.succ 0, ?_⟩
      rw [eDP]
      ext i j
      cases i using Fin.cases with
      | zero =>
        cases j using Fin.cases with
        | zero =>
          show ((ent (k + 1) (canons r.mDoublePrime) 0 0 : Nat) : Fq) = _
          rw [beq_cast s1]; exact e00.symm
        | succ j =>
          show ((ent (k + 1) (canons r.mDoublePrime) 0 (j + 1) : Nat) : Fq) = _
          rw [beq_cast (allN_iff.1 s2 j j.isLt)]; exact (eV j).symm
      | succ i =>
        cases j using Fin.cases with
        | zero => rfl
        | succ j =>
          show ((ent (k + 1) (canons r.mDoublePrime) (i + 1) (j + 1) : Nat) : Fq) = _
          rw [beq_cast (allN_iff.1 (allN_iff.1 s3 i i.isLt) j j.isLt)]
          have := congrFun (congrFun (idN_cast k) i) j
          rw [Matrix.of_apply, Matrix.one_apply] at this
          exact this
    case factor => rw [ePrime, eDP, eMds, checkProd_cast hprod]; rfl
    case mInverse => rw [eMds, eInv, checkProd_cast hinv, idN_cast]
    case mHatInverse => rw [eHat, eHInv, checkProd_cast hhinv, idN_cast]
    case vCollection =>
      have key : ∀ j, j < 31 → (fun i : Fin k => ((nth (nthL (r.vCollection.map canons) j) i : Nat) : Fq)) =
          (natM k k (canons r.mHat) ^ j).mulVec fun i => ((nth (canons r.w) i : Nat) : Fq) := by
        intro j
        induction j with
        | zero =>
          intro _
          rw [pow_zero, Matrix.one_mulVec]
          funext i
          rw [beq_cast (allN_iff.1 hv.1 i i.isLt)]
        | succ j ih =>
          intro hj
          rw [pow_succ', ← Matrix.mulVec_mulVec, ← ih (by omega)]
          funext i
          rw [← dotIs_cast (allN_iff.1 (allN_iff.1 hv.2 j (by omega)) i i.isLt)]
          rfl
      intro j hj
      rw [eHat, funext eW, ← key j hj]
      funext i
      exact eVs j hj i
    case wHatCollection =>
      have key : ∀ j, j < 31 → Matrix.vecMul
          (fun i : Fin k => ((nth (nthL (r.wHatCollection.map canons) j) i : Nat) : Fq))
          (natM k k (canons r.mHat) ^ (j + 1)) = fun i : Fin k => ((nth (canons r.v) i : Nat) : Fq) := by
        intro j
        induction j with
        | zero =>
          intro _
          rw [zero_add, pow_one]
          funext i
          rw [← dotIs_cast (allN_iff.1 hw'.1 i i.isLt)]
          rfl
        | succ j ih =>
          intro hj
          rw [pow_succ', ← Matrix.vecMul_vecMul, ← ih (by omega)]
          congr 1
          funext i
          rw [← dotIs_cast (allN_iff.1 (allN_iff.1 hw'.2 j (by omega)) i i.isLt)]
          rfl
      intro j hj
      rw [eHat, funext eV, ← key j hj]
      congr 1
      funext i
      exact eWs j hj i
    case mI =>
      obtain ⟨p, h1, h2⟩ := powFlat_cast _ _ _ _ _ hmi
      rw [eMi, eHat, checkDiag_cast h1, h2, ← pow_succ']
      rfl
  · have rowsEq : ∀ (l : List Limbs), l.length = 39 * (k + 1) → ∀ x, x < 39 → ∀ i : Fin (k + 1),
        nth (nthL (rowsL (k + 1) (canons l)) x) i = ent (k + 1) (canons l) x i := by
      intro l hl x hx i
      have hlen : (canons l).length = 39 * (k + 1) := by simpa [canons] using hl
      exact nth_rows (Nat.succ_pos k) _ _ _ _ (le_refl _) i.isLt
        (lt_of_lt_of_eq (flat_lt hx i.isLt) hlen.symm)
    have rA : ∀ x, x < 39 → rowFn rfl (r.toParams hw).arc x =
        natRow (k + 1) (fun x i => nth (nthL (rowsL (k + 1) (canons r.arc)) x) i) x := by
      intro x hx
      rw [rowFn, dif_pos hx]
      funext i
      rw [eArc, natRow, rowsEq _ W.1 x hx]
      rfl
    have rO : ∀ x, x < 39 → rowFn rfl (r.toParams hw).optimizedArc x =
        natRow (k + 1) (fun x i => nth (nthL (rowsL (k + 1) (canons r.optimizedArc)) x) i) x := by
      intro x hx
      rw [rowFn, dif_pos hx]
      funext i
      rw [eOpt, natRow, rowsEq _ W.2.2.2.2.2.2.2.2.2.2.2.2.2.2 x hx]
      rfl
    have rle : ∀ x l, x < 39 → l < k + 1 → nth (nthL (rowsL (k + 1) (canons r.arc)) x) l ≤ q := by
      intro x l hx hl
      rw [rowsEq _ W.1 x hx ⟨l, hl⟩]
      exact le_of_lt (canons_lt _ _)
    simp only [checkArc, Bool.and_eq_true, forceL_eq, Nat.add_sub_cancel] at harc
    obtain ⟨⟨⟨a1, a2⟩, a3⟩, a4⟩ := harc
    have hrF : (r.toParams hw).rounds.rF / 2 = 4 := by simp [RawTables.toParams]
    have hrP : (r.toParams hw).rounds.rP = 31 := rfl
    constructor
    case full_pre =>
      intro x hx
      rw [hrF] at hx
      rw [rA x (by omega), rO x (by omega)]
      funext i
      rw [natRow, natRow, beq_cast (allN_iff.1 (allN_iff.1 a1 x hx) i i.isLt)]
    case full_post =>
      intro x h1 h2
      rw [hrF, hrP] at h1 h2
      rw [rA x (by omega), rO x (by omega)]
      funext i
      have := beq_cast (allN_iff.1 (allN_iff.1 a2 (x - 35) (by omega)) i i.isLt)
      rw [show 4 + 31 + (x - 35) = x by omega] at this
      rw [natRow, natRow, this]
    case partial_zero =>
      intro x h1 h2 i
      rw [hrF] at h1
      rw [hrF, hrP] at h2
      rw [rO x (by omega), natRow]
      have := beq_cast (allN_iff.1 (allN_iff.1 a3 (x - 5) (by omega)) i i.isLt)
      rw [show 4 + (x - 5) + 1 = x by omega] at this
      rw [Fin.val_succ, this, Nat.cast_zero]
    case moved =>
      rw [hrF, hrP]
      obtain ⟨D, h0, h1, h2⟩ := checkArcLoop_cast _ _ _ _ _
        (fun x l hx hl => rle x l (by omega) hl) _ a4
      refine ⟨D, ?_, ?_, ?_⟩
      · rw [h0, rO 4 (by omega)]
        funext i
        rw [nth_tabN _ i.isLt]; rfl
      · rw [rA _ (by omega)]; exact h1
      · intro x hx
        rw [rA _ (by omega), rO _ (by omega), eMds]
        exact h2 x hx
  · intro i j
    rw [eMds]
    have h1 := beq_cast (allN_iff.1 (allN_iff.1 hmds i i.isLt) j j.isLt)
    have h2 := congrArg (Nat.cast (R := Fq)) h1
    rw [cast_mod, Nat.cast_mul, Nat.cast_one] at h2
    exact h2

end Poseidon
