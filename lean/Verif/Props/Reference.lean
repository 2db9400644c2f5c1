import Verif.Props.Sage
import Verif.Model.SageAuthors
import Verif.Proofs.AuthorVectors
import Verif.Props.Generator

/-!
# The crate and the reference scripts, for all parameters (C81)

`permutation.rs` says that its two algorithms are those of the authors' scripts.  C65 compares them for the shipped parameters of
rate 2.  Here the parameters are arbitrary.
-/

namespace Poseidon

open scoped Matrix

variable {F : Type} [Field F] [DecidableEq F] {k : Nat}

/-- The parameter sets with the array sizes that fit the globals of a script. -/
abbrev SageGlobals.Fitting (g : SageGlobals F k) : Type :=
  Params F (k + 1) k ((k + 1) * (k + 1)) (k * k) (g.rF + g.rP) (k + 1) ((g.rF + g.rP) * (k + 1)) g.rP

/-- The parameter set has the exponent, round numbers, matrix and round constants of the script. -/
structure SageGlobals.Loaded (g : SageGlobals F k) (p : g.Fitting) : Prop where
  alpha : p.alpha = .exponent g.alpha
  rounds : p.rounds = ⟨g.rP, g.rF⟩
  mds : ∀ i j, p.mds.toM rfl i j = g.mds i j
  arc : ∀ r j, g.roundConstants[r.val * (k + 1) + j.val]? = some (p.arc.toM rfl r j)

/-- The parameter set has the matrices `m` and constants `T` a script computed for its optimized permutation.  The script multiplies
vectors from the left, so `M_i` is transposed. -/
structure SageGlobals.LoadedOptimized (g : SageGlobals F k) (p : g.Fitting) (m : SageMatrices F k) (T : List (Fin (k + 1) → F)) :
    Prop where
  m00 : p.optimizedMds.m00 = g.mds 0 0
  mI : p.optimizedMds.mI.toM rfl = m.mIᵀ
  vCollection : p.optimizedMds.vCollection.toList.map (fun v i => v.elements[i]) = m.vCollection
  wHatCollection : p.optimizedMds.wHatCollection.toList.map (fun w i => w.elements[i]) = m.wHatCollection
  arc : (List.finRange (g.rF + g.rP)).map (fun r j => p.optimizedArc.toM rfl r j) = T

variable {g : SageGlobals F k} {p : g.Fitting}

theorem loaded_rows (h : g.Valid) (hl : g.Loaded p) (r : Nat) :
    listRow (sageRows k g.roundConstants) r = rowFn rfl p.arc r := by
  by_cases hr : r < g.rF + g.rP
  · rw [rowFn, dif_pos hr]
    funext j
    rw [listRow_sageRows _ (by rw [h.rows]; exact hr), List.getD_eq_getElem?_getD, hl.arc ⟨r, hr⟩ j]
    rfl
  · rw [rowFn, dif_neg hr, listRow, List.getD_eq_getElem?_getD, List.getElem?_eq_none, Option.getD_none]
    rw [sageRows_length, h.rows]
    exact Nat.le_of_not_lt hr

theorem loaded_textbook (h : g.Valid) (hl : g.Loaded p) (hrows) (x : Fin (k + 1) → F) :
    ∃ y, g.permOriginal x = .ok y ∧
      textbook p.alpha (p.mds.toM rfl) (p.rounds.rF / 2) p.rounds.rP
        (fun r => p.arc.toM rfl ⟨r.val, lt_of_lt_of_le r.isLt hrows⟩) x = some y := by
  obtain ⟨y, h1, h2⟩ := C65_original g h x
  refine ⟨y, h1, ?_⟩
  rw [← h2]
  refine textbook_congr hl.alpha (Matrix.ext hl.mds) (by rw [hl.rounds]) (by rw [hl.rounds]) ?_ x
  intro r hr hr'
  funext j
  have := hl.arc ⟨r, lt_of_lt_of_le hr hrows⟩ j
  obtain ⟨_, h5⟩ := List.getElem?_eq_some_iff.1 this
  exact h5.symm

omit [DecidableEq F] in
theorem loaded_rowsLe (h : g.Valid) (hl : g.Loaded p) : p.rounds.rF / 2 + p.rounds.rP + p.rounds.rF / 2 ≤ g.rF + g.rP := by
  rw [hl.rounds]
  have := h.even
  dsimp only
  omega

/-- **C81, the simple permutation.** An instance with the parameters of a script returns, from `unoptimized_n_to_1_fixed_hash`, word 1
of `perm_original` of the script, and has all its words in `output_words`: for every field, width, exponent, round numbers, matrix,
constants, input and earlier state. -/
theorem C81_unoptimized (h : g.Valid) (hl : g.Loaded p) (hk : 1 ≤ k) (s : Vector F (k + 1)) (x : Fin (k + 1) → F) :
    ∃ y inst, g.permOriginal x = .ok y ∧ Instance.unoptimizedNTo1FixedHash ⟨p, s⟩ (Vector.ofFn x) = .ok (y ⟨1, by omega⟩, inst) ∧
      inst.outputWords = Vector.ofFn y := by
  have hrows := loaded_rowsLe h hl
  obtain ⟨y, h1, h2⟩ := loaded_textbook h hl hrows x
  refine ⟨y, ⟨p, Vector.ofFn y⟩, h1, ?_, rfl⟩
  rw [Instance.unoptimizedNTo1FixedHash, setState_eq, ok_bind]
  dsimp only
  rw [unoptimizedPermute_eq p (by omega) rfl rfl hrows x, h2, reported, ok_bind, aget_lt _ (by omega), ok_bind]
  show Except.ok _ = _
  congr 2
  rw [Vector.getElem_ofFn]

theorem loaded_consistent (h : g.Valid) (hl : g.Loaded p) {m : SageMatrices F k} {T : List (Fin (k + 1) → F)}
    (hm : g.calcEquivalentMatrices = .ok m) (hT : g.calcEquivalentConstants g.roundConstants = .ok T)
    (ho : g.LoadedOptimized p m T) : Consistent p rfl rfl := by
  have hrF : p.rounds.rF = g.rF := by rw [hl.rounds]
  have hrP : p.rounds.rP = g.rP := by rw [hl.rounds]
  have he := h.even
  have hp := h.rp_pos
  obtain ⟨m', m1, m2, m3, m4⟩ := sage_matrices_eq g h
  obtain rfl : m' = m := Except.ok.inj (m1.symm.trans hm)
  obtain ⟨T', t1, t2, t3⟩ := sage_constants_eq g h
  obtain rfl : T' = T := Except.ok.inj (t1.symm.trans hT)
  have hA : p.mds.toM rfl = g.mds := Matrix.ext hl.mds
  have hrow : ∀ r, r < g.rF + g.rP →
      rowFn rfl p.optimizedArc r = optArc g.mds (rowFn rfl p.arc) (g.rF / 2 + g.rP - 1) (g.rP - 1) r := by
    intro r hr
    have h1 := t3 r
    rw [funext (loaded_rows h hl)] at h1
    rw [← h1, listRow, ← ho.arc, List.getD_eq_getElem?_getD, List.getElem?_map, rowFn, dif_pos hr]
    simp [hr]
  have hV : ∀ j (hj : j < g.rP), (fun i : Fin k => p.optimizedMds.vCollection[j].elements[i]) = (hatM g.mds ^ j) *ᵥ colM g.mds := by
    intro j hj
    have h1 := congrArg (fun l => l[j]?) (ho.vCollection.trans m3)
    simpa [hj] using h1
  have hW : ∀ j (hj : j < g.rP), (fun i : Fin k => p.optimizedMds.wHatCollection[j].elements[i]) =
      ((hatM g.mds)ᵀ ^ (j + 1))⁻¹ *ᵥ rowM g.mds := by
    intro j hj
    have h1 := congrArg (fun l => l[j]?) (ho.wHatCollection.trans m4)
    simpa [hj] using h1
  have rel := sage_optRel g h (c := rowFn rfl p.arc)
  refine { rows_le := loaded_rowsLe h hl, rp_pos := by omega, rp_le := by omega, rel := ?_, full_pre := ?_, full_post := ?_ }
  · rw [hA, hrP, hrF]
    obtain ⟨⟨A, a1, a2, a3⟩, ⟨d, d1, d2, d3⟩⟩ := rel
    refine ⟨⟨A, a1, ?_, ?_⟩, ⟨d, ?_, d2, ?_⟩⟩
    · rw [← a2, ho.mI, m2, diag1_transpose, Matrix.transpose_pow, Matrix.transpose_transpose]
    · intro j hj
      rw [a3 j hj, storedSparse, dif_pos hj, hV j hj, hW j hj, ho.m00]
    · rw [d1, hrow _ (by omega)]
    · intro r hr
      have := d3 r hr
      rw [hrow _ (by omega)]
      exact this
  · intro r hr
    rw [hrF] at hr
    rw [hrow r (by omega), optArc, if_neg (by omega), if_neg (by omega)]
  · intro r hr1 hr2
    rw [hrF, hrP] at hr1 hr2
    rw [hrow r (by omega), optArc, if_neg (by omega), if_neg (by omega)]

/-- **C81, the optimized permutation.** An instance that also has the matrices and constants a script computes returns, from
`n_to_1_fixed_hash`, word 1 of `perm` of the script. -/
theorem C81_optimized (h : g.Valid) (hl : g.Loaded p) (hk : 1 ≤ k) {m : SageMatrices F k} {T : List (Fin (k + 1) → F)}
    (hm : g.calcEquivalentMatrices = .ok m) (hT : g.calcEquivalentConstants g.roundConstants = .ok T)
    (ho : g.LoadedOptimized p m T) (s : Vector F (k + 1)) (x : Fin (k + 1) → F) :
    ∃ y inst, g.perm x = .ok y ∧ Instance.nTo1FixedHash ⟨p, s⟩ (Vector.ofFn x) = .ok (y ⟨1, by omega⟩, inst) ∧
      inst.outputWords = Vector.ofFn y := by
  obtain ⟨y, inst, h1, h2, h3⟩ := C81_unoptimized h hl hk s x
  refine ⟨y, inst, (C65_optimized g h x).trans h1, ?_, h3⟩
  rw [← h2]
  exact hash_agree p s _ (permute_agree p rfl rfl (loaded_consistent h hl hm hT ho) _)

/-- **C81, the tables.** When the generator of the crate returns optimized matrices and constants, they are those the script computes. -/
theorem C81_generator (debug : Bool) (h : g.Valid) (hl : g.Loaded p)
    (ho : mdsGenerateOptimized debug (k * k) p.mds ⟨g.rP, g.rF⟩ = .ok p.optimizedMds)
    (hoa : arcGenerateOptimized debug p.arc p.mds ⟨g.rP, g.rF⟩ = .ok p.optimizedArc) :
    ∃ m T, g.calcEquivalentMatrices = .ok m ∧ g.calcEquivalentConstants g.roundConstants = .ok T ∧ g.LoadedOptimized p m T := by
  obtain ⟨security, alpha, rounds, mds, arc, oarc, o⟩ := p
  have hr := hl.rounds
  dsimp only at hr ho hoa
  subst hr
  have he := h.even
  obtain ⟨hk, h8, hrp, hdet, hdetA, -, -⟩ := (mdsGenerateOptimized_ok_iff debug rfl rfl mds ⟨g.rP, g.rF⟩ o).1 ho
  have d : DerivedMds (genParams security alpha ⟨g.rP, g.rF⟩ mds arc oarc o) rfl rfl :=
    genParams_derivedMds debug rfl rfl security alpha ⟨g.rP, g.rF⟩ mds arc oarc o ho
  have hA : mds.toM rfl = g.mds := Matrix.ext hl.mds
  obtain ⟨m, h1, h2, h3, h4⟩ := sage_matrices_eq g h
  obtain ⟨T, t1, t2, t3⟩ := sage_constants_eq g h
  rw [funext (loaded_rows h hl)] at t3
  have hH : o.mHat.toM rfl = hatM g.mds := by
    rw [← hA]
    ext a b; exact d.mHat a b
  have hw : (fun i => o.w.elements[i] : Fin k → F) = colM g.mds := by
    rw [← hA]
    funext i; exact d.w i
  have hv : (fun i => o.v.elements[i] : Fin k → F) = rowM g.mds := by
    rw [← hA]
    funext i; exact d.v i
  have hu : IsUnit (hatM g.mds).det := isUnit_iff_ne_zero.2 h.detHat
  refine ⟨m, T, h1, t1, { m00 := ?_, mI := ?_, vCollection := ?_, wHatCollection := ?_, arc := ?_ }⟩
  · exact d.m00.trans (hl.mds 0 0)
  · have := d.mI
    rw [genParams] at this
    dsimp only at this
    rw [hH] at this
    rw [h2, diag1_transpose, Matrix.transpose_pow, Matrix.transpose_transpose]
    exact this
  · rw [h3]
    apply List.ext_getElem
    · simp
    · intro j hj1 hj2
      have hj : j < g.rP := by simpa using hj2
      have := d.vCollection j hj
      rw [genParams] at this
      dsimp only at this
      rw [hH, hw] at this
      simp only [List.getElem_map, List.getElem_range, Vector.getElem_toList]
      exact this
  · rw [h4]
    apply List.ext_getElem
    · simp
    · intro j hj1 hj2
      have hj : j < g.rP := by simpa using hj2
      have := d.wHatCollection j hj
      rw [genParams] at this
      dsimp only at this
      rw [hH, hv] at this
      simp only [List.getElem_map, List.getElem_range, Vector.getElem_toList]
      rw [← this, ← Matrix.mulVec_transpose, Matrix.transpose_pow, Matrix.mulVec_mulVec, Matrix.nonsing_inv_mul,
        Matrix.one_mulVec]
      rw [Matrix.det_pow, Matrix.det_transpose]
      exact hu.pow _
  · obtain ⟨T', t4, t5⟩ := arcGenerateOptimized_eq debug rfl rfl h8 arc mds ⟨g.rP, g.rF⟩ hdetA (g.rF / 2 + g.rP - 1)
      (by show g.rF / 2 + g.rP - 1 + 1 + g.rF / 2 = g.rP + g.rF; have := h.rp_pos; omega)
      (by show g.rF / 2 ≤ g.rF / 2 + g.rP - 1; have := h.rp_pos; omega) (by have := h.rp_pos; omega)
    obtain rfl : T' = oarc := Except.ok.inj (t4.symm.trans hoa)
    apply List.ext_getElem
    · rw [t2]; simp
    · intro r hr1 hr2
      have hr : r < g.rF + g.rP := by simpa using hr1
      have h7 := t5 r hr
      rw [show g.rF / 2 + g.rP - 1 - (⟨g.rP, g.rF⟩ : RoundNumbers).rF / 2 = g.rP - 1 by
        show g.rF / 2 + g.rP - 1 - g.rF / 2 = g.rP - 1; have := h.rp_pos; omega, hA] at h7
      have h8 : listRow T r = T[r] := by
        rw [listRow, List.getD_eq_getElem?_getD, List.getElem?_eq_getElem hr2]; rfl
      rw [← h8, t3 r, ← h7, rowFn, dif_pos hr]
      simp

/-- The shipped parameters of rate 2 and the script of the repository meet the hypotheses: the parameters are loaded … -/
theorem sageScript_loaded : sageScript.Loaded rate2Params where
  alpha := shipped_alpha 1
  rounds := shipped_rounds 1
  mds := fun i j => (congrFun (congrFun C65_mds i) j).symm
  arc := C65_constants

/-- … and so are the tables the script computes. -/
theorem sageScript_loadedOptimized : ∃ m T, sageScript.calcEquivalentMatrices = .ok m ∧
    sageScript.calcEquivalentConstants sageScript.roundConstants = .ok T ∧ sageScript.LoadedOptimized rate2Params m T := by
  obtain ⟨m, h1, h2, h3, h4⟩ := C65_matrices
  obtain ⟨T, t1, t2⟩ := C65_equivalent_constants
  have d : DerivedMds (k := 2) rate2Params rfl rfl := (shippedAll 1).1
  exact ⟨m, T, h1, t1, ⟨d.m00.trans (sageScript_loaded.mds 0 0), h2.symm, h3.symm, h4.symm, t2.symm⟩⟩

example (s : Vector Fq 3) (x : Fin 3 → Fq) : ∃ y inst, sageScript.perm x = .ok y ∧
    Instance.nTo1FixedHash ⟨rate2Params, s⟩ (Vector.ofFn x) = .ok (y 1, inst) ∧ inst.outputWords = Vector.ofFn y := by
  obtain ⟨m, T, h1, h2, h3⟩ := sageScript_loadedOptimized
  exact C81_optimized sageScript_valid sageScript_loaded (by decide) h1 h2 h3 s x

/-! ## The scripts with the simple permutation -/

section Simple

variable {t tm1 nhat rows npart : Nat}

/-- The parameter set has the exponent, round numbers, matrix and round constants of the script. -/
structure SimpleGlobals.Loaded (g : SimpleGlobals F t) (p : Params F t tm1 (t * t) nhat rows t (rows * t) npart) : Prop where
  alpha : p.alpha = .exponent g.alpha
  rounds : p.rounds = ⟨g.rP, g.rF⟩
  mds : ∀ i j, p.mds.toM rfl i j = g.mds i j
  arc : p.arc.elements.toList = g.roundConstants

theorem simple_perm_eq {g : SimpleGlobals F t} {p : Params F t tm1 (t * t) nhat rows t (rows * t) npart} (ht : 0 < t)
    (h : g.Loaded p) (s : Vector F t) : unoptimizedPermute p s = g.perm s := by
  have hA : p.mds.toM rfl = g.mds := Matrix.ext h.mds
  have hget : ∀ c, aget p.arc.elements c = lget g.roundConstants c := by
    intro c
    rw [← h.arc, aget, lget]
    by_cases hc : c < rows * t
    · rw [dif_pos hc, List.getElem?_eq_getElem (by simpa using hc)]
      simp
    · rw [dif_neg hc, List.getElem?_eq_none (by simpa using hc)]
  have hadd : ∀ st : Vector F t × Nat, addLinear p.arc st = g.addConstants st := by
    intro st
    rw [addLinear, SimpleGlobals.addConstants]
    simp only [hget]
  have hmix : ∀ s : Vector F t, mixLayer p.mds s = .ok (Vector.ofFn (g.mds *ᵥ fun i => s[i])) := by
    intro s
    conv_lhs => rw [← ofFn_get s]
    rw [mixLayer_eq ht rfl, hA]
  have hfull : ∀ st : Vector F t × Nat, (do
      let (s, counter) ← addLinear p.arc st
      let s ← fullSubWords p.alpha s
      let s ← mixLayer p.mds s
      return (s, counter)) = g.fullRound st := by
    intro st
    rw [SimpleGlobals.fullRound, hadd]
    simp only [fullSubWords, h.alpha, sbox, ok_bind, hmix]
  have hpart : ∀ st : Vector F t × Nat, (do
      let (s, counter) ← addLinear p.arc st
      let s ← partialSubWords p.alpha s
      let s ← mixLayer p.mds s
      return (s, counter)) = g.partialRound st := by
    intro st
    rw [SimpleGlobals.partialRound, hadd]
    simp only [partialSubWords, h.alpha, sbox, ok_bind, hmix, bind_assoc]
  rw [unoptimizedPermute, SimpleGlobals.perm]
  simp only [hfull, hpart, h.rounds, RoundNumbers.full, RoundNumbers.partialRounds]

/-- **C81, the scripts with exponent 5.** `unoptimized_n_to_1_fixed_hash` of an instance with the parameters of such a script ends as
`perm` of the script does: it returns word 1 of the result and keeps all words, or fails if there are too few constants.  Every field, width,
exponent, round numbers, matrix, constants, input and earlier state. -/
theorem C81_simple {g : SimpleGlobals F t} {p : Params F t tm1 (t * t) nhat rows t (rows * t) npart} (ht : 2 ≤ t)
    (h : g.Loaded p) (s x : Vector F t) :
    Instance.unoptimizedNTo1FixedHash ⟨p, s⟩ x = (g.perm x).map fun y => (y[1], ⟨p, y⟩) := by
  rw [Instance.unoptimizedNTo1FixedHash, setState_eq, ok_bind]
  dsimp only
  rw [simple_perm_eq (by omega) h]
  cases g.perm x with
  | error e => rfl
  | ok y =>
    rw [ok_bind, aget_lt _ (by omega), ok_bind]
    rfl

/-- A parameter set with the tables of a script, and zeros for the optimized tables. -/
def SimpleGlobals.params (g : SimpleGlobals F t) (hlen : g.roundConstants.length = rows * t) :
    Params F t 0 (t * t) 0 rows t (rows * t) 0 where
  security := 0
  alpha := .exponent g.alpha
  rounds := ⟨g.rP, g.rF⟩
  mds := Mat.ofM rfl g.mds
  arc := ⟨⟨g.roundConstants.toArray, by simpa using hlen⟩⟩
  optimizedArc := ⟨Vector.replicate _ 0⟩
  optimizedMds :=
    { mHat := ⟨Vector.replicate _ 0⟩, w := ⟨Vector.replicate _ 0⟩, v := ⟨Vector.replicate _ 0⟩, mPrime := ⟨Vector.replicate _ 0⟩
      mDoublePrime := ⟨Vector.replicate _ 0⟩, mInverse := ⟨Vector.replicate _ 0⟩, mHatInverse := ⟨Vector.replicate _ 0⟩
      m00 := 0, mI := ⟨Vector.replicate _ 0⟩, vCollection := Vector.replicate _ ⟨Vector.replicate _ 0⟩
      wHatCollection := Vector.replicate _ ⟨Vector.replicate _ 0⟩ }

omit [DecidableEq F] in
theorem SimpleGlobals.params_loaded (g : SimpleGlobals F t) (hlen : g.roundConstants.length = rows * t) :
    g.Loaded (g.params hlen) :=
  ⟨rfl, rfl, fun i j => by rw [SimpleGlobals.params, Mat.toM_ofM], rfl⟩

/-- **C81.** With enough constants `perm` returns, and computes the textbook permutation. -/
theorem C81_simple_textbook (g : SimpleGlobals F t) (ht : 0 < t) (hlen : g.roundConstants.length = rows * t)
    (hrows : g.rF / 2 + g.rP + g.rF / 2 ≤ rows) (x : Fin t → F) :
    ∃ y, g.perm (Vector.ofFn x) = .ok (Vector.ofFn y) ∧
      textbook (.exponent g.alpha) g.mds (g.rF / 2) g.rP (fun r j => g.roundConstants[r.val * t + j.val]'(by
        rw [hlen]; exact flat_lt (lt_of_lt_of_le r.isLt hrows) j.isLt)) x = some y := by
  have h := g.params_loaded hlen
  have h1 := simple_perm_eq ht h (Vector.ofFn x)
  rw [unoptimizedPermute_eq _ ht rfl rfl hrows] at h1
  have h2 : textbook (.exponent g.alpha) g.mds (g.rF / 2) g.rP (fun r j => g.roundConstants[r.val * t + j.val]'(by
        rw [hlen]; exact flat_lt (lt_of_lt_of_le r.isLt hrows) j.isLt)) x =
      textbook (g.params hlen).alpha ((g.params hlen).mds.toM rfl) ((g.params hlen).rounds.rF / 2) (g.params hlen).rounds.rP
        (fun r => (g.params hlen).arc.toM rfl ⟨r.val, lt_of_lt_of_le r.isLt hrows⟩) x :=
    textbook_congr rfl (Matrix.ext h.mds).symm rfl rfl (fun _ _ _ => rfl) x
  rw [← h2] at h1
  have h3 := textbook_exponent g.alpha g.mds (g.rF / 2) g.rP (fun r j => g.roundConstants[r.val * t + j.val]'(by
        rw [hlen]; exact flat_lt (lt_of_lt_of_le r.isLt hrows) j.isLt)) x
  rw [h3] at h1 ⊢
  exact ⟨_, h1.symm, rfl⟩

end Simple

namespace Authors

/-- The modulus in poseidonperm_x3_64_24_optimized.sage:9 -/
def p64 : Nat := 2 ^ 64 - 2 ^ 8 - 1

theorem prime_16561424618041 : Nat.Prime 16561424618041 := by
  apply lucas_of_check _ 22 [(2, 3), (3, 1), (5, 1), (17, 1), (881, 1), (1913, 1), (4817, 1)] (by decide +kernel) (by decide +kernel)
  · intro f hf
    fin_cases hf <;> norm_num
  · decide +kernel
  · decide +kernel
  · decide +kernel

theorem p64_prime : Nat.Prime p64 := by
  apply lucas_of_check _ 7 [(2, 1), (11, 1), (197, 1), (257, 1), (16561424618041, 1)] (by decide +kernel) (by decide +kernel)
  · intro f hf
    fin_cases hf <;> first | exact prime_16561424618041 | norm_num
  · decide +kernel
  · decide +kernel
  · decide +kernel

instance : Fact (Nat.Prime p64) := ⟨p64_prime⟩

/-- `ys` distinct modulo `p` -/
def distinctN (p t : Nat) (l : List Nat) : Bool :=
  allN t fun i => allN i fun j => !Nat.beq (nth l i % p) (nth l j % p)

/-- `m` is the matrix `1 / (xs i + ys j)`, and the `xs` and the `ys` are distinct -/
def cauchyN (p t : Nat) (m xs ys : List Nat) : Bool :=
  distinctN p t xs && distinctN p t ys && allN t fun i => allN t fun j => Nat.beq (ent t m i j * (nth xs i + nth ys j) % p) 1

theorem distinctN_inj {p t : Nat} {l : List Nat} (h : distinctN p t l = true) : Function.Injective (vec p t l) := by
  have key : ∀ i j : Fin t, j.val < i.val → vec p t l i ≠ vec p t l j := by
    intro i j hji heq
    rw [distinctN, allN_iff] at h
    have h1 := allN_iff.1 (h i.val i.isLt) j.val hji
    rw [vec, vec, ZMod.natCast_eq_natCast_iff'] at heq
    rw [heq] at h1
    simp at h1
  intro i j hij
  rcases lt_trichotomy i.val j.val with h1 | h1 | h1
  · exact absurd hij.symm (key j i h1)
  · exact Fin.ext h1
  · exact absurd hij (key i j h1)

theorem literal_isMDS {p t : Nat} [Fact p.Prime] {m xs ys : List Nat} (h : cauchyN p t m xs ys = true) :
    IsMDS (literalMatrix (ZMod p) t m) := by
  rw [cauchyN, Bool.and_eq_true, Bool.and_eq_true, allN_iff] at h
  obtain ⟨⟨hx, hy⟩, hm⟩ := h
  have hone : ∀ i j : Fin t, literalMatrix (ZMod p) t m i j * (vec p t xs i + vec p t ys j) = 1 := by
    intro i j
    have h1 := Nat.eq_of_beq_eq_true (allN_iff.1 (hm i.val i.isLt) j.val j.isLt)
    have h2 : ((ent t m i.val j.val * (nth xs i.val + nth ys j.val) : Nat) : ZMod p) = ((1 : Nat) : ZMod p) := by
      rw [← ZMod.natCast_mod, h1]
    have h3 : m.getD (i.val * t + j.val) 0 = ent t m i.val j.val := by rw [ent, nth_eq, List.getD_eq_getElem?_getD]
    rw [literalMatrix, Matrix.of_apply, h3, vec, vec]
    push_cast at h2
    exact h2
  have hne : ∀ i j : Fin t, vec p t xs i + vec p t ys j ≠ 0 := by
    intro i j h0
    have := hone i j
    rw [h0, mul_zero] at this
    exact zero_ne_one this
  have he : literalMatrix (ZMod p) t m = Matrix.of fun i j => (vec p t xs i + vec p t ys j)⁻¹ := by
    ext i j
    exact eq_inv_of_mul_eq_one_left (hone i j)
  rw [he]
  exact cauchy_isMDS _ _ (distinctN_inj hx) (distinctN_inj hy) hne

theorem script3_valid (h : IsMDS (literalMatrix (ZMod p64) 24 mds_64_24)) : (script3 (ZMod p64)).Valid where
  even := rfl
  rp_pos := by decide
  consts := by rw [script3, List.length_map]; decide +kernel
  det := by
    have := h 24 id id Function.injective_id Function.injective_id
    rwa [Matrix.submatrix_id_id] at this
  detHat := h 23 Fin.succ Fin.succ (Fin.succ_injective _) (Fin.succ_injective _)

end Authors

open Authors

/-- **C81, matrices.** The matrices of all five scripts are MDS. -/
theorem C81_mds : IsMDS (literalMatrix (ZMod bls381) 3 mds_255_3) ∧ IsMDS (literalMatrix (ZMod bls381) 5 mds_255_5) ∧
    IsMDS (literalMatrix (ZMod bn254) 3 mds_254_3) ∧ IsMDS (literalMatrix (ZMod bn254) 5 mds_254_5) ∧
    IsMDS (literalMatrix (ZMod p64) 24 mds_64_24) :=
  ⟨literal_isMDS (xs := xs_255_3) (ys := ys_255_3) (by decide +kernel), literal_isMDS (xs := xs_255_5) (ys := ys_255_5) (by decide +kernel),
    literal_isMDS (xs := xs_254_3) (ys := ys_254_3) (by decide +kernel), literal_isMDS (xs := xs_254_5) (ys := ys_254_5) (by decide +kernel),
    literal_isMDS (xs := xs_64_24) (ys := ys_64_24) (by decide +kernel)⟩

/-- **C81, the script with exponent 3.** Its last line asserts that the optimized and the simple permutation agree on one input. They agree, and
return, on every input. -/
theorem C81_x3 (x : Fin 24 → ZMod p64) : ∃ y, (script3 (ZMod p64)).perm x = .ok y ∧ (script3 (ZMod p64)).permOriginal x = .ok y := by
  have h := script3_valid C81_mds.2.2.2.2
  obtain ⟨y, h1, _⟩ := C65_original _ h x
  exact ⟨y, (C65_optimized _ h x).trans h1, h1⟩

theorem arc_length : arc_255_3.length = 65 * 3 ∧ arc_255_5.length = 68 * 5 ∧ arc_254_3.length = 65 * 3 ∧ arc_254_5.length = 68 * 5 := by
  decide +kernel

theorem script5_length (F : Type) [Field F] {t rP n : Nat} {m c : List Nat} (h : c.length = n) :
    (script5 F t rP m c).roundConstants.length = n := by rw [script5, List.length_map, h]

/-- On every input, and from every earlier state, an instance with the parameters of the script returns word 1 of `g.perm`, and is left with
the words of `g.perm` in its state. -/
def HashesAs {F : Type} [Field F] [DecidableEq F] {t rows : Nat} (g : SimpleGlobals F t) (ht : 2 ≤ t)
    (hlen : g.roundConstants.length = rows * t) : Prop :=
  ∀ s x : Vector F t, ∃ y, g.perm x = .ok y ∧
    Instance.unoptimizedNTo1FixedHash ⟨g.params hlen, s⟩ x = .ok (y[1], ⟨g.params hlen, y⟩)

/-- **C81, the four scripts with exponent 5.** On every input an instance with the parameters of the script returns word 1 of `perm`, and has
the words of `perm` in its state. -/
theorem C81_x5 :
    HashesAs (script5 (ZMod bls381) 3 57 mds_255_3 arc_255_3) (by decide) (script5_length _ arc_length.1) ∧
    HashesAs (script5 (ZMod bls381) 5 60 mds_255_5 arc_255_5) (by decide) (script5_length _ arc_length.2.1) ∧
    HashesAs (script5 (ZMod bn254) 3 57 mds_254_3 arc_254_3) (by decide) (script5_length _ arc_length.2.2.1) ∧
    HashesAs (script5 (ZMod bn254) 5 60 mds_254_5 arc_254_5) (by decide) (script5_length _ arc_length.2.2.2) := by
  have key : ∀ {F : Type} [Field F] [DecidableEq F] {t rows : Nat} (g : SimpleGlobals F t) (ht : 2 ≤ t)
      (hlen : g.roundConstants.length = rows * t) (_ : g.rF / 2 + g.rP + g.rF / 2 ≤ rows), HashesAs g ht hlen := by
    intro F _ _ t rows g ht hlen hrows s x
    obtain ⟨y, h1, _⟩ := C81_simple_textbook g (by omega) hlen hrows fun i => x[i]
    rw [ofFn_get] at h1
    refine ⟨_, h1, ?_⟩
    rw [C81_simple ht (g.params_loaded hlen) s x, h1]
    rfl
  exact ⟨key _ _ _ (by decide), key _ _ _ (by decide), key _ _ _ (by decide), key _ _ _ (by decide)⟩

/-- The model of the scripts gives the authors' test vectors. -/
theorem script5_vector {p t rp : Nat} [Fact p.Prime] {m c out : List Nat} (ht : 0 < t) (hc : c.length = (4 + rp + 4) * t)
    (h : Reproduces p t rp m c out) :
    (script5 (ZMod p) t rp m c).perm (Vector.ofFn fun i : Fin t => ((i.val : Nat) : ZMod p)) = .ok (Vector.ofFn (vec p t out)) := by
  rw [← simple_perm_eq ht ((script5 (ZMod p) t rp m c).params_loaded (script5_length _ hc))]
  refine h 0 0 0 _ rfl rfl ?_ ?_
  · rw [show ((script5 (ZMod p) t rp m c).params (script5_length _ hc)).mds = Mat.ofM rfl (literalMatrix (ZMod p) t m) from rfl, Mat.toM_ofM]
    ext i j
    show ((m.getD (i.val * t + j.val) 0 : Nat) : ZMod p) = ((ent t m i j : Nat) : ZMod p)
    rw [ent, nth_eq]
  · ext i j
    have hlt : i.val * t + j.val < c.length := by rw [hc]; exact flat_lt i.isLt j.isLt
    show ((c.map (fun n : Nat => (n : ZMod p)))[i.val * t + j.val]'(by simpa using hlt)) = ((ent t c i j : Nat) : ZMod p)
    rw [ent, nth_eq, List.getElem_map, List.getD_eq_getElem?_getD, List.getElem?_eq_getElem hlt, Option.getD_some]

example : (script5 (ZMod bn254) 3 57 mds_254_3 arc_254_3).perm (Vector.ofFn fun i : Fin 3 => ((i.val : Nat) : ZMod bn254)) =
    .ok (Vector.ofFn (vec bn254 3 out_254_3)) := script5_vector (by omega) (by decide +kernel) crate_254_3

end Poseidon
