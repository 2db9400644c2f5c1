import Verif.Proofs.GrainScripts

/-!
# The Grain generator of the authors' script (C82)

`generate_parameters_grain.sage` draws round constants and a matrix from a shift register.  The specification of its bits, numbers and
matrices is `Verif/Spec/Grain.lean`.
-/

namespace Poseidon

open Grain Authors

theorem intOfBits_ofDigits (l : List Bool) : intOfBits l = Nat.ofDigits 2 (l.reverse.map Bool.toNat) := by
  induction l with
  | nil => rfl
  | cons b l ih =>
    rw [show b :: l = [b] ++ l from rfl, intOfBits_append, List.reverse_append, List.map_append, Nat.ofDigits_append, ← ih, List.length_map,
      List.length_reverse, show intOfBits [b] = Nat.ofDigits 2 ([b].reverse.map Bool.toNat) by cases b <;> rfl]
    ring

/-- **C82, the start.** The register has 80 bits exactly if every argument fits into its field.  It then holds the arguments, one after the
other, and thirty ones. -/
theorem C82_start (a : Arguments) : ((initSequence a).length = 80 ↔ a.Fits) ∧
    (a.Fits → Nat.ofDigits 2 ((initSequence a).reverse.map Bool.toNat) = a.field * 2 ^ 78 + a.sbox * 2 ^ 74 + a.fieldSize * 2 ^ 62 +
      a.numCells * 2 ^ 50 + a.rF * 2 ^ 40 + a.rP * 2 ^ 30 + (2 ^ 30 - 1)) :=
  ⟨initSequence_length a, fun h => by rw [← intOfBits_ofDigits, initSequence_value h]⟩

/-- **C82, different arguments.** Different arguments, apart from the prime, start the register differently. -/
theorem C82_start_injective {a a' : Arguments} (h : a.Fits) (h' : a'.Fits) (he : initSequence a = initSequence a') :
    a.field = a'.field ∧ a.sbox = a'.sbox ∧ a.fieldSize = a'.fieldSize ∧ a.numCells = a'.numCells ∧ a.rF = a'.rF ∧ a.rP = a'.rP := by
  have e : intOfBits (initSequence a) = intOfBits (initSequence a') := by rw [he]
  rw [initSequence_value h, initSequence_value h'] at e
  obtain ⟨h1, h2, h3, h4, h5, h6⟩ := h
  obtain ⟨g1, g2, g3, g4, g5, g6⟩ := h'
  omega

/-- There is exactly one register with a given start. -/
theorem register_unique {ini : List Bool} (hl : ini.length = 80) {s s' : Nat → Bool} (h : IsRegister ini s) (h' : IsRegister ini s') : s = s' := by
  funext i
  induction i using Nat.strongRecOn with
  | ind i ih =>
    by_cases hi : i < 80
    · rw [h.init i (by omega), h'.init i (by omega)]
    · obtain ⟨j, rfl⟩ := Nat.exists_eq_add_of_le' (not_lt.1 hi)
      rw [h.step, h'.step, ih _ (by omega), ih _ (by omega), ih _ (by omega), ih _ (by omega), ih _ (by omega), ih j (by omega)]

theorem grain_infinite {a : Arguments} (ha : a.Fits) {s : Nat → Bool} (h : IsRegister (initSequence a) s) :
    (Set.ofPred (Taken s)).Infinite := by
  obtain ⟨s', h', hinf⟩ := exists_grain ha
  rw [register_unique ((initSequence_length a).2 ha) h h']
  exact hinf

/-- **C82, the bits.** The start has exactly one register.  It never runs out of pairs that count, so the generator returns as many bits as
it is asked for, and they are the bits of the specification. -/
theorem C82_bits {a : Arguments} (ha : a.Fits) : (∃! s, IsRegister (initSequence a) s) ∧
    ∀ s, IsRegister (initSequence a) s → (∀ i, Taken s (Nat.nth (Taken s) i)) ∧ ∃ b, warmUp 160 (initSequence a) = some b ∧
      ∀ m, ∃ f0 b', (∀ fuel, f0 ≤ fuel → collect (next fuel) m b = some (fun i : Fin m => grainBit s i, b')) ∧
        ∀ fuel, collect (next fuel) m b = none ∨ collect (next fuel) m b = some (fun i : Fin m => grainBit s i, b') := by
  have hl := (initSequence_length a).2 ha
  refine ⟨?_, fun s h => ?_⟩
  · obtain ⟨s, h⟩ := exists_register _ hl
    exact ⟨s, h, fun s' h' => register_unique hl h' h⟩
  · have hinf := grain_infinite ha h
    refine ⟨fun i => Nat.nth_mem_of_infinite hinf i, ?_⟩
    obtain ⟨b, h1, h2⟩ := at_start h hl
    refine ⟨b, h1, fun m => ?_⟩
    obtain ⟨f0, b', -, h4, h5⟩ := collect_at (next_draws h hinf) m 0 b h2
    beta_reduce at h4 h5
    simp only [Nat.zero_add, Nat.one_mul] at h4 h5
    exact ⟨f0, b', h4, h5⟩

section
variable {a : Arguments} {s : Nat → Bool}

theorem atBlock_start (ha : a.Fits) (h : IsRegister (initSequence a) s) {b : List Bool} (hb : warmUp 160 (initSequence a) = some b) :
    AtBlock s a.fieldSize 0 b := by
  obtain ⟨b', h1, h2⟩ := at_start h ((initSequence_length a).2 ha)
  obtain rfl := Option.some.inj (hb.symm.trans h1)
  exact h2

/-- **C82, constants of a binary field.** They always are returned, and are the first numbers of the generator. -/
theorem C82_constants_binary (ha : a.Fits) (hf : a.field = 0) (hn : a.fieldSize ≠ 0) (h : IsRegister (initSequence a) s) {b : List Bool}
    (hb : warmUp 160 (initSequence a) = some b) :
    ∃ f0 b', ∀ fuel, f0 ≤ fuel → generateConstants fuel a b = some (fun i : Fin _ => grainBlock s a.fieldSize i, b') := by
  obtain ⟨f0, b', -, h2, -⟩ := collect_block h (grain_infinite ha h) hn (m := (a.rF + a.rP) * a.numCells) (atBlock_start ha h hb)
  simp only [Nat.zero_add] at h2
  exact ⟨f0, b', fun fuel hfuel => by
    rw [← h2 fuel hfuel]; unfold generateConstants; rw [if_pos hf]⟩

/-- **C82, constants of a prime field.** They are returned exactly if there are enough numbers below the prime; they are the first of
these, in order, and so are reduced. -/
theorem C82_constants (ha : a.Fits) (hf : a.field = 1) (hn : a.fieldSize ≠ 0) (h : IsRegister (initSequence a) s) {b : List Bool}
    (hb : warmUp 160 (initSequence a) = some b) :
    ((∃ fuel l b', generateConstants fuel a b = some (l, b')) ↔
      ∃ B, (a.rF + a.rP) * a.numCells ≤ Nat.count (Below s a.fieldSize a.prime) B) ∧
    ∀ fuel l b', generateConstants fuel a b = some (l, b') →
      ∀ i, l i = grainBlock s a.fieldSize (Nat.nth (Below s a.fieldSize a.prime) i) ∧ l i < a.prime := by
  have h0 := atBlock_start ha h hb
  have hg : ∀ fuel, generateConstants fuel a b = collect (drawBelow fuel a.fieldSize a.prime fuel) _ b := fun fuel => by
    rw [generateConstants, if_neg (by omega), if_pos hf]
  have hs : ∀ fuel l b', generateConstants fuel a b = some (l, b') → _ := fun fuel l b' hl =>
    constants_sound h (grain_infinite ha h) hn _ 0 b l b' h0 (by rw [← hg]; exact hl)
  refine ⟨⟨?_, ?_⟩, ?_⟩
  · rintro ⟨fuel, l, b', hl⟩
    obtain ⟨B, -, h2, -⟩ := hs fuel l b' hl
    exact ⟨B, by rw [h2, Nat.count_zero]; omega⟩
  · rintro ⟨B, hB⟩
    obtain ⟨f0, l, b', h1⟩ := constants_complete (p := a.prime) h (grain_infinite ha h) hn ((a.rF + a.rP) * a.numCells) 0 b h0
      ⟨B, by rw [Nat.count_zero, Nat.zero_add]; exact hB⟩
    exact ⟨f0, l, b', by rw [hg, h1 f0 le_rfl]⟩
  · intro fuel l b' hl i
    obtain ⟨B, -, -, -, -, h5⟩ := hs fuel l b' hl
    have := h5 i
    rwa [Nat.count_zero, Nat.zero_add] at this

end

section
variable {p sbox n k rF rP : Nat} [Fact p.Prime] {s : Nat → Bool}

theorem script_run (ha : Arguments.Fits ⟨1, sbox, n, k + 1, rF, rP, p⟩) (h : IsRegister (initSequence ⟨1, sbox, n, k + 1, rF, rP, p⟩) s) :
    ∃ b, AtBlock s n 0 b ∧ ∀ fuel c M, script p fuel sbox n k rF rP = some (c, M) ↔
      ∃ b', collect (drawBelow fuel n p fuel) _ b = some (c, b') ∧ generateMatrix p fuel n k fuel b' = some M := by
  obtain ⟨b, h1, h2⟩ := at_start h ((initSequence_length _).2 ha)
  refine ⟨b, h2, fun fuel c M => ?_⟩
  have hg : generateConstants fuel ⟨1, sbox, n, k + 1, rF, rP, p⟩ b = collect (drawBelow fuel n p fuel) _ b := by
    rw [generateConstants, if_neg (show ¬ (1 = 0) by omega), if_pos rfl]
  rw [script, h1]
  simp only [Option.bind_eq_bind, Option.bind_some, hg, Option.bind_eq_some_iff]
  constructor
  · rintro ⟨⟨c', b'⟩, h3, M', h4, h5⟩
    obtain ⟨rfl, rfl⟩ := Prod.mk.inj (Option.some.inj h5)
    exact ⟨b', h3, h4⟩
  · rintro ⟨b', h3, h4⟩
    exact ⟨(c, b'), h3, M, h4, rfl⟩

/-- **C82, what the script returns.** The constants are the first numbers below the prime.  `B` numbers are used up by then.  The numbers
after these are taken in blocks of two for each word of the state; the matrix is the Cauchy matrix of the first block that is admissible and
of which the matrix passes the three tests.  It is MDS. -/
theorem C82_script (ha : Arguments.Fits ⟨1, sbox, n, k + 1, rF, rP, p⟩) (hn : n ≠ 0)
    (h : IsRegister (initSequence ⟨1, sbox, n, k + 1, rF, rP, p⟩) s) {fuel : Nat} {c : Fin ((rF + rP) * (k + 1)) → Nat}
    {M : Matrix (Fin (k + 1)) (Fin (k + 1)) (ZMod p)} (hc : script p fuel sbox n k rF rP = some (c, M)) :
    (∀ i, c i = grainBlock s n (Nat.nth (Below s n p) i) ∧ c i < p) ∧
    ∃ B e, HasBelow s n p ((rF + rP) * (k + 1)) B ∧ GrainAdmissible s p n (k + 1) (B + 2 * (k + 1) * e) ∧
      M = grainMatrix s p n (k + 1) (B + 2 * (k + 1) * e) ∧ PassesTests M ∧ IsMDS M ∧
      ∀ i, i < e → GrainAdmissible s p n (k + 1) (B + 2 * (k + 1) * i) → ¬ PassesTests (grainMatrix s p n (k + 1) (B + 2 * (k + 1) * i)) := by
  have hinf := grain_infinite ha h
  obtain ⟨b, h0, h1⟩ := script_run ha h
  obtain ⟨b', h2, h3⟩ := (h1 fuel c M).1 hc
  obtain ⟨B, h4, h5, h6, -, h7⟩ := constants_sound h hinf hn _ 0 b c b' h0 h2
  obtain ⟨e, h8, h9, h10, h11⟩ := generateMatrix_sound h hinf hn fuel B b' M h4 h3
  simp only [Nat.count_zero, Nat.zero_add] at h5 h6 h7
  exact ⟨h7, B, e, ⟨h5, fun B' hB => h6 B' hB (Nat.zero_le _)⟩, h8, h9, h10, h9 ▸ grainMatrix_isMDS h8, h11⟩

/-- **C82, when the script returns.** It returns exactly if there are enough numbers below the prime and some block after them is admissible
and has a matrix that passes the tests. -/
theorem C82_returns (ha : Arguments.Fits ⟨1, sbox, n, k + 1, rF, rP, p⟩) (hn : n ≠ 0)
    (h : IsRegister (initSequence ⟨1, sbox, n, k + 1, rF, rP, p⟩) s) :
    (∃ fuel r, script p fuel sbox n k rF rP = some r) ↔
      ∃ B e, HasBelow s n p ((rF + rP) * (k + 1)) B ∧ GrainAdmissible s p n (k + 1) (B + 2 * (k + 1) * e) ∧
        PassesTests (grainMatrix s p n (k + 1) (B + 2 * (k + 1) * e)) := by
  constructor
  · rintro ⟨fuel, ⟨c, M⟩, hc⟩
    obtain ⟨-, B, e, h1, h2, rfl, h3, -⟩ := C82_script ha hn h hc
    exact ⟨B, e, h1, h2, h3⟩
  · rintro ⟨B, e, hB, h2, h3⟩
    have hinf := grain_infinite ha h
    obtain ⟨b, h0, h1⟩ := script_run ha h
    obtain ⟨f0, c, b', h4⟩ := constants_complete h hinf hn ((rF + rP) * (k + 1)) 0 b h0 ⟨B, by rw [hB.1, Nat.count_zero]; omega⟩
    obtain ⟨B', h5, h6, h7, -, -⟩ := constants_sound h hinf hn _ 0 b c b' h0 (h4 f0 le_rfl)
    simp only [Nat.count_zero, Nat.zero_add] at h6 h7
    have hBB : B' = B := by
      rcases lt_trichotomy B' B with hlt | heq | hgt
      · exact absurd h6 (hB.2 B' hlt).ne
      · exact heq
      · exact absurd hB.1 (h7 B hgt (Nat.zero_le _)).ne
    subst hBB
    obtain ⟨f1, h8⟩ := generateMatrix_complete h hinf hn e B' b' h5 h2 h3
    obtain ⟨M, h9⟩ := h8 (max f0 f1) (max f0 f1) (le_max_right _ _) (le_max_right _ _)
    exact ⟨max f0 f1, (c, M), (h1 _ _ _).2 ⟨b', h4 _ (le_max_left _ _), h9⟩⟩

/-- **C82, narrow fields.** The script does not return if the field has fewer elements than a matrix needs. -/
theorem C82_never (ha : Arguments.Fits ⟨1, sbox, n, k + 1, rF, rP, p⟩) (hn : n ≠ 0) (hp : p < 2 * (k + 1)) (fuel : Nat) :
    script p fuel sbox n k rF rP = none := by
  obtain ⟨s, h, -⟩ := exists_grain ha
  cases hs : script p fuel sbox n k rF rP with
  | none => rfl
  | some r =>
    obtain ⟨-, B, e, -, h1, -⟩ := C82_script ha hn h (c := r.1) (M := r.2) hs
    exact absurd h1 (not_admissible hp)

end

/-! ## The scripts -/

theorem script_reproduced {p n k rP fuel : Nat} [Fact p.Prime] {arc m xs ys : List Nat} {N NT : List (List Nat)} {rel : List Nat}
    {cs : List (List Nat)} (hfit : n < 2 ^ 12 ∧ k + 1 < 2 ^ 12 ∧ rP < 2 ^ 10) (hn : n ≠ 0) (hk : 1 ≤ k)
    (hc : checkScript p n k rP fuel arc m xs ys N NT rel cs = true) :
    ∃ f0, ∀ fuel, f0 ≤ fuel → script p fuel 0 n k 8 rP =
      some (fun i : Fin _ => arc.getD i 0, literalMatrix (ZMod p) (k + 1) m) := by
  simp only [checkScript, Bool.and_eq_true] at hc
  obtain ⟨⟨⟨⟨⟨⟨hrun, hlen⟩, hxs⟩, hys⟩, hdist⟩, hcau⟩, htest⟩ := hc
  replace hlen := beqN hlen
  replace hxs := beqN hxs
  replace hys := beqN hys
  have ha : Arguments.Fits ⟨1, 0, n, k + 1, 8, rP, p⟩ :=
    ⟨show 1 < 2 ^ 2 by omega, show 0 < 2 ^ 4 by omega, hfit.1, hfit.2.1, show 8 < 2 ^ 10 by omega, hfit.2.2⟩
  obtain ⟨s, h, hinf⟩ := exists_grain ha
  have hini := initSequence_eq ha
  dsimp only at hini
  rw [← hini] at hrun
  obtain ⟨B, r1, r2, r3, r4⟩ := checkRun_register h ((initSequence_length _).2 ha) hn hrun
  obtain ⟨b, h0, h1⟩ := script_run ha h
  obtain ⟨f0, c, b', h4⟩ := constants_complete h hinf hn ((8 + rP) * (k + 1)) 0 b h0 ⟨B, by rw [r1, Nat.count_zero, hlen]; omega⟩
  obtain ⟨B', h5, h6, h7, -, h8⟩ := constants_sound h hinf hn _ 0 b c b' h0 (h4 f0 le_rfl)
  simp only [Nat.count_zero, Nat.zero_add] at h6 h7 h8
  rw [hlen] at r1 r2
  have hBB : B' = B := by
    rcases lt_trichotomy B' B with hlt | heq | hgt
    · exact absurd h6 (r2 B' hlt).ne
    · exact heq
    · exact absurd r1 (h7 B hgt (Nat.zero_le _)).ne
  subst hBB
  have hcst : c = fun i : Fin _ => arc.getD i 0 := by
    funext i
    have hi : i.val < arc.length := by rw [hlen]; exact i.isLt
    rw [(h8 i).1, ← r3 i hi, List.getD_eq_getElem _ _ hi]
  have htl : (xs ++ ys).length = 2 * (k + 1) := by rw [List.length_append, hxs, hys]; omega
  have hblk : ∀ i, i < 2 * (k + 1) → grainBlock s n (B' + i) = nth (xs ++ ys) i := fun i hi => by
    rw [nth_lt (by omega), r4 i (by omega)]
  have hrow : ∀ i : Fin (k + 1), grainRows s p n (k + 1) B' i = vec p (k + 1) xs i := fun i => by
    have := i.isLt
    rw [grainRows, hblk _ (by omega), vec, nth_lt (by omega), List.getElem_append_left (by omega), nth_lt (by omega)]
  have hcol : ∀ j : Fin (k + 1), grainColumns s p n (k + 1) B' j = vec p (k + 1) ys j := fun j => by
    have := j.isLt
    rw [grainColumns, hblk _ (by omega), vec, nth_lt (by omega), List.getElem_append_right (by omega), nth_lt (by omega)]
    simp only [hxs, Nat.add_sub_cancel_left]
  have hone : ∀ i j : Fin (k + 1), literalMatrix (ZMod p) (k + 1) m i j * (vec p (k + 1) xs i + vec p (k + 1) ys j) = 1 := by
    intro i j
    rw [cauchyN, Bool.and_eq_true, Bool.and_eq_true, allN_iff] at hcau
    have g1 := Nat.eq_of_beq_eq_true (allN_iff.1 (hcau.2 i.val i.isLt) j.val j.isLt)
    have g2 : ((ent (k + 1) m i.val j.val * (nth xs i.val + nth ys j.val) : Nat) : ZMod p) = ((1 : Nat) : ZMod p) := by
      rw [← ZMod.natCast_mod, g1]
    have g3 : m.getD (i.val * (k + 1) + j.val) 0 = ent (k + 1) m i.val j.val := by rw [ent, nth_eq, List.getD_eq_getElem?_getD]
    rw [literalMatrix, Matrix.of_apply, g3, vec, vec]
    push_cast at g2
    exact g2
  have hadm : GrainAdmissible s p n (k + 1) B' := by
    refine ⟨fun i j hij => distinctN_inj hdist ?_, fun i j h0 => ?_⟩
    · rw [vec, vec, ← hblk i i.isLt, ← hblk j j.isLt]; exact hij
    · rw [hrow, hcol] at h0
      have := hone i j
      rw [h0, mul_zero] at this
      exact zero_ne_one this
  have hmat : grainMatrix s p n (k + 1) B' = literalMatrix (ZMod p) (k + 1) m := by
    ext i j
    rw [grainMatrix, Matrix.of_apply, hrow, hcol]
    exact (eq_inv_of_mul_eq_one_left (hone i j)).symm
  have hpass : PassesTests (grainMatrix s p n (k + 1) B') := by
    rw [hmat]
    obtain ⟨t1, t2, t3⟩ := checkTests_sound (F := ZMod p) (M := literalMatrix (ZMod p) (k + 1) m) (by simp) hk (fun i j => by
      rw [literalMatrix, Matrix.of_apply, nth_eq]) htest
    exact ⟨by rw [t1], t2, t3⟩
  obtain ⟨f1, h9⟩ := generateMatrix_first h hinf hn h5 hadm hpass
  refine ⟨max f0 f1, fun fuel hf => ?_⟩
  rw [(h1 fuel c _).2 ⟨b', h4 fuel (le_trans (le_max_left _ _) hf), h9 fuel (le_trans (le_max_right _ _) hf)⟩, hcst, hmat]

/-- The script, called with field 1, S-box 0, `n` bits, `k + 1` words, 8 and `rP` rounds and the prime `p`, returns these constants and this
matrix. -/
def Reproduces (p n k rP : Nat) [Fact p.Prime] (arc mds : List Nat) : Prop :=
  arc.length = (8 + rP) * (k + 1) ∧
    ∃ f0, ∀ fuel, f0 ≤ fuel → script p fuel 0 n k 8 rP = some (fun i : Fin _ => arc.getD i 0, literalMatrix (ZMod p) (k + 1) mds)

theorem reproduces_of_check {p n k rP fuel : Nat} [Fact p.Prime] {arc m xs ys : List Nat} {N NT : List (List Nat)} {rel : List Nat}
    {cs : List (List Nat)} (hc : checkScript p n k rP fuel arc m xs ys N NT rel cs = true)
    (hfit : n < 2 ^ 12 ∧ k + 1 < 2 ^ 12 ∧ rP < 2 ^ 10) (hn : n ≠ 0) (hk : 1 ≤ k) : Reproduces p n k rP arc m := by
  refine ⟨?_, script_reproduced hfit hn hk hc⟩
  simp only [checkScript, Bool.and_eq_true] at hc
  exact beqN hc.1.1.1.1.1.2

/-- **C82, the scripts.** The round constants and matrices in the authors' five scripts are what the generator script returns for their
fields, widths and round numbers: nothing in them was chosen. -/
theorem C82_reproduced : Reproduces bls381 255 2 57 arc_255_3 mds_255_3 ∧ Reproduces bls381 255 4 60 arc_255_5 mds_255_5 ∧
    Reproduces bn254 254 2 57 arc_254_3 mds_254_3 ∧ Reproduces bn254 254 4 60 arc_254_5 mds_254_5 ∧
    Reproduces p64 64 23 42 arc_64_24 mds_64_24 :=
  ⟨reproduces_of_check check_255_3 (by omega) (by omega) (by omega), reproduces_of_check check_255_5 (by omega) (by omega) (by omega),
    reproduces_of_check check_254_3 (by omega) (by omega) (by omega), reproduces_of_check check_254_5 (by omega) (by omega) (by omega),
    reproduces_of_check check_64_24 (by omega) (by omega) (by omega)⟩

/-! ## The hypotheses are met -/

/-- The arguments of the script for BLS12-381 and width 3 fit. -/
theorem fits_255_3 : Arguments.Fits ⟨1, 0, 255, 3, 8, 57, bls381⟩ :=
  ⟨show 1 < 2 ^ 2 by omega, show 0 < 2 ^ 4 by omega, show 255 < 2 ^ 12 by omega, show 3 < 2 ^ 12 by omega, show 8 < 2 ^ 10 by omega,
    show 57 < 2 ^ 10 by omega⟩

/-- What the specification says about a published constant: the first one is the first number of the register. -/
example : ∃ s, IsRegister (initSequence ⟨1, 0, 255, 3, 8, 57, bls381⟩) s ∧
    grainBlock s 255 (Nat.nth (Below s 255 bls381) 0) = 0x6c4ffa723eaf1a7bf74905cc7dae4ca9ff4a2c3bc81d42e09540d1f250910880 := by
  obtain ⟨s, h, -⟩ := exists_grain fits_255_3
  obtain ⟨f0, h1⟩ := C82_reproduced.1.2
  have := ((C82_script fits_255_3 (by omega) h (h1 f0 le_rfl)).1 ⟨0, by omega⟩).1
  exact ⟨s, h, this.symm⟩

example : (initSequence ⟨1, 0, 4096, 3, 8, 57, 2⟩).length ≠ 80 := fun h =>
  absurd ((C82_start _).1.1 h).fieldSize (by show ¬ 4096 < 2 ^ 12; omega)

/-- A field of 5 elements has no matrix of width 3. -/
example (fuel : Nat) : @script 5 ⟨by norm_num⟩ fuel 0 3 2 8 4 = none :=
  @C82_never 5 0 3 2 8 4 ⟨by norm_num⟩ ⟨show 1 < 2 ^ 2 by omega, show 0 < 2 ^ 4 by omega, show 3 < 2 ^ 12 by omega, show 3 < 2 ^ 12 by omega,
    show 8 < 2 ^ 10 by omega, show 4 < 2 ^ 10 by omega⟩ (by omega) (by omega) fuel

end Poseidon
