import Verif.Props.Key
import Verif.Proofs.KeyPoints
import Mathlib.Combinatorics.Pigeonhole

/-!
# Property C90: the files with the keys

`write_params` writes a proving key and a verifying key to two files, `PREIMAGE_PK` and `PREIMAGE_VK` read them
(poseidon-tests/tests/poseidon377_r1cs.rs:27-37 and 247-274).  `Spec/KeyFile.lean` says which texts denote which keys, without the readers
and writers.  `E1` and `E2` are the curves; the test for the subgroup is any function.
-/

namespace Poseidon

open Poseidon.Groth16

variable {E1 : Curve Fp} {E2 : Curve Fp2}

theorem parse_iff {α : Type} {r : Reader α} {T : α → List UInt8 → Prop} (h : Parses r T) (file : List UInt8) (x : α) :
    parse r file = .ok x ↔ ∃ w rest, file = w ++ rest ∧ T x w := by
  unfold parse
  constructor
  · intro e
    rcases hr : r file with er | ⟨y, rest⟩
    · rw [hr] at e
      cases e
    · rw [hr] at e
      cases e
      obtain ⟨w, hw, ht⟩ := (h _ _ _).1 hr
      exact ⟨w, rest, hw, ht⟩
  · rintro ⟨w, rest, hw, ht⟩
    rw [(h _ _ _).2 ⟨w, hw, ht⟩]

theorem parse_panics {α : Type} {r : Reader α} {file : List UInt8} (h : ∃ e, r file = .error e) : parse r file = .error .unwrapNone := by
  obtain ⟨e, he⟩ := h
  unfold parse
  rw [he]

/-- **C90, what is read.** A file is read as a proving key exactly if it begins with a text of that key; what follows is ignored.  All
other files panic. -/
theorem C90_reads (file : List UInt8) :
    (∀ pk, preimagePk E1 E2 file = .ok pk ↔ ∃ w rest, file = w ++ rest ∧ PkText E1 E2 pk w) ∧
    (∀ vk, preimageVk E1 E2 file = .ok vk ↔ ∃ w rest, file = w ++ rest ∧ VkText E1 E2 vk w) ∧
    ((¬ ∃ pk w rest, file = w ++ rest ∧ PkText E1 E2 pk w) → preimagePk E1 E2 file = .error .unwrapNone) ∧
    ((¬ ∃ vk w rest, file = w ++ rest ∧ VkText E1 E2 vk w) → preimageVk E1 E2 file = .error .unwrapNone) := by
  refine ⟨fun pk => parse_iff parses_readPk file pk, fun vk => parse_iff parses_readVk file vk, fun h => ?_, fun h => ?_⟩
  · rcases hr : preimagePk E1 E2 file with e | pk
    · unfold preimagePk parse at hr
      split at hr
      · cases hr
      · exact hr.symm
    · exact absurd ⟨pk, (parse_iff parses_readPk file pk).1 hr⟩ h
  · rcases hr : preimageVk E1 E2 file with e | vk
    · unfold preimageVk parse at hr
      split at hr
      · cases hr
      · exact hr.symm
    · exact absurd ⟨vk, (parse_iff parses_readVk file vk).1 hr⟩ h

/-- **C90, only valid points.** A key that was read consists of points of the curves that pass the test for the subgroup. -/
theorem C90_valid (file : List UInt8) : (∀ pk, preimagePk E1 E2 file = .ok pk → ValidPk E1 E2 pk) ∧
    ∀ vk, preimageVk E1 E2 file = .ok vk → ValidVk E1 E2 vk := by
  refine ⟨fun pk h => ?_, fun vk h => ?_⟩
  · obtain ⟨w, rest, -, ht⟩ := (parse_iff parses_readPk file pk).1 h
    exact ht.valid
  · obtain ⟨w, rest, -, ht⟩ := (parse_iff parses_readVk file vk).1 h
    exact ht.valid

/-- **C90, writing and reading back.** The two files that are written for a key are read as this key, also with other bytes after them. -/
theorem C90_roundtrip (pk : ProvingKey (Affine Fp) (Affine Fp2)) (h : ValidPk E1 E2 pk) (rest : List UInt8) :
    preimagePk E1 E2 ((writeParams pk pk.vk).1 ++ rest) = .ok pk ∧ preimageVk E1 E2 ((writeParams pk pk.vk).2 ++ rest) = .ok pk.vk :=
  ⟨(parse_iff parses_readPk _ _).2 ⟨_, rest, rfl, writePk_text h⟩, (parse_iff parses_readVk _ _).2 ⟨_, rest, rfl, writeVk_text h.vk⟩⟩

/-- **C90, different keys, different files.** -/
theorem C90_injective (pk pk' : ProvingKey (Affine Fp) (Affine Fp2)) (h : ValidPk E1 E2 pk) (h' : ValidPk E1 E2 pk') :
    ((writeParams pk pk.vk).1 = (writeParams pk' pk'.vk).1 → pk = pk') ∧ ((writeParams pk pk.vk).2 = (writeParams pk' pk'.vk).2 → pk.vk = pk'.vk) := by
  refine ⟨fun e => ?_, fun e => ?_⟩
  · have h1 := (C90_roundtrip pk h []).1
    rw [e, (C90_roundtrip pk' h' []).1] at h1
    cases h1
    rfl
  · have h1 := (C90_roundtrip pk h []).2
    rw [e, (C90_roundtrip pk' h' []).2] at h1
    exact (Except.ok.inj h1).symm

/-- **C90, one file begins with the other.** The file of the proving key begins with that of the verifying key: read as a verifying key,
it gives the verifying key.  The file of the verifying key is not a proving key. -/
theorem C90_prefix (pk : ProvingKey (Affine Fp) (Affine Fp2)) (h : ValidPk E1 E2 pk) :
    (writeParams pk pk.vk).2 <+: (writeParams pk pk.vk).1 ∧ preimageVk E1 E2 (writeParams pk pk.vk).1 = .ok pk.vk ∧
      preimagePk E1 E2 (writeParams pk pk.vk).2 = .error .unwrapNone := by
  have hp : ∃ t, writePk pk = writeVk pk.vk ++ t ∧ t ≠ [] := by
    refine ⟨writePoint pk.betaG1 ++ (writePoint pk.deltaG1 ++ (writeVec writePoint pk.aQuery ++ (writeVec writePoint pk.bG1Query ++
      (writeVec writePoint pk.bG2Query ++ (writeVec writePoint pk.hQuery ++ writeVec writePoint pk.lQuery))))), ?_, ?_⟩
    · simp only [writePk, List.append_assoc]
    · intro e
      have h1 := congrArg List.length e
      simp only [List.length_append, writeVec, leBytes_length, List.length_nil] at h1
      omega
  obtain ⟨t, ht, hne⟩ := hp
  refine ⟨⟨t, ht.symm⟩, (parse_iff parses_readVk _ _).2 ⟨_, t, ht, writeVk_text h.vk⟩, parse_panics (parses_readPk.cut (x := pk) (t := t) ?_ hne)⟩
  show PkText E1 E2 pk (writeVk pk.vk ++ t)
  rw [← ht]
  exact writePk_text h

/-- **C90, files that were cut.** Reading any proper beginning of a file that was written panics. -/
theorem C90_cut (pk : ProvingKey (Affine Fp) (Affine Fp2)) (h : ValidPk E1 E2 pk) (n : Nat) :
    (n < (writeParams pk pk.vk).1.length → preimagePk E1 E2 ((writeParams pk pk.vk).1.take n) = .error .unwrapNone) ∧
    (n < (writeParams pk pk.vk).2.length → preimageVk E1 E2 ((writeParams pk pk.vk).2.take n) = .error .unwrapNone) := by
  refine ⟨fun hn => parse_panics (parses_readPk.cut (x := pk) (t := (writePk pk).drop n) ?_ ?_),
    fun hn => parse_panics (parses_readVk.cut (x := pk.vk) (t := (writeVk pk.vk).drop n) ?_ ?_)⟩
  · exact (List.take_append_drop n (writePk pk)).symm ▸ writePk_text h
  · exact fun e => absurd (List.drop_eq_nil_iff.1 e) (Nat.not_le.2 hn)
  · exact (List.take_append_drop n (writeVk pk.vk)).symm ▸ writeVk_text h.vk
  · exact fun e => absurd (List.drop_eq_nil_iff.1 e) (Nat.not_le.2 hn)

/-! ### Other files of a key -/

theorem text_ne {x y : Fp} {w : List UInt8} (h : FpText x w) (hne : x ≠ y) : ¬ FpText y w := fun h' =>
  hne (ZMod.val_injective _ (h.2.symm.trans h'.2))

theorem flag_ne {x : Fp} {f g : SWFlags} {w : List UInt8} (h : FpFlagText x f w) (hne : f ≠ g) : ¬ FpFlagText x g w := by
  intro h'
  have key : ∀ {K v a b : Nat}, 0 < K → v + a * K = v + b * K → a = b := fun hK e => Nat.eq_of_mul_eq_mul_right hK (Nat.add_left_cancel e)
  obtain ⟨-, h1⟩ := h
  obtain ⟨-, h2⟩ := h'
  rw [two382] at h1 h2
  have h1 := key (by decide +kernel) (h1.symm.trans h2)
  cases f <;> cases g <;> first | exact hne rfl | cases h1

/-- The text of a point that the writer does not choose. -/
theorem other_text {E : Curve Fp} {P : Affine Fp} (h : ValidPoint E P) :
    ∃ w, PointText E P w ∧ w ≠ writePoint P ∧ w.length = (writePoint P).length := by
  have ht := writePoint_text h
  cases hi : P.infinity with
  | true =>
    have hP : P = Affine.identity := h.resolve_right fun h => by
      rw [hi] at h
      cases h.1
    refine ⟨writeFp 1 ++ writeFpFlags 0 .pointAtInfinity, ⟨1, 0, _, _, _, rfl, writeFp_text _, writeFpFlags_text _ _, .inl ⟨rfl, hP⟩⟩, ?_, ?_⟩
    · intro e
      unfold writePoint at e
      rw [hi, if_pos rfl] at e
      have e1 := (List.append_inj e ((writeFp_text 1).1.trans (writeFp_text 0).1.symm)).1
      refine text_ne (y := 0) (writeFp_text 1) (fun h => ?_) (e1.symm ▸ writeFp_text 0)
      have h2 := congrArg ZMod.val h
      rw [ZMod.val_zero, ← Nat.cast_one, ZMod.val_natCast_of_lt (by decide)] at h2
      cases h2
    · unfold writePoint
      rw [hi, if_pos rfl, List.length_append, List.length_append, (writeFp_text 1).1, (writeFpFlags_text 0 .pointAtInfinity).1]
      exact (congrArg₂ (· + ·) (writeFp_text 0).1 (writeFpFlags_text 0 .pointAtInfinity).1).symm
  | false =>
    obtain ⟨x, y, i⟩ := P
    cases hi
    obtain ⟨g, g1, g2⟩ : ∃ g : SWFlags, g ≠ .pointAtInfinity ∧ (⟨x, y, false⟩ : Affine Fp).toFlags ≠ g := by
      cases (⟨x, y, false⟩ : Affine Fp).toFlags
      · exact ⟨.yIsNegative, by decide, by decide⟩
      · exact ⟨.yIsNegative, by decide, by decide⟩
      · exact ⟨.yIsPositive, by decide, by decide⟩
    refine ⟨writeFp x ++ writeFpFlags y g, ⟨x, y, g, _, _, rfl, writeFp_text _, writeFpFlags_text _ _, .inr ⟨g1, rfl, h⟩⟩, ?_, ?_⟩
    · intro e
      unfold writePoint at e
      rw [if_neg (by simp)] at e
      have e1 := (List.append_inj e rfl).2
      exact flag_ne (writeFpFlags_text y g) g2.symm (e1.symm ▸ writeFpFlags_text y _)
    · unfold writePoint
      rw [if_neg (by simp), List.length_append, (writeFp_text x).1, (writeFpFlags_text y g).1]
      exact ((List.length_append).trans (congrArg₂ (· + ·) (writeFp_text x).1 (writeFpFlags_text y _).1)).symm

/-- **C90, a file is not determined by its key.** For every key there are other files, of the same length, that are read as the same
proving key and the same verifying key: the sign of a point is not compared with its coordinates, and the coordinates of the point at infinity are
not looked at. -/
theorem C90_other_files (pk : ProvingKey (Affine Fp) (Affine Fp2)) (h : ValidPk E1 E2 pk) :
    (∃ file, file ≠ (writeParams pk pk.vk).1 ∧ file.length = (writeParams pk pk.vk).1.length ∧ preimagePk E1 E2 file = .ok pk) ∧
    ∃ file, file ≠ (writeParams pk pk.vk).2 ∧ file.length = (writeParams pk pk.vk).2.length ∧ preimageVk E1 E2 file = .ok pk.vk := by
  obtain ⟨w, h1, h2, h3⟩ := other_text h.vk.alphaG1
  obtain ⟨v, a, b, c, d, e, f, g, e1, hv, hr⟩ := writePk_text h
  have hvk : ∃ t, writeVk pk.vk = writePoint pk.vk.alphaG1 ++ t ∧ VkText E1 E2 pk.vk (w ++ t) := by
    refine ⟨writePoint pk.vk.betaG2 ++ writePoint pk.vk.gammaG2 ++ writePoint pk.vk.deltaG2 ++ writeVec writePoint pk.vk.gammaAbcG1,
      by simp only [writeVk, List.append_assoc], w, writePoint pk.vk.betaG2, writePoint pk.vk.gammaG2, writePoint pk.vk.deltaG2,
      writeVec writePoint pk.vk.gammaAbcG1, by simp only [List.append_assoc], h1, writePoint_text h.vk.betaG2, writePoint_text h.vk.gammaG2,
      writePoint_text h.vk.deltaG2, writeVec_text h.vk.gammaAbcG1.1 fun P hP => writePoint_text (h.vk.gammaAbcG1.2 P hP)⟩
  obtain ⟨t, ht, htext⟩ := hvk
  refine ⟨?_, w ++ t, ?_, ?_, ?_⟩
  · obtain ⟨u, hu⟩ := (C90_prefix pk h).1
    have hu' : writePk pk = writeVk pk.vk ++ u := hu.symm
    have hpk : PkText E1 E2 pk (w ++ t ++ u) := by
      refine ⟨w ++ t, writePoint pk.betaG1, writePoint pk.deltaG1, writeVec writePoint pk.aQuery, writeVec writePoint pk.bG1Query,
        writeVec writePoint pk.bG2Query, writeVec writePoint pk.hQuery, writeVec writePoint pk.lQuery, ?_, htext, writePoint_text h.betaG1,
        writePoint_text h.deltaG1, writeVec_text h.aQuery.1 fun P hP => writePoint_text (h.aQuery.2 P hP),
        writeVec_text h.bG1Query.1 fun P hP => writePoint_text (h.bG1Query.2 P hP),
        writeVec_text h.bG2Query.1 fun P hP => writePoint_text (h.bG2Query.2 P hP),
        writeVec_text h.hQuery.1 fun P hP => writePoint_text (h.hQuery.2 P hP),
        writeVec_text h.lQuery.1 fun P hP => writePoint_text (h.lQuery.2 P hP)⟩
      rw [writePk] at hu'
      simp only [List.append_assoc] at hu' ⊢
      rw [List.append_cancel_left hu']
    refine ⟨w ++ t ++ u, ?_, ?_, (parse_iff parses_readPk _ _).2 ⟨_, [], (List.append_nil _).symm, hpk⟩⟩
    · show _ ≠ writePk pk
      rw [hu', ht]
      exact fun e => h2 (List.append_cancel_right (List.append_cancel_right e))
    · show _ = (writePk pk).length
      rw [hu', ht]
      simp only [List.length_append, h3]
  · show _ ≠ writeVk pk.vk
    rw [ht]
    exact fun e => h2 (List.append_cancel_right e)
  · show _ = (writeVk pk.vk).length
    rw [ht]
    simp only [List.length_append, h3]
  · exact (parse_iff parses_readVk _ _).2 ⟨_, [], (List.append_nil _).symm, htext⟩

/-! ### Which of the texts is written -/

/-- **C90, points of the first group.** The writer sets the highest bit of `y` if `y` is greater than `-y`. -/
theorem C90_point1 (P : Affine Fp) : ∃ w0 w1, writePoint P = w0 ++ w1 ∧
    if P.infinity = true then FpText 0 w0 ∧ FpFlagText 0 .pointAtInfinity w1
    else FpText P.x w0 ∧ FpFlagText P.y (if 2 * P.y.val < basePrime then .yIsPositive else .yIsNegative) w1 := by
  obtain ⟨x, y, i⟩ := P
  unfold writePoint
  cases i with
  | true =>
    rw [if_pos rfl]
    exact ⟨_, _, rfl, by rw [if_pos rfl]; exact ⟨writeFp_text 0, writeFpFlags_text 0 _⟩⟩
  | false =>
    rw [if_neg (by simp)]
    refine ⟨_, _, rfl, ?_⟩
    rw [if_neg (by simp)]
    refine ⟨writeFp_text x, ?_⟩
    have hs : (⟨x, y, false⟩ : Affine Fp).toFlags = if 2 * y.val < basePrime then .yIsPositive else .yIsNegative := by
      unfold Affine.toFlags
      rw [if_neg (by simp)]
      have hle : (Coordinate.le y (Coordinate.neg y) = true) ↔ 2 * y.val < basePrime := le_neg y
      by_cases hy : 2 * y.val < basePrime
      · rw [if_pos (hle.2 hy), if_pos hy]
      · rw [if_neg (mt hle.1 hy), if_neg hy]
    rw [hs]
    exact writeFpFlags_text y _

/-- **C90, points of the second group.** The same, where the second coordinate decides, and the first one if that is zero. -/
theorem C90_point2 (P : Affine Fp2) : ∃ w0 w1 w2 w3, writePoint P = w0 ++ w1 ++ w2 ++ w3 ∧
    if P.infinity = true then FpText 0 w0 ∧ FpText 0 w1 ∧ FpText 0 w2 ∧ FpFlagText 0 .pointAtInfinity w3
    else FpText P.x.c0 w0 ∧ FpText P.x.c1 w1 ∧ FpText P.y.c0 w2 ∧
      FpFlagText P.y.c1 (if 2 * (if P.y.c1 = 0 then P.y.c0 else P.y.c1).val < basePrime then .yIsPositive else .yIsNegative) w3 := by
  obtain ⟨⟨x0, x1⟩, ⟨y0, y1⟩, i⟩ := P
  unfold writePoint
  cases i with
  | true =>
    rw [if_pos rfl]
    refine ⟨writeFp 0, writeFp 0, writeFp 0, writeFpFlags 0 .pointAtInfinity, by simp only [List.append_assoc]; rfl, ?_⟩
    rw [if_pos rfl]
    exact ⟨writeFp_text 0, writeFp_text 0, writeFp_text 0, writeFpFlags_text 0 _⟩
  | false =>
    rw [if_neg (by simp)]
    refine ⟨writeFp x0, writeFp x1, writeFp y0, writeFpFlags y1 _, by simp only [List.append_assoc]; rfl, ?_⟩
    rw [if_neg (by simp)]
    refine ⟨writeFp_text x0, writeFp_text x1, writeFp_text y0, ?_⟩
    have hs : (⟨⟨x0, x1⟩, ⟨y0, y1⟩, false⟩ : Affine Fp2).toFlags =
        if 2 * (if y1 = 0 then y0 else y1).val < basePrime then .yIsPositive else .yIsNegative := by
      unfold Affine.toFlags
      rw [if_neg (by simp)]
      have hle := le_neg2 y0 y1
      by_cases hy : 2 * (if y1 = 0 then y0 else y1).val < basePrime
      · rw [if_pos (hle.2 hy), if_pos hy]
      · rw [if_neg (mt hle.1 hy), if_neg hy]
    rw [hs]
    exact writeFpFlags_text y1 _

/-! ### Sizes -/

theorem point1_length (P : Affine Fp) : (writePoint P).length = 96 := by
  obtain ⟨w0, w1, e, h⟩ := C90_point1 P
  rw [e, List.length_append]
  split_ifs at h <;> rw [h.1.1, h.2.1]

theorem point2_length (P : Affine Fp2) : (writePoint P).length = 192 := by
  obtain ⟨w0, w1, w2, w3, e, h⟩ := C90_point2 P
  rw [e, List.length_append, List.length_append, List.length_append]
  split_ifs at h <;> rw [h.1.1, h.2.1.1, h.2.2.1.1, h.2.2.2.1]

theorem vec_length {α : Type} {write : α → List UInt8} {k : Nat} (h : ∀ x, (write x).length = k) (l : List α) :
    (writeVec write l).length = 8 + k * l.length := by
  rw [writeVec, List.length_append, leBytes_length]
  congr 1
  induction l with
  | nil => rfl
  | cons x l ih => rw [List.flatMap_cons, List.length_append, ih, h, List.length_cons]; ring

/-- **C90, sizes.** The files have 96 bytes for every point of the first group, 192 for every point of the second and 8 for every list. -/
theorem C90_sizes (pk : ProvingKey (Affine Fp) (Affine Fp2)) :
    (writeParams pk pk.vk).1.length = 96 * pk.points1.length + 192 * pk.points2.length + 8 * 6 ∧
    (writeParams pk pk.vk).2.length = 96 * (1 + pk.vk.gammaAbcG1.length) + 192 * 3 + 8 := by
  refine ⟨?_, ?_⟩
  · show (writePk pk).length = _
    simp only [writePk, writeVk, List.length_append, point1_length, point2_length, vec_length point1_length, vec_length point2_length,
      ProvingKey.points1, ProvingKey.points2, List.length_cons]
    ring
  · show (writeVk pk.vk).length = _
    simp only [writeVk, List.length_append, point1_length, point2_length, vec_length point1_length]
    ring

/-! ### The keys of the tests -/

variable {G1 G2 GT : Type} [AddCommGroup G1] [Module Fq G1] [AddCommGroup G2] [Module Fq G2] [AddCommGroup GT] [Module Fq GT]

theorem points1_count {G1 G2 : Type} (pk : ProvingKey G1 G2) : pk.points1.length = pk.vk.gammaAbcG1.length + pk.aQuery.length +
    pk.bG1Query.length + pk.hQuery.length + pk.lQuery.length + 1 + 1 + 1 := by
  simp only [ProvingKey.points1, List.length_cons, List.length_append]

theorem points2_count {G1 G2 : Type} (pk : ProvingKey G1 G2) : pk.points2.length = pk.bG2Query.length + 1 + 1 + 1 := rfl

theorem map_map {G1 G2 H1 H2 : Type} {f : G1 → H1} {g : G2 → H2} {f' : H1 → G1} {g' : H2 → G2} (hf : ∀ x, f' (f x) = x) (hg : ∀ x, g' (g x) = x)
    (pk : ProvingKey G1 G2) : (pk.map f g).map f' g' = pk := by
  have h1 : ∀ l : List G1, (l.map f).map f' = l := fun l => by
    rw [List.map_map, show f' ∘ f = id from funext hf, List.map_id]
  have h2 : ∀ l : List G2, (l.map g).map g' = l := fun l => by
    rw [List.map_map, show g' ∘ g = id from funext hg, List.map_id]
  obtain ⟨⟨a, b, c, d, e⟩, i, j, k, l, m, n, o⟩ := pk
  simp only [ProvingKey.map, VerifyingKey.map, hf, hg, h1, h2]

/-- **C90, generated keys.** A key that was generated on the domain of 4096 points, written, and read again, is the same key.  The files
have the sizes of the shipped ones, 1577232 and 1448 bytes.  Here `f` and `g` give the coordinates of the points of the groups, `f'` and `g'` the
points with these coordinates. -/
theorem C90_generated (d : Domain Fq) (hd : d.Good) (hs : d.size = 4096) (g1 : G1) (g2 : G2) (w : Secrets Fq) (hw : w.Usable)
    (c₀ : R1cs.PreimageCircuit) (f : G1 → Affine Fp) (f' : Affine Fp → G1) (g : G2 → Affine Fp2) (g' : Affine Fp2 → G2)
    (hf : ∀ x, ValidPoint E1 (f x) ∧ f' (f x) = x) (hg : ∀ x, ValidPoint E2 (g x) ∧ g' (g x) = x) :
    ∃ pk pk' vk', setup d g1 g2 w c₀ = .ok pk ∧
      preimagePk E1 E2 (writeParams (pk.map f g) (pk.vk.map f g)).1 = .ok pk' ∧ pk'.map f' g' = pk ∧
      preimageVk E1 E2 (writeParams (pk.map f g) (pk.vk.map f g)).2 = .ok vk' ∧ vk'.map f' g' = pk.vk ∧
      (writeParams (pk.map f g) (pk.vk.map f g)).1.length = 1577232 ∧ (writeParams (pk.map f g) (pk.vk.map f g)).2.length = 1448 := by
  obtain ⟨pk, h0, l1, l2, l3, l4, l5, l6⟩ := C86_lengths d hd hs g1 g2 w hw c₀
  have e := map_map (fun x => (hf x).2) (fun x => (hg x).2) pk
  have hv : ValidPk E1 E2 (pk.map f g) := by
    have hl1 : ∀ l : List G1, l.length ≤ 4095 → (l.map f).length < 2 ^ 64 ∧ ∀ P ∈ l.map f, ValidPoint E1 P := fun l hl =>
      ⟨by rw [List.length_map]; exact hl.trans_lt (by norm_num), fun P hP => by
        obtain ⟨x, -, rfl⟩ := List.mem_map.1 hP
        exact (hf x).1⟩
    have hl2 : ∀ l : List G2, l.length ≤ 4095 → (l.map g).length < 2 ^ 64 ∧ ∀ P ∈ l.map g, ValidPoint E2 P := fun l hl =>
      ⟨by rw [List.length_map]; exact hl.trans_lt (by norm_num), fun P hP => by
        obtain ⟨x, -, rfl⟩ := List.mem_map.1 hP
        exact (hg x).1⟩
    exact ⟨⟨(hf _).1, (hg _).1, (hg _).1, (hg _).1, hl1 _ (l1.trans_le (by decide))⟩, (hf _).1, (hf _).1, hl1 _ (l2.trans_le (by decide)),
      hl1 _ (l3.trans_le (by decide)), hl2 _ (l4.trans_le (by decide)), hl1 _ (l5.trans_le (by decide)), hl1 _ (l6.trans_le (by decide))⟩
  have hr := C90_roundtrip (pk.map f g) hv []
  rw [List.append_nil, List.append_nil] at hr
  have hz := C90_sizes (pk.map f g)
  refine ⟨pk, _, _, h0, hr.1, e, hr.2, congrArg ProvingKey.vk e, ?_, ?_⟩
  · refine hz.1.trans ?_
    simp only [ProvingKey.points1, ProvingKey.points2, ProvingKey.map, VerifyingKey.map, List.length_cons, List.length_append, List.length_map, l1, l2, l3, l4, l5, l6]
    rfl
  · refine hz.2.trans ?_
    simp only [ProvingKey.map, VerifyingKey.map, List.length_map, l1]
    rfl

/-- **C90, from the generator to the tests.** With keys that were generated, written and read again, the happy path of the tests passes,
for all preimages and all randomness. -/
theorem C90_happy_path [DecidableEq GT] (e : G1 →ₗ[Fq] G2 →ₗ[Fq] GT) (g1 : G1) (g2 : G2) (he : e g1 g2 ≠ 0) (d : Domain Fq) (hd : d.Good)
    (hs : d.size = 4096) (k : Fq) (hk : d.Coset k) (w : Secrets Fq) (hw : w.Usable) (c₀ : R1cs.PreimageCircuit) (f : G1 → Affine Fp)
    (f' : Affine Fp → G1) (g : G2 → Affine Fp2) (g' : Affine Fp2 → G2)
    (hf : ∀ x, ValidPoint E1 (f x) ∧ f' (f x) = x) (hg : ∀ x, ValidPoint E2 (g x) ∧ g' (g x) = x)
    (v : Vector Fq 7) (debug : Bool) (r s : Fq) :
    ∃ pk pk' vk', setup d g1 g2 w c₀ = .ok pk ∧ preimagePk E1 E2 (writeParams (pk.map f g) (pk.vk.map f g)).1 = .ok pk' ∧
      preimageVk E1 E2 (writeParams (pk.map f g) (pk.vk.map f g)).2 = .ok vk' ∧
      happyPath debug e d k (pk'.map f' g') (vk'.map f' g') r s v = .ok () := by
  obtain ⟨pk, pk', vk', h0, h1, h2, h3, h4, -⟩ := C90_generated d hd hs g1 g2 w hw c₀ f f' g g' hf hg
  refine ⟨pk, pk', vk', h0, h1, h3, ?_⟩
  obtain ⟨pk₂, h5, h6⟩ := C87_happy_path e g1 g2 he d hd (by omega) k hk w hw c₀ v debug r s
  rw [h0] at h5
  cases h5
  rw [h2, h4]
  exact h6

/-! ### The shipped files -/

/-- **C90, the shipped files.** All points of the shipped key are on their curves, so the two files are read as this key, for every test
for the subgroup that these points pass; and the files are those that would be written for it. -/
theorem C90_shipped (s1 : Affine Fp → Bool) (s2 : Affine Fp2 → Bool) (h1 : ∀ P ∈ shippedPk.points1, P.infinity = false → s1 P = true)
    (h2 : ∀ P ∈ shippedPk.points2, P.infinity = false → s2 P = true) :
    preimagePk (bls1 s1) (bls2 s2) (writeParams shippedPk shippedVk).1 = .ok shippedPk ∧
    preimageVk (bls1 s1) (bls2 s2) (writeParams shippedPk shippedVk).2 = .ok shippedVk := by
  have h := C90_roundtrip shippedPk (shippedPk_valid h1 h2) []
  rw [List.append_nil, List.append_nil] at h
  exact h

/-- **C90, the shipped key.** Its shape, with which the keys of the circuit were compared (C86), is that of its points; its files have
1577232 and 1448 bytes. -/
theorem C90_shipped_shape : shippedKey.Matches shippedPk ∧ (writeParams shippedPk shippedVk).1.length = 1577232 ∧
    (writeParams shippedPk shippedVk).2.length = 1448 := by
  have h := shipped_matches
  have hz := C90_sizes shippedPk
  refine ⟨h, hz.1.trans ?_, hz.2.trans ?_⟩
  · rw [show shippedPk.points1.length = shippedPk.vk.gammaAbcG1.length + shippedPk.aQuery.length + shippedPk.bG1Query.length +
      shippedPk.hQuery.length + shippedPk.lQuery.length + 1 + 1 + 1 from points1_count shippedPk,
      show shippedPk.points2.length = shippedPk.bG2Query.length + 1 + 1 + 1 from points2_count shippedPk,
      h.gammaAbcG1, h.aQuery, h.bG1Query, h.bG2Query, h.hQuery, h.lQuery]
    rfl
  · rw [h.gammaAbcG1]
    rfl

/-! ### The hypotheses are met -/

/-- The shipped key is valid, for the test that accepts all points; so there is a valid key with thousands of points. -/
example : ValidPk (bls1 fun _ => true) (bls2 fun _ => true) shippedPk := shippedPk_valid (fun _ _ _ => rfl) fun _ _ _ => rfl

/-- Some text is not a key. -/
example : preimagePk E1 E2 [] = .error .unwrapNone := rfl

/-- Curves with as many points as the field has elements. -/
theorem many_points {F : Type} [Coordinate F] [Fintype F] [DecidableEq F] (hq : q ≤ Fintype.card F)
    (hb : ∀ x y : F, ∃ b, Coordinate.mul y y = Coordinate.add (Coordinate.mul (Coordinate.mul x x) x) b) :
    ∃ (b : F) (f : Fq → Affine F) (f' : Affine F → Fq), ∀ x, ValidPoint ⟨b, fun _ => true⟩ (f x) ∧ f' (f x) = x := by
  choose b hb using hb
  have hc : (Finset.univ : Finset F).card * Fintype.card F ≤ (Finset.univ : Finset (F × F)).card := by
    rw [Finset.card_univ, Finset.card_univ, Fintype.card_prod]
  obtain ⟨c, -, h⟩ := Finset.exists_le_card_fiber_of_mul_le_card_of_maps_to (s := (Finset.univ : Finset (F × F))) (t := Finset.univ)
    (f := fun z => b z.1 z.2) (fun _ _ => Finset.mem_univ _)
    (Finset.card_pos.1 (by rw [Finset.card_univ]; exact (by decide +kernel : 0 < q).trans_le hq)) hc
  have hle : Fintype.card Fq ≤ Fintype.card {z : F × F // b z.1 z.2 = c} := by
    rw [ZMod.card, Fintype.card_subtype]
    exact hq.trans h
  obtain ⟨m⟩ := Function.Embedding.nonempty_of_card_le hle
  have hi : Function.Injective fun x => (⟨(m x).1.1, (m x).1.2, false⟩ : Affine F) := by
    intro x y e
    exact m.injective (Subtype.ext (Prod.ext (congrArg Affine.x e) (congrArg Affine.y e)))
  refine ⟨c, _, Function.invFun fun x => (⟨(m x).1.1, (m x).1.2, false⟩ : Affine F), fun x => ⟨.inr ⟨rfl, ?_, rfl⟩, Function.leftInverse_invFun hi x⟩⟩
  exact (hb _ _).trans (congrArg _ (m x).2)

/-- `Fp2` has finitely many elements. -/
def fp2Equiv : Fp2 ≃ Fp × Fp where
  toFun x := (x.c0, x.c1)
  invFun x := ⟨x.1, x.2⟩
  left_inv _ := rfl
  right_inv _ := rfl

/-- There are groups with a pairing and coordinates for their points, as in `C90_generated` and `C90_happy_path`: the field with
multiplication, and points of some curve. -/
theorem coordinates_exist : ∃ (E1 : Curve Fp) (E2 : Curve Fp2) (f : Fq → Affine Fp) (f' : Affine Fp → Fq) (g : Fq → Affine Fp2) (g' : Affine Fp2 → Fq),
    (∀ x, ValidPoint E1 (f x) ∧ f' (f x) = x) ∧ (∀ x, ValidPoint E2 (g x) ∧ g' (g x) = x) ∧
    (LinearMap.mul Fq Fq) 1 1 ≠ 0 ∧ domain4096.Good ∧ domain4096.size = 4096 := by
  have : Fintype Fp2 := Fintype.ofEquiv _ fp2Equiv.symm
  have hq : q ≤ basePrime := by decide +kernel
  obtain ⟨b1, f, f', h1⟩ := many_points (F := Fp) (hq.trans_eq (ZMod.card _).symm) fun x y => ⟨y * y - x * x * x, by
    show y * y = x * x * x + (y * y - x * x * x)
    ring⟩
  obtain ⟨b2, g, g', h2⟩ := many_points (F := Fp2) (by
      rw [Fintype.card_congr fp2Equiv, Fintype.card_prod, ZMod.card]
      exact hq.trans (Nat.le_mul_of_pos_left _ (NeZero.pos _))) fun x y => by
    refine ⟨⟨(Coordinate.mul y y).c0 - (Coordinate.mul (Coordinate.mul x x) x).c0, (Coordinate.mul y y).c1 - (Coordinate.mul (Coordinate.mul x x) x).c1⟩, ?_⟩
    generalize Coordinate.mul y y = a
    generalize Coordinate.mul (Coordinate.mul x x) x = c
    show a = Fp2.mk (c.c0 + (a.c0 - c.c0)) (c.c1 + (a.c1 - c.c1))
    rw [add_sub_cancel, add_sub_cancel]
  exact ⟨⟨b1, _⟩, ⟨b2, _⟩, f, f', g, g', h1, h2, by simp, domain4096_good, rfl⟩

end Poseidon
