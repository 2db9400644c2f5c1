import Verif.Spec.KeyFile
import Mathlib.Data.Nat.Digits.Lemmas
import Mathlib.Data.List.GetD
import Mathlib.Tactic.FinCases

/-!
# Readers and texts

`Parses r T`: the reader returns `x` exactly on the texts that denote `x`, and leaves what follows.
-/

namespace Poseidon.Groth16

/-- The reader returns `x` exactly on the texts that denote `x`, and leaves what follows. -/
def Parses {α : Type} (r : Reader α) (T : α → List UInt8 → Prop) : Prop :=
  ∀ s x rest, r s = .ok (x, rest) ↔ ∃ w, s = w ++ rest ∧ T x w

section
variable {α β : Type}

theorem Parses.of_iff {r : Reader α} {T U : α → List UInt8 → Prop} (h : Parses r T) (hU : ∀ x w, T x w ↔ U x w) : Parses r U := by
  intro s x rest
  rw [h]
  exact exists_congr fun w => and_congr_right fun _ => hU x w

theorem parses_pure (x : α) : Parses (Reader.pure x) fun y w => y = x ∧ w = [] := by
  intro s y rest
  unfold Reader.pure
  constructor
  · intro h
    cases h
    exact ⟨[], rfl, rfl, rfl⟩
  · rintro ⟨_, rfl, rfl, rfl⟩
    rfl

theorem parses_fail (e : SerError) : Parses (Reader.fail e : Reader α) fun _ _ => False := by
  intro s y rest
  unfold Reader.fail
  constructor
  · intro h
    cases h
  · rintro ⟨_, _, h⟩
    exact h.elim

theorem Parses.bind {r : Reader α} {T : α → List UInt8 → Prop} {f : α → Reader β} {U : α → β → List UInt8 → Prop} (hr : Parses r T)
    (hf : ∀ x, Parses (f x) (U x)) : Parses (r.bind f) fun y w => ∃ x w0 w1, w = w0 ++ w1 ∧ T x w0 ∧ U x y w1 := by
  intro s y rest
  unfold Reader.bind
  constructor
  · intro h
    rcases hrs : r s with e | ⟨x, s'⟩
    · rw [hrs] at h
      cases h
    · rw [hrs] at h
      obtain ⟨w0, rfl, h0⟩ := (hr _ _ _).1 hrs
      obtain ⟨w1, rfl, h1⟩ := (hf _ _ _ _).1 h
      exact ⟨w0 ++ w1, by simp, x, w0, w1, rfl, h0, h1⟩
  · rintro ⟨_, rfl, x, w0, w1, rfl, h0, h1⟩
    rw [(hr (w0 ++ w1 ++ rest) x (w1 ++ rest)).2 ⟨w0, by simp, h0⟩]
    exact (hf _ _ _ _).2 ⟨w1, rfl, h1⟩

theorem parses_readExact : ∀ n, Parses (readExact n) fun l w => l = w ∧ w.length = n
  | 0 => (parses_pure []).of_iff fun x w => by
      constructor
      · rintro ⟨rfl, rfl⟩
        exact ⟨rfl, rfl⟩
      · rintro ⟨rfl, h⟩
        rw [List.length_eq_zero_iff] at h
        exact ⟨h, h⟩
  | n + 1 => by
      intro s l rest
      unfold readExact
      cases s with
      | nil =>
        constructor
        · intro h
          cases h
        · rintro ⟨w, h, -, hw⟩
          have := congrArg List.length h
          simp at this
          omega
      | cons b s =>
        have := (parses_readExact n).bind (f := fun l => Reader.pure (b :: l)) fun l => parses_pure (b :: l)
        dsimp only
        rw [this]
        constructor
        · rintro ⟨_, rfl, l', w0, w1, rfl, ⟨rfl, h1⟩, rfl, rfl⟩
          exact ⟨b :: l', by simp, rfl, by simp [h1]⟩
        · rintro ⟨w, h, rfl, hw⟩
          cases l with
          | nil => simp at hw
          | cons c l =>
            simp only [List.cons_append, List.cons.injEq] at h
            obtain ⟨rfl, rfl⟩ := h
            exact ⟨l, rfl, l, l, [], by simp, ⟨rfl, by simpa using hw⟩, rfl, rfl⟩

theorem Parses.unique {r : Reader α} {T : α → List UInt8 → Prop} (h : Parses r T) {x y : α} {w w' t t' : List UInt8} (hx : T x w) (hy : T y w')
    (he : w ++ t = w' ++ t') : x = y ∧ t = t' := by
  have h1 := (h (w ++ t) x t).2 ⟨w, rfl, hx⟩
  rw [he, (h (w' ++ t') y t').2 ⟨w', rfl, hy⟩] at h1
  cases h1
  exact ⟨rfl, rfl⟩

/-- A text that is cut off is not read. -/
theorem Parses.cut {r : Reader α} {T : α → List UInt8 → Prop} (h : Parses r T) {x : α} {s t : List UInt8} (hx : T x (s ++ t)) (ht : t ≠ []) :
    ∃ e, r s = .error e := by
  rcases hs : r s with e | ⟨y, rest⟩
  · exact ⟨e, rfl⟩
  · obtain ⟨w, rfl, hw⟩ := (h _ _ _).1 hs
    obtain ⟨-, h2⟩ := h.unique (t := []) (t' := rest ++ t) hx hw (by simp)
    exact (ht (List.append_eq_nil_iff.1 h2.symm).2).elim

end

/-! ### Numbers -/

theorem number_nil : number [] = 0 := rfl

theorem number_cons (b : UInt8) (l : List UInt8) : number (b :: l) = b.toNat + 256 * number l := by simp [number, Nat.ofDigits_cons]

theorem number_append (l l' : List UInt8) : number (l ++ l') = number l + 256 ^ l.length * number l' := by
  simp [number, Nat.ofDigits_append]

theorem number_lt (l : List UInt8) : number l < 256 ^ l.length := by
  have := Nat.ofDigits_lt_base_pow_length (b := 256) (l := l.map UInt8.toNat) (by norm_num) (by
    intro x hx
    obtain ⟨b, -, rfl⟩ := List.mem_map.1 hx
    exact b.toNat_lt)
  rwa [List.length_map] at this

theorem leNat_eq : ∀ l, leNat l = number l
  | [] => rfl
  | b :: l => by rw [leNat, leNat_eq l, number_cons]

theorem leBytes_length : ∀ n x, (leBytes n x).length = n
  | 0, _ => rfl
  | n + 1, x => by rw [leBytes, List.length_cons, leBytes_length n]

theorem number_leBytes : ∀ n x, x < 256 ^ n → number (leBytes n x) = x
  | 0, x, h => by
    rw [pow_zero] at h
    rw [leBytes, number_nil]
    omega
  | n + 1, x, h => by
    rw [leBytes, number_cons, number_leBytes n _ (by rw [pow_succ] at h; omega), UInt8.toNat_ofNat', show 2 ^ 8 = 256 from rfl]
    omega

theorem number_inj : ∀ {l l' : List UInt8}, l.length = l'.length → number l = number l' → l = l'
  | [], [], _, _ => rfl
  | [], _ :: _, h, _ => by simp at h
  | _ :: _, [], h, _ => by simp at h
  | b :: l, c :: l', h, h' => by
    rw [number_cons, number_cons] at h'
    have hb := b.toNat_lt
    have hc := c.toNat_lt
    have e1 : b.toNat = c.toNat := by omega
    have e2 : number l = number l' := by omega
    rw [UInt8.toNat_inj.1 e1, number_inj (by simpa using h) e2]

/-! ### Field elements -/

theorem basePrime_lt : basePrime < 256 ^ 47 * 64 := by decide +kernel

theorem two382 : 2 ^ 382 = 256 ^ 47 * 64 := by decide +kernel

theorem fp_lt (x : Fp) : x.val < 256 ^ 47 * 64 := (ZMod.val_lt x).trans basePrime_lt

theorem parses_fromBigint (n : Nat) : Parses (fromBigint n) fun x w => w = [] ∧ n = x.val := by
  unfold fromBigint
  split_ifs with h
  · refine (parses_pure _).of_iff fun x w => ?_
    constructor
    · rintro ⟨rfl, rfl⟩
      exact ⟨rfl, (ZMod.val_cast_of_lt h).symm⟩
    · rintro ⟨rfl, rfl⟩
      exact ⟨(ZMod.natCast_zmod_val x).symm, rfl⟩
  · refine (parses_fail _).of_iff fun x w => ?_
    constructor
    · exact False.elim
    · rintro ⟨-, rfl⟩
      exact h (ZMod.val_lt x)

theorem parses_readFp : Parses readFp FpText := by
  refine ((parses_readExact fpBytes).bind fun l => parses_fromBigint (leNat l)).of_iff fun x w => ?_
  constructor
  · rintro ⟨l, w0, w1, rfl, ⟨rfl, h⟩, rfl, h'⟩
    rw [List.append_nil]
    exact ⟨h, by rw [← leNat_eq, h']⟩
  · rintro ⟨h, h'⟩
    exact ⟨w, w, [], by simp, ⟨rfl, h⟩, rfl, by rw [leNat_eq, h']⟩

theorem writeFp_text (x : Fp) : FpText x (writeFp x) :=
  ⟨leBytes_length _ _, number_leBytes _ _ ((fp_lt x).trans (by decide +kernel))⟩

/-- What holds for the 256 bytes. -/
theorem all_bytes {p : UInt8 → Prop} (h : ∀ n : Fin 256, p (UInt8.ofNat n.val)) (b : UInt8) : p b := by
  have := h ⟨b.toNat, b.toNat_lt⟩
  rwa [UInt8.ofNat_toNat] at this

theorem fromU8_iff : ∀ (b : UInt8) (f : SWFlags), SWFlags.fromU8 b = some f ↔ b.toNat / 64 = f.code := by
  intro b f
  revert b
  refine all_bytes ?_
  cases f <;> decide +kernel

theorem clear_toNat : ∀ (b : UInt8) (f : SWFlags), b.toNat / 64 = f.code → (b &&& ~~~ f.mask).toNat = b.toNat - 64 * f.code := by
  intro b f
  revert b
  refine all_bytes ?_
  cases f <;> decide +kernel

theorem or_toNat : ∀ (b : UInt8) (f : SWFlags), b.toNat < 64 → (b ||| f.mask).toNat = b.toNat + 64 * f.code := by
  intro b f
  revert b
  refine all_bytes ?_
  cases f <;> decide +kernel

theorem orLast_append (m b : UInt8) : ∀ l, orLast m (l ++ [b]) = l ++ [b ||| m]
  | [] => rfl
  | [c] => rfl
  | c :: d :: l => by
    have := orLast_append m b (d :: l)
    simp only [List.cons_append] at this ⊢
    rw [orLast, this]

theorem clearLast_append (m b : UInt8) : ∀ l, clearLast m (l ++ [b]) = l ++ [b &&& ~~~ m]
  | [] => rfl
  | [c] => rfl
  | c :: d :: l => by
    have := clearLast_append m b (d :: l)
    simp only [List.cons_append] at this ⊢
    rw [clearLast, this]

theorem split_last {w : List UInt8} (h : w.length = 48) : ∃ l b, w = l ++ [b] ∧ l.length = 47 := by
  have hne : w ≠ [] := by
    rintro rfl
    simp at h
  refine ⟨w.dropLast, w.getLast hne, (List.dropLast_append_getLast hne).symm, ?_⟩
  rw [List.length_dropLast, h]

theorem number_snoc {l : List UInt8} (h : l.length = 47) (b : UInt8) : number (l ++ [b]) = number l + 256 ^ 47 * b.toNat := by
  rw [number_append, h, number_cons, number_nil, Nat.mul_zero, Nat.add_zero]

/-- The arithmetic behind the flags. -/
theorem flag_arith {K m b c v : Nat} (hm : m < K) (hv : v < K * 64) : (m + K * b = v + c * (K * 64) ↔ b / 64 = c ∧ m + K * (b - 64 * c) = v) := by
  have hK : 0 < K := by omega
  constructor
  · intro h
    have h1 : (m + K * b) / K = b := by rw [Nat.add_mul_div_left _ _ hK, Nat.div_eq_of_lt hm, Nat.zero_add]
    have h2 : b / 64 = c := by
      have h3 : (m + K * b) / (K * 64) = b / 64 := by rw [← Nat.div_div_eq_div_mul, h1]
      rw [← h3, h, Nat.add_mul_div_right _ _ (by omega), Nat.div_eq_of_lt hv, Nat.zero_add]
    refine ⟨h2, ?_⟩
    have h4 : 64 * c ≤ b := by omega
    rw [Nat.mul_sub, show K * (64 * c) = c * (K * 64) by ring]
    have : c * (K * 64) ≤ K * b := by
      rw [show c * (K * 64) = K * (64 * c) by ring]
      exact Nat.mul_le_mul_left _ h4
    omega
  · rintro ⟨h1, h2⟩
    have h4 : 64 * c ≤ b := by omega
    rw [← h2, Nat.mul_sub, show K * (64 * c) = c * (K * 64) by ring]
    have : c * (K * 64) ≤ K * b := by
      rw [show c * (K * 64) = K * (64 * c) by ring]
      exact Nat.mul_le_mul_left _ h4
    omega

theorem flagText_iff {l : List UInt8} (h : l.length = 47) (b : UInt8) (x : Fp) (f : SWFlags) :
    FpFlagText x f (l ++ [b]) ↔ SWFlags.fromU8 b = some f ∧ number (clearLast f.mask (l ++ [b])) = x.val := by
  have hl : (l ++ [b]).length = 48 := by rw [List.length_append, h]; rfl
  have hlt : number l < 256 ^ 47 := h ▸ number_lt l
  rw [FpFlagText, and_iff_right hl, number_snoc h, two382, flag_arith hlt (fp_lt x), fromU8_iff, clearLast_append, number_snoc h]
  refine and_congr_right fun hb => ?_
  rw [clear_toNat b f hb]

theorem parses_readFpFlags : Parses readFpFlags fun xf w => FpFlagText xf.1 xf.2 w := by
  have key : ∀ l : List UInt8, Parses (match SWFlags.fromU8 (l.getLastD 0) with
      | none => Reader.fail .unexpectedFlags
      | some f => (fromBigint (leNat (clearLast f.mask l))).bind fun x => Reader.pure (x, f) : Reader (Fp × SWFlags))
      fun xf w => w = [] ∧ SWFlags.fromU8 (l.getLastD 0) = some xf.2 ∧ number (clearLast xf.2.mask l) = xf.1.val := by
    intro l
    cases hf : SWFlags.fromU8 (l.getLastD 0) with
    | none => exact (parses_fail _).of_iff fun x w => by simp
    | some f =>
      refine ((parses_fromBigint _).bind fun x => parses_pure (x, f)).of_iff fun xf w => ?_
      constructor
      · rintro ⟨x, w0, w1, rfl, ⟨rfl, h1⟩, rfl, rfl⟩
        exact ⟨rfl, rfl, by rw [← leNat_eq, h1]⟩
      · rintro ⟨rfl, h1, h2⟩
        obtain ⟨x, f'⟩ := xf
        cases h1
        exact ⟨x, [], [], rfl, ⟨rfl, by rw [leNat_eq, h2]⟩, rfl, rfl⟩
  refine ((parses_readExact fpBytes).bind key).of_iff fun xf w => ?_
  constructor
  · rintro ⟨l, w0, w1, rfl, ⟨rfl, h⟩, rfl, h1, h2⟩
    obtain ⟨l', b, rfl, hl⟩ := split_last h
    rw [List.append_nil, flagText_iff hl]
    exact ⟨by simpa using h1, h2⟩
  · intro h
    obtain ⟨l, b, rfl, hl⟩ := split_last h.1
    rw [flagText_iff hl] at h
    exact ⟨l ++ [b], l ++ [b], [], by simp, ⟨rfl, by rw [List.length_append, hl]; rfl⟩, rfl, by simpa using h.1, h.2⟩

theorem writeFpFlags_text (x : Fp) (f : SWFlags) : FpFlagText x f (writeFpFlags x f) := by
  obtain ⟨h1, h2⟩ := writeFp_text x
  obtain ⟨l, b, hw, hl⟩ := split_last h1
  unfold writeFpFlags
  rw [hw] at h2 ⊢
  rw [number_snoc hl] at h2
  have hb : b.toNat < 64 := by
    have := fp_lt x
    rw [← h2] at this
    by_contra hb
    have : 256 ^ 47 * 64 ≤ 256 ^ 47 * b.toNat := Nat.mul_le_mul_left _ (by omega)
    omega
  rw [orLast_append]
  refine ⟨by rw [List.length_append, hl]; rfl, ?_⟩
  rw [number_snoc hl, or_toNat b f hb, two382, ← h2]
  ring

/-- The texts of coordinates are what the readers accept and the writers write. -/
class LawfulCoordinate (F : Type) [Coordinate F] [CoordinateText F] : Prop where
  read : Parses (Coordinate.read : Reader F) CoordinateText.text
  readFlags : Parses (Coordinate.readFlags : Reader (F × SWFlags)) fun xf w => CoordinateText.flagText xf.1 xf.2 w
  write (x : F) : CoordinateText.text x (Coordinate.write x)
  writeFlags (x : F) (f : SWFlags) : CoordinateText.flagText x f (Coordinate.writeFlags x f)

instance : LawfulCoordinate Fp := ⟨parses_readFp, parses_readFpFlags, writeFp_text, writeFpFlags_text⟩

instance : LawfulCoordinate Fp2 where
  read := by
    refine (parses_readFp.bind fun c0 => parses_readFp.bind fun c1 => parses_pure (⟨c0, c1⟩ : Fp2)).of_iff fun x w => ?_
    constructor
    · rintro ⟨c0, w0, w1, rfl, h0, c1, w2, w3, rfl, h1, rfl, rfl⟩
      exact ⟨w0, w2, by simp, h0, h1⟩
    · rintro ⟨w0, w1, rfl, h0, h1⟩
      exact ⟨x.c0, w0, w1, rfl, h0, x.c1, w1, [], by simp, h1, rfl, rfl⟩
  readFlags := by
    refine (parses_readFp.bind fun c0 => parses_readFpFlags.bind fun c => parses_pure ((⟨c0, c.1⟩ : Fp2), c.2)).of_iff fun x w => ?_
    constructor
    · rintro ⟨c0, w0, w1, rfl, h0, c1, w2, w3, rfl, h1, rfl, rfl⟩
      exact ⟨w0, w2, by simp, h0, h1⟩
    · rintro ⟨w0, w1, rfl, h0, h1⟩
      exact ⟨x.1.c0, w0, w1, rfl, h0, (x.1.c1, x.2), w1, [], by simp, h1, rfl, rfl⟩
  write x := ⟨_, _, rfl, writeFp_text _, writeFp_text _⟩
  writeFlags x f := ⟨_, _, rfl, writeFp_text _, writeFpFlags_text _ _⟩

/-! ### Points -/

section
variable {F : Type} [Coordinate F]

theorem check_iff [DecidableEq F] (E : Curve F) (x y : F) : (⟨x, y, false⟩ : Affine F).check E = true ↔ ValidPoint E ⟨x, y, false⟩ := by
  unfold Affine.check Affine.isOnCurve ValidPoint Affine.identity
  simp

variable [CoordinateText F]

theorem PointText.valid {E : Curve F} {P : Affine F} {w : List UInt8} (h : PointText E P w) : ValidPoint E P := by
  obtain ⟨x, y, f, w0, w1, -, -, -, ⟨-, h⟩ | ⟨-, -, h⟩⟩ := h
  · exact .inl h
  · exact h

variable [LawfulCoordinate F]

theorem parses_readPoint [DecidableEq F] (E : Curve F) : Parses (readPoint E) (PointText E) := by
  have key : ∀ (x : F) (yf : F × SWFlags), Parses (if yf.2 = .pointAtInfinity then Reader.pure Affine.identity
      else if (⟨x, yf.1, false⟩ : Affine F).check E then Reader.pure ⟨x, yf.1, false⟩ else Reader.fail .invalidData : Reader (Affine F))
      fun P w => w = [] ∧ (yf.2 = .pointAtInfinity ∧ P = Affine.identity ∨ yf.2 ≠ .pointAtInfinity ∧ P = ⟨x, yf.1, false⟩ ∧ ValidPoint E P) := by
    rintro x ⟨y, f⟩
    dsimp only
    split_ifs with h1 h2
    · exact (parses_pure _).of_iff fun P w => by simp [h1, and_comm]
    · refine (parses_pure _).of_iff fun P w => ?_
      rw [check_iff] at h2
      constructor
      · rintro ⟨rfl, rfl⟩
        exact ⟨rfl, .inr ⟨h1, rfl, h2⟩⟩
      · rintro ⟨rfl, h | h⟩
        · exact (h1 h.1).elim
        · exact ⟨h.2.1, rfl⟩
    · refine (parses_fail _).of_iff fun P w => ?_
      rw [check_iff] at h2
      constructor
      · exact False.elim
      · rintro ⟨rfl, h | ⟨_, rfl, h⟩⟩
        · exact (h1 h.1).elim
        · exact h2 h
  refine ((LawfulCoordinate.read (F := F)).bind fun x => (LawfulCoordinate.readFlags (F := F)).bind (key x)).of_iff fun P w => ?_
  constructor
  · rintro ⟨x, w0, w1, rfl, h0, ⟨y, f⟩, w2, w3, rfl, h1, rfl, h2⟩
    exact ⟨x, y, f, w0, w2, by simp, h0, h1, h2⟩
  · rintro ⟨x, y, f, w0, w1, rfl, h0, h1, h2⟩
    exact ⟨x, w0, w1, rfl, h0, (y, f), w1, [], by simp, h1, rfl, h2⟩

theorem writePoint_text {E : Curve F} {P : Affine F} (h : ValidPoint E P) : PointText E P (writePoint P) := by
  obtain ⟨x, y, i⟩ := P
  unfold writePoint
  cases i with
  | true =>
    rw [if_pos rfl]
    refine ⟨_, _, _, _, _, rfl, LawfulCoordinate.write _, LawfulCoordinate.writeFlags _ _, .inl ⟨rfl, ?_⟩⟩
    rcases h with h | ⟨h, -⟩
    · exact h
    · cases h
  | false =>
    rw [if_neg (by simp)]
    refine ⟨_, _, _, _, _, rfl, LawfulCoordinate.write _, LawfulCoordinate.writeFlags _ _, .inr ⟨?_, rfl, h⟩⟩
    unfold Affine.toFlags
    rw [if_neg (by simp)]
    split_ifs <;> simp

end

/-! ### Lists -/

section
variable {α : Type} {read : Reader α} {T : α → List UInt8 → Prop}

theorem parses_readMany (h : Parses read T) : ∀ n, Parses (readMany read n) fun l w => l.length = n ∧ ∃ ws : List (List UInt8), w = ws.flatten ∧ List.Forall₂ T l ws
  | 0 => (parses_pure []).of_iff fun l w => by
      constructor
      · rintro ⟨rfl, rfl⟩
        exact ⟨rfl, [], rfl, .nil⟩
      · rintro ⟨h, ws, rfl, hw⟩
        rw [List.length_eq_zero_iff] at h
        subst h
        cases hw
        exact ⟨rfl, rfl⟩
  | n + 1 => by
      refine (h.bind fun x => (parses_readMany h n).bind fun l => parses_pure (x :: l)).of_iff fun l w => ?_
      constructor
      · rintro ⟨x, w0, w1, rfl, h0, l', w2, w3, rfl, ⟨h1, ws, rfl, h2⟩, rfl, rfl⟩
        exact ⟨by simp [h1], w0 :: ws, by simp, .cons h0 h2⟩
      · rintro ⟨h1, ws, rfl, h2⟩
        cases h2 with
        | nil => simp at h1
        | cons h0 h2 =>
          rename_i x w0 l ws
          exact ⟨x, w0, ws.flatten, by simp, h0, l, ws.flatten, [], by simp, ⟨by simpa using h1, ws, rfl, h2⟩, rfl, rfl⟩

theorem parses_readVec (h : Parses read T) : Parses (readVec read) (VecText T) := by
  refine ((parses_readExact 8).bind fun l => parses_readMany h (leNat l)).of_iff fun l w => ?_
  constructor
  · rintro ⟨n, w0, w1, rfl, ⟨rfl, h0⟩, h1, ws, rfl, h2⟩
    exact ⟨n, ws, rfl, h0, by rw [← leNat_eq, h1], h2⟩
  · rintro ⟨n, ws, rfl, h0, h1, h2⟩
    exact ⟨n, n, _, rfl, ⟨rfl, h0⟩, by rw [leNat_eq, h1], ws, rfl, h2⟩

theorem writeVec_text {write : α → List UInt8} {l : List α} (hl : l.length < 2 ^ 64) (h : ∀ x ∈ l, T x (write x)) : VecText T l (writeVec write l) := by
  refine ⟨leBytes 8 l.length, l.map write, by rw [writeVec, List.flatMap_def], leBytes_length _ _, number_leBytes _ _ (hl.trans_eq (by norm_num)), ?_⟩
  rw [List.forall₂_map_right_iff]
  exact List.forall₂_same.2 h

theorem VecText.valid {p : α → Prop} (h : ∀ {x w}, T x w → p x) {l : List α} {w : List UInt8} (hl : VecText T l w) : l.length < 2 ^ 64 ∧ ∀ x ∈ l, p x := by
  obtain ⟨n, ws, rfl, h0, h1, h2⟩ := hl
  refine ⟨?_, ?_⟩
  · rw [← h1]
    exact (h0 ▸ number_lt n).trans_eq (by norm_num)
  · clear h1
    induction h2 with
    | nil => simp
    | cons hx _ ih =>
      intro x hx'
      rcases List.mem_cons.1 hx' with rfl | hx'
      · exact h hx
      · exact ih x hx'

end

/-! ### Keys -/

section
variable {E1 : Curve Fp} {E2 : Curve Fp2}

theorem parses_readVk : Parses (readVk E1 E2) (VkText E1 E2) := by
  refine ((parses_readPoint E1).bind fun _ => (parses_readPoint E2).bind fun _ => (parses_readPoint E2).bind fun _ => (parses_readPoint E2).bind fun _ =>
    (parses_readVec (parses_readPoint E1)).bind fun _ => parses_pure _).of_iff fun vk w => ?_
  constructor
  · rintro ⟨_, a, _, rfl, ha, _, b, _, rfl, hb, _, c, _, rfl, hc, _, d, _, rfl, hd, _, e, _, rfl, he, rfl, rfl⟩
    exact ⟨a, b, c, d, e, by simp, ha, hb, hc, hd, he⟩
  · rintro ⟨a, b, c, d, e, rfl, ha, hb, hc, hd, he⟩
    exact ⟨_, a, b ++ (c ++ (d ++ e)), by simp only [List.append_assoc], ha, _, b, _, rfl, hb, _, c, _, rfl, hc, _, d, _, rfl, hd, _, e, [], (List.append_nil e).symm, he, rfl, rfl⟩

theorem parses_readPk : Parses (readPk E1 E2) (PkText E1 E2) := by
  refine (parses_readVk.bind fun _ => (parses_readPoint E1).bind fun _ => (parses_readPoint E1).bind fun _ => (parses_readVec (parses_readPoint E1)).bind fun _ =>
    (parses_readVec (parses_readPoint E1)).bind fun _ => (parses_readVec (parses_readPoint E2)).bind fun _ => (parses_readVec (parses_readPoint E1)).bind fun _ =>
    (parses_readVec (parses_readPoint E1)).bind fun _ => parses_pure _).of_iff fun vk w => ?_
  constructor
  · rintro ⟨_, v, _, rfl, hv, _, a, _, rfl, ha, _, b, _, rfl, hb, _, c, _, rfl, hc, _, d, _, rfl, hd, _, e, _, rfl, he, _, f, _, rfl, hf, _, g, _, rfl, hg, rfl, rfl⟩
    exact ⟨v, a, b, c, d, e, f, g, by simp, hv, ha, hb, hc, hd, he, hf, hg⟩
  · rintro ⟨v, a, b, c, d, e, f, g, rfl, hv, ha, hb, hc, hd, he, hf, hg⟩
    exact ⟨_, v, a ++ (b ++ (c ++ (d ++ (e ++ (f ++ g))))), by simp only [List.append_assoc], hv, _, a, _, rfl, ha, _, b, _, rfl, hb, _, c, _, rfl, hc, _, d, _, rfl, hd, _, e, _, rfl, he, _, f, _, rfl, hf, _, g, [],
      (List.append_nil g).symm, hg, rfl, rfl⟩

theorem writeVk_text {vk : VerifyingKey (Affine Fp) (Affine Fp2)} (h : ValidVk E1 E2 vk) : VkText E1 E2 vk (writeVk vk) :=
  ⟨_, _, _, _, _, rfl, writePoint_text h.1, writePoint_text h.2, writePoint_text h.3, writePoint_text h.4,
    writeVec_text h.5.1 fun _ hx => writePoint_text (h.5.2 _ hx)⟩

theorem writePk_text {pk : ProvingKey (Affine Fp) (Affine Fp2)} (h : ValidPk E1 E2 pk) : PkText E1 E2 pk (writePk pk) :=
  ⟨_, _, _, _, _, _, _, _, rfl, writeVk_text h.1, writePoint_text h.2, writePoint_text h.3, writeVec_text h.4.1 fun _ hx => writePoint_text (h.4.2 _ hx),
    writeVec_text h.5.1 fun _ hx => writePoint_text (h.5.2 _ hx), writeVec_text h.6.1 fun _ hx => writePoint_text (h.6.2 _ hx),
    writeVec_text h.7.1 fun _ hx => writePoint_text (h.7.2 _ hx), writeVec_text h.8.1 fun _ hx => writePoint_text (h.8.2 _ hx)⟩

theorem VecText.points {F : Type} [Coordinate F] [CoordinateText F] {E : Curve F} {l : List (Affine F)} {w : List UInt8}
    (h : VecText (PointText E) l w) : l.length < 2 ^ 64 ∧ ∀ P ∈ l, ValidPoint E P := VecText.valid (p := ValidPoint E) PointText.valid h

theorem VkText.valid {vk : VerifyingKey (Affine Fp) (Affine Fp2)} {w : List UInt8} (h : VkText E1 E2 vk w) : ValidVk E1 E2 vk := by
  obtain ⟨a, b, c, d, e, -, ha, hb, hc, hd, he⟩ := h
  exact ⟨ha.valid, hb.valid, hc.valid, hd.valid, he.points⟩

theorem PkText.valid {pk : ProvingKey (Affine Fp) (Affine Fp2)} {w : List UInt8} (h : PkText E1 E2 pk w) : ValidPk E1 E2 pk := by
  obtain ⟨v, a, b, c, d, e, f, g, -, hv, ha, hb, hc, hd, he, hf, hg⟩ := h
  exact ⟨hv.valid, ha.valid, hb.valid, hc.points, hd.points,
    he.points, hf.points, hg.points⟩

end

/-! ### Signs -/

theorem val_neg_iff {p : Nat} [NeZero p] (hp : p % 2 = 1) (y : ZMod p) : y.val ≤ (-y).val ↔ 2 * y.val < p := by
  by_cases h : y = 0
  · subst h
    rw [neg_zero, ZMod.val_zero]
    have := NeZero.pos p
    omega
  · have : NeZero y := ⟨h⟩
    rw [ZMod.val_neg_of_ne_zero]
    have := ZMod.val_lt y
    omega

theorem le_neg (y : Fp) : (Coordinate.le y (Coordinate.neg y) = true) ↔ 2 * y.val < basePrime := by
  show decide (y.val ≤ (-y).val) = true ↔ _
  rw [decide_eq_true_iff]
  exact val_neg_iff (by decide) y

theorem le_neg2 (y0 y1 : Fp) : (Coordinate.le (⟨y0, y1⟩ : Fp2) (Coordinate.neg ⟨y0, y1⟩) = true) ↔
    2 * (if y1 = 0 then y0 else y1).val < basePrime := by
  show (decide (y1.val < (-y1).val) || y1.val == (-y1).val && decide (y0.val ≤ (-y0).val)) = true ↔ _
  rw [Bool.or_eq_true, Bool.and_eq_true, decide_eq_true_iff, decide_eq_true_iff, beq_iff_eq]
  have h0 := val_neg_iff (p := basePrime) (by decide) y0
  have h1 := val_neg_iff (p := basePrime) (by decide) y1
  split_ifs with h
  · subst h
    rw [neg_zero, ← h0]
    simp only [lt_self_iff_false, true_and, false_or]
  · have hne : y1.val ≠ (-y1).val := fun e => by
      have h2 := h1.1 e.le
      have : NeZero y1 := ⟨h⟩
      have hpos : y1.val ≠ 0 := fun h3 => h ((ZMod.val_eq_zero y1).1 h3)
      rw [ZMod.val_neg_of_ne_zero] at e
      omega
    rw [← h1]
    constructor
    · rintro (h2 | ⟨h2, -⟩)
      · exact h2.le
      · exact absurd h2 hne
    · exact fun h2 => .inl (lt_of_le_of_ne h2 hne)

end Poseidon.Groth16
