import Verif.Model.KeyPoints
import Verif.Model.KeyShape
import Verif.Spec.Groth16
import Verif.Proofs.KeyFile

/-!
# The points of the shipped key

All of them are on their curves, evaluated by the kernel.
-/

namespace Poseidon.Groth16

/-- Coordinates of packed points. -/
def raw1 : Nat → Nat → List (Nat × Nat)
  | 0, _ => []
  | k + 1, n => (n % 2 ^ 384, n / 2 ^ 384 % 2 ^ 384) :: raw1 k (n / 2 ^ 768)

/-- The point with these coordinates. -/
def toPoint1 (c : Nat × Nat) : Affine Fp := if c.1 = 0 ∧ c.2 = 0 then Affine.identity else ⟨c.1, c.2, false⟩

theorem unpack1_eq : ∀ k n, unpack1 k n = (raw1 k n).map toPoint1
  | 0, _ => rfl
  | k + 1, n => by rw [unpack1, raw1, List.map_cons, unpack1_eq k]; rfl

/-- Two zeros, or coordinates of a point of the curve. -/
def ok1 (c : Nat × Nat) : Bool :=
  (Nat.beq c.1 0 && Nat.beq c.2 0) ||
    (Nat.blt c.1 basePrime && Nat.blt c.2 basePrime && Nat.beq (c.2 * c.2 % basePrime) ((c.1 * c.1 * c.1 + 1) % basePrime))

/-- The same for points of the second group. -/
def raw2 : Nat → Nat → List ((Nat × Nat) × Nat × Nat)
  | 0, _ => []
  | k + 1, n => ((n % 2 ^ 384, n / 2 ^ 384 % 2 ^ 384), n / 2 ^ 768 % 2 ^ 384, n / 2 ^ 1152 % 2 ^ 384) :: raw2 k (n / 2 ^ 1536)

/-- The point with these coordinates. -/
def toPoint2 (c : (Nat × Nat) × Nat × Nat) : Affine Fp2 :=
  if c.1.1 = 0 ∧ c.1.2 = 0 ∧ c.2.1 = 0 ∧ c.2.2 = 0 then Affine.identity else ⟨⟨c.1.1, c.1.2⟩, ⟨c.2.1, c.2.2⟩, false⟩

theorem unpack2_eq : ∀ k n, unpack2 k n = (raw2 k n).map toPoint2
  | 0, _ => rfl
  | k + 1, n => by rw [unpack2, raw2, List.map_cons, unpack2_eq k]; rfl

/-- Products in the quadratic extension. -/
def mulNat (x y : Nat × Nat) : Nat × Nat :=
  ((x.1 * y.1 + (basePrime - 5) * (x.2 * y.2)) % basePrime, (x.1 * y.2 + x.2 * y.1) % basePrime)

/-- Four zeros, or coordinates of a point of the curve. -/
def ok2 (c : (Nat × Nat) × Nat × Nat) : Bool :=
  (Nat.beq c.1.1 0 && Nat.beq c.1.2 0 && Nat.beq c.2.1 0 && Nat.beq c.2.2 0) ||
    (let y := mulNat c.2 c.2
     let x := mulNat (mulNat c.1 c.1) c.1
     Nat.beq y.1 x.1 && Nat.beq y.2
      ((x.2 + twistB) % basePrime))

theorem natBeq_eq {a b : Nat} : Nat.beq a b = true ↔ a = b := ⟨Nat.eq_of_beq_eq_true, fun h => h ▸ Nat.beq_refl a⟩

theorem valid1 (s : Affine Fp → Bool) {c : Nat × Nat} (h : ok1 c = true) (hs : (toPoint1 c).infinity = false → s (toPoint1 c) = true) :
    ValidPoint (bls1 s) (toPoint1 c) := by
  obtain ⟨x, y⟩ := c
  unfold toPoint1 at hs ⊢
  dsimp only at hs ⊢
  split_ifs at hs ⊢ with h0
  · exact .inl rfl
  · unfold ok1 at h
    simp only [Bool.or_eq_true, Bool.and_eq_true, natBeq_eq] at h
    refine .inr ⟨rfl, ?_, hs rfl⟩
    have h1 : y * y % basePrime = (x * x * x + 1) % basePrime := (h.resolve_left h0).2
    have h2 := (ZMod.natCast_eq_natCast_iff' (y * y) (x * x * x + 1) basePrime).2 h1
    push_cast at h2
    exact h2

theorem mulNat_cast (x y : Nat × Nat) : (Coordinate.mul (⟨x.1, x.2⟩ : Fp2) ⟨y.1, y.2⟩ : Fp2) = ⟨(mulNat x y).1, (mulNat x y).2⟩ := by
  show Fp2.mk _ _ = Fp2.mk _ _
  unfold mulNat
  dsimp only
  rw [ZMod.natCast_mod, ZMod.natCast_mod]
  congr 1
  · rw [Nat.cast_add, Nat.cast_mul, Nat.cast_mul, Nat.cast_sub (by decide), Nat.cast_mul, ZMod.natCast_self]
    push_cast
    ring
  · push_cast
    ring

theorem add_const (K a b : Nat) : (⟨a, (b + K : Nat)⟩ : Fp2) = Coordinate.add (⟨a, b⟩ : Fp2) ⟨0, K⟩ := by
  show Fp2.mk _ _ = Fp2.mk _ _
  rw [Nat.cast_add, add_zero]

theorem add_twist (a b : Nat) : (⟨a, (b + twistB : Nat)⟩ : Fp2) = Coordinate.add (⟨a, b⟩ : Fp2) ⟨0, twistB⟩ := add_const twistB a b

theorem valid2 (s : Affine Fp2 → Bool) {c : (Nat × Nat) × Nat × Nat} (h : ok2 c = true)
    (hs : (toPoint2 c).infinity = false → s (toPoint2 c) = true) : ValidPoint (bls2 s) (toPoint2 c) := by
  obtain ⟨⟨x0, x1⟩, y0, y1⟩ := c
  unfold toPoint2 at hs ⊢
  dsimp only at hs ⊢
  split_ifs at hs ⊢ with h0
  · exact .inl rfl
  · unfold ok2 at h
    simp only [Bool.or_eq_true, Bool.and_eq_true, natBeq_eq] at h
    refine .inr ⟨rfl, ?_, hs rfl⟩
    obtain ⟨h1, h2⟩ := h.resolve_left (by tauto)
    have e1 := mulNat_cast (y0, y1) (y0, y1)
    have e2 := mulNat_cast (x0, x1) (x0, x1)
    have e3 := mulNat_cast (mulNat (x0, x1) (x0, x1)) (x0, x1)
    dsimp only at e1 e2 e3 ⊢
    rw [e1, e2, e3, h1, h2, ZMod.natCast_mod]
    generalize (mulNat (mulNat (x0, x1) (x0, x1)) (x0, x1)).1 = a
    generalize (mulNat (mulNat (x0, x1) (x0, x1)) (x0, x1)).2 = b
    exact add_twist a b

/-- The coordinates of a list of packed points. -/
def raws1 (l : List (Nat × Nat)) : List (Nat × Nat) := l.flatMap fun x => raw1 x.1 x.2

/-- The same for the second group. -/
def raws2 (l : List (Nat × Nat)) : List ((Nat × Nat) × Nat × Nat) := l.flatMap fun x => raw2 x.1 x.2

theorem points1_eq (l : List (Nat × Nat)) : points1 l = (raws1 l).map toPoint1 := by
  rw [points1, raws1, List.map_flatMap]
  congr 1
  funext x
  exact unpack1_eq _ _

theorem points2_eq (l : List (Nat × Nat)) : points2 l = (raws2 l).map toPoint2 := by
  rw [points2, raws2, List.map_flatMap]
  congr 1
  funext x
  exact unpack2_eq _ _

theorem ok_single1 : (raws1 single1Points).all ok1 = true := by decide +kernel
theorem ok_abc : (raws1 abcPoints).all ok1 = true := by decide +kernel
theorem ok_a : (raws1 aPoints).all ok1 = true := by decide +kernel
theorem ok_b1 : (raws1 b1Points).all ok1 = true := by decide +kernel
theorem ok_h : (raws1 hPoints).all ok1 = true := by decide +kernel
theorem ok_l : (raws1 lPoints).all ok1 = true := by decide +kernel
theorem ok_single2 : (raws2 single2Points).all ok2 = true := by decide +kernel
theorem ok_b2 : (raws2 b2Points).all ok2 = true := by decide +kernel

theorem length_single1 : (raws1 single1Points).length = 3 := by decide +kernel
theorem length_single2 : (raws2 single2Points).length = 3 := by decide +kernel
theorem length_abc : (raws1 abcPoints).length = 8 := by decide +kernel
theorem length_a : (raws1 aPoints).length = 2465 := by decide +kernel
theorem length_b1 : (raws1 b1Points).length = 2465 := by decide +kernel
theorem length_b2 : (raws2 b2Points).length = 2465 := by decide +kernel
theorem length_h : (raws1 hPoints).length = 4095 := by decide +kernel
theorem length_l : (raws1 lPoints).length = 2457 := by decide +kernel

theorem zero_a : (raws1 aPoints).map (fun c => Nat.beq c.1 0 && Nat.beq c.2 0) = (List.range 2465).map shippedKey.aZero.testBit := by
  decide +kernel
theorem zero_b1 : (raws1 b1Points).map (fun c => Nat.beq c.1 0 && Nat.beq c.2 0) = (List.range 2465).map shippedKey.bG1Zero.testBit := by
  decide +kernel
theorem zero_b2 : (raws2 b2Points).map (fun c => Nat.beq c.1.1 0 && Nat.beq c.1.2 0 && Nat.beq c.2.1 0 && Nat.beq c.2.2 0) =
    (List.range 2465).map shippedKey.bG2Zero.testBit := by decide +kernel
theorem same_ab : List.zipWith (fun c d : Nat × Nat => Nat.beq c.1 d.1 && Nat.beq c.2 d.2) (raws1 aPoints) (raws1 b1Points) =
    (List.range 2465).map shippedKey.same.testBit := by decide +kernel

/-! ### Valid points -/

theorem valid_list1 {s : Affine Fp → Bool} {l : List (Nat × Nat)} (h : (raws1 l).all ok1 = true)
    (hs : ∀ P ∈ points1 l, P.infinity = false → s P = true) : ∀ P ∈ points1 l, ValidPoint (bls1 s) P := by
  intro P hP
  have hP' := hP
  rw [points1_eq] at hP'
  obtain ⟨c, hc, rfl⟩ := List.mem_map.1 hP'
  exact valid1 s (List.all_eq_true.1 h c hc) (hs _ hP)

theorem valid_list2 {s : Affine Fp2 → Bool} {l : List (Nat × Nat)} (h : (raws2 l).all ok2 = true)
    (hs : ∀ P ∈ points2 l, P.infinity = false → s P = true) : ∀ P ∈ points2 l, ValidPoint (bls2 s) P := by
  intro P hP
  have hP' := hP
  rw [points2_eq] at hP'
  obtain ⟨c, hc, rfl⟩ := List.mem_map.1 hP'
  exact valid2 s (List.all_eq_true.1 h c hc) (hs _ hP)

theorem getD_mem {α : Type} {l : List α} {k : Nat} (d : α) (h : k < l.length) : l.getD k d ∈ l := by
  rw [List.getD_eq_getElem _ _ h]
  exact List.getElem_mem h

theorem points1_length (l : List (Nat × Nat)) : (points1 l).length = (raws1 l).length := by rw [points1_eq, List.length_map]

theorem points2_length (l : List (Nat × Nat)) : (points2 l).length = (raws2 l).length := by rw [points2_eq, List.length_map]

/-- A key from its lists, the single points in lists of three. -/
def assemble {G1 G2 : Type} (z1 : G1) (z2 : G2) (s1 : List G1) (s2 : List G2) (abc a b1 : List G1) (b2 : List G2) (h l : List G1) : ProvingKey G1 G2 where
  vk := ⟨s1.getD 0 z1, s2.getD 0 z2, s2.getD 1 z2, s2.getD 2 z2, abc⟩
  betaG1 := s1.getD 1 z1
  deltaG1 := s1.getD 2 z1
  aQuery := a
  bG1Query := b1
  bG2Query := b2
  hQuery := h
  lQuery := l

theorem shippedPk_eq : shippedPk = assemble Affine.identity Affine.identity (points1 single1Points) (points2 single2Points) (points1 abcPoints)
    (points1 aPoints) (points1 b1Points) (points2 b2Points) (points1 hPoints) (points1 lPoints) := by
  unfold shippedPk shippedVk assemble
  rfl

theorem eq_getD_three {α : Type} {l : List α} (d : α) (h : l.length = 3) : l = [l.getD 0 d, l.getD 1 d, l.getD 2 d] := by
  match l, h with
  | [a, b, c], _ => rfl

theorem assemble_points1 {G1 G2 : Type} {z1 : G1} {z2 : G2} {s1 : List G1} {s2 : List G2} {abc a b1 : List G1} {b2 : List G2} {h l : List G1}
    (hs : s1.length = 3) : (assemble z1 z2 s1 s2 abc a b1 b2 h l).points1 = s1 ++ (abc ++ a ++ b1 ++ h ++ l) := by
  conv_rhs => rw [eq_getD_three z1 hs]
  rfl

theorem assemble_points2 {G1 G2 : Type} {z1 : G1} {z2 : G2} {s1 : List G1} {s2 : List G2} {abc a b1 : List G1} {b2 : List G2} {h l : List G1}
    (hs : s2.length = 3) : (assemble z1 z2 s1 s2 abc a b1 b2 h l).points2 = s2 ++ b2 := by
  conv_rhs => rw [eq_getD_three z2 hs]
  rfl

theorem assemble_valid {E1 : Curve Fp} {E2 : Curve Fp2} {s1 abc a b1 h l : List (Affine Fp)} {s2 b2 : List (Affine Fp2)} (hs1 : s1.length = 3)
    (hs2 : s2.length = 3) (habc : abc.length < 2 ^ 64) (ha : a.length < 2 ^ 64) (hb1 : b1.length < 2 ^ 64) (hb2 : b2.length < 2 ^ 64)
    (hh : h.length < 2 ^ 64) (hl : l.length < 2 ^ 64) (v1 : ∀ P ∈ s1, ValidPoint E1 P) (v2 : ∀ P ∈ abc, ValidPoint E1 P)
    (v3 : ∀ P ∈ a, ValidPoint E1 P) (v4 : ∀ P ∈ b1, ValidPoint E1 P) (v5 : ∀ P ∈ h, ValidPoint E1 P) (v6 : ∀ P ∈ l, ValidPoint E1 P)
    (v7 : ∀ P ∈ s2, ValidPoint E2 P) (v8 : ∀ P ∈ b2, ValidPoint E2 P) (z1 : Affine Fp) (z2 : Affine Fp2) :
    ValidPk E1 E2 (assemble z1 z2 s1 s2 abc a b1 b2 h l) where
  vk :=
  { alphaG1 := v1 _ (getD_mem _ (by omega))
    betaG2 := v7 _ (getD_mem _ (by omega))
    gammaG2 := v7 _ (getD_mem _ (by omega))
    deltaG2 := v7 _ (getD_mem _ (by omega))
    gammaAbcG1 := ⟨habc, v2⟩ }
  betaG1 := v1 _ (getD_mem _ (by omega))
  deltaG1 := v1 _ (getD_mem _ (by omega))
  aQuery := ⟨ha, v3⟩
  bG1Query := ⟨hb1, v4⟩
  bG2Query := ⟨hb2, v8⟩
  hQuery := ⟨hh, v5⟩
  lQuery := ⟨hl, v6⟩

theorem shippedPk_valid {s1 : Affine Fp → Bool} {s2 : Affine Fp2 → Bool} (h1 : ∀ P ∈ shippedPk.points1, P.infinity = false → s1 P = true)
    (h2 : ∀ P ∈ shippedPk.points2, P.infinity = false → s2 P = true) : ValidPk (bls1 s1) (bls2 s2) shippedPk := by
  have l1 := (points1_length _).trans length_single1
  have l2 := (points2_length _).trans length_single2
  rw [shippedPk_eq, assemble_points1 l1] at h1
  rw [shippedPk_eq, assemble_points2 l2] at h2
  rw [shippedPk_eq]
  simp only [List.mem_append] at h1 h2
  exact assemble_valid l1 l2 ((points1_length _).trans_lt (length_abc.trans_lt (by norm_num)))
    ((points1_length _).trans_lt (length_a.trans_lt (by norm_num))) ((points1_length _).trans_lt (length_b1.trans_lt (by norm_num)))
    ((points2_length _).trans_lt (length_b2.trans_lt (by norm_num))) ((points1_length _).trans_lt (length_h.trans_lt (by norm_num)))
    ((points1_length _).trans_lt (length_l.trans_lt (by norm_num)))
    (valid_list1 ok_single1 fun P hP => h1 P (.inl hP))
    (valid_list1 ok_abc fun P hP => h1 P (.inr (.inl (.inl (.inl (.inl hP))))))
    (valid_list1 ok_a fun P hP => h1 P (.inr (.inl (.inl (.inl (.inr hP))))))
    (valid_list1 ok_b1 fun P hP => h1 P (.inr (.inl (.inl (.inr hP)))))
    (valid_list1 ok_h fun P hP => h1 P (.inr (.inl (.inr hP))))
    (valid_list1 ok_l fun P hP => h1 P (.inr (.inr hP)))
    (valid_list2 ok_single2 fun P hP => h2 P (.inl hP))
    (valid_list2 ok_b2 fun P hP => h2 P (.inr hP)) _ _

/-! ### The shape of the shipped key -/

theorem canonical1 {c : Nat × Nat} (h : ok1 c = true) : c.1 < basePrime ∧ c.2 < basePrime := by
  obtain ⟨x, y⟩ := c
  unfold ok1 at h
  simp only [Bool.or_eq_true, Bool.and_eq_true, natBeq_eq] at h
  rcases h with ⟨rfl, rfl⟩ | ⟨⟨h1, h2⟩, -⟩
  · exact ⟨NeZero.pos _, NeZero.pos _⟩
  · exact ⟨Nat.le_of_ble_eq_true h1, Nat.le_of_ble_eq_true h2⟩

theorem toPoint1_inj {c d : Nat × Nat} (hc : ok1 c = true) (hd : ok1 d = true) : toPoint1 c = toPoint1 d ↔ c = d := by
  constructor
  · intro h
    obtain ⟨c1, c2⟩ := canonical1 hc
    obtain ⟨d1, d2⟩ := canonical1 hd
    unfold toPoint1 at h
    split_ifs at h with h0 h1 h1
    · exact Prod.ext (h0.1.trans h1.1.symm) (h0.2.trans h1.2.symm)
    · cases congrArg Affine.infinity h
    · cases congrArg Affine.infinity h
    · have hx := congrArg ZMod.val (congrArg Affine.x h)
      have hy := congrArg ZMod.val (congrArg Affine.y h)
      dsimp only at hx hy
      rw [ZMod.val_natCast_of_lt c1, ZMod.val_natCast_of_lt d1] at hx
      rw [ZMod.val_natCast_of_lt c2, ZMod.val_natCast_of_lt d2] at hy
      exact Prod.ext hx hy
  · rintro rfl
    rfl

theorem toPoint1_zero (c : Nat × Nat) : toPoint1 c = Affine.identity ↔ (Nat.beq c.1 0 && Nat.beq c.2 0) = true := by
  rw [Bool.and_eq_true, natBeq_eq, natBeq_eq]
  unfold toPoint1
  split_ifs with h
  · exact iff_of_true rfl h
  · exact iff_of_false (fun e => by cases congrArg Affine.infinity e) h

theorem toPoint2_zero (c : (Nat × Nat) × Nat × Nat) :
    toPoint2 c = Affine.identity ↔ (Nat.beq c.1.1 0 && Nat.beq c.1.2 0 && Nat.beq c.2.1 0 && Nat.beq c.2.2 0) = true := by
  rw [Bool.and_eq_true, Bool.and_eq_true, Bool.and_eq_true, natBeq_eq, natBeq_eq, natBeq_eq, natBeq_eq, and_assoc, and_assoc]
  unfold toPoint2
  split_ifs with h
  · exact iff_of_true rfl h
  · exact iff_of_false (fun e => by cases congrArg Affine.infinity e) h

theorem range_map_get {α : Type} {n j : Nat} {f : Nat → α} {b : α} (h : ((List.range n).map f)[j]? = some b) : b = f j := by
  rw [List.getElem?_map] at h
  obtain ⟨i, hi, rfl⟩ := Option.map_eq_some_iff.1 h
  obtain ⟨hi', rfl⟩ := List.getElem?_eq_some_iff.1 hi
  rw [List.getElem_range]

theorem zero_bits {α β : Type} {l : List α} {f : α → β} {z : β} {g : α → Bool} {n : Nat} {bit : Nat → Bool} (hg : ∀ c, f c = z ↔ g c = true)
    (h : l.map g = (List.range n).map bit) (j : Nat) (x : β) (hx : (l.map f)[j]? = some x) : x = z ↔ bit j = true := by
  rw [List.getElem?_map] at hx
  obtain ⟨c, hc, rfl⟩ := Option.map_eq_some_iff.1 hx
  rw [hg, range_map_get (n := n) (f := bit) (j := j) (b := g c)]
  rw [← h, List.getElem?_map, hc]
  rfl

theorem same_bits {α β : Type} {l m : List α} {f : α → β} {g : α → α → Bool} {n : Nat} {bit : Nat → Bool}
    (hg : ∀ c ∈ l, ∀ d ∈ m, (f c = f d ↔ g c d = true))
    (h : List.zipWith g l m = (List.range n).map bit) (j : Nat) (x y : β) (hx : (l.map f)[j]? = some x) (hy : (m.map f)[j]? = some y) :
    x = y ↔ bit j = true := by
  rw [List.getElem?_map] at hx hy
  obtain ⟨c, hc, rfl⟩ := Option.map_eq_some_iff.1 hx
  obtain ⟨d, hd, rfl⟩ := Option.map_eq_some_iff.1 hy
  rw [hg c (List.mem_of_getElem? hc) d (List.mem_of_getElem? hd), range_map_get (n := n) (f := bit) (j := j) (b := g c d)]
  rw [← h, List.getElem?_zipWith, hc, hd]

theorem shipped_matches : shippedKey.Matches shippedPk where
  gammaAbcG1 := (points1_length _).trans length_abc
  aQuery := (points1_length _).trans length_a
  bG1Query := (points1_length _).trans length_b1
  bG2Query := (points2_length _).trans length_b2
  hQuery := (points1_length _).trans length_h
  lQuery := (points1_length _).trans length_l
  aZero j x hx := zero_bits toPoint1_zero zero_a j x (by rw [← points1_eq]; exact hx)
  bG1Zero j x hx := zero_bits toPoint1_zero zero_b1 j x (by rw [← points1_eq]; exact hx)
  bG2Zero j x hx := zero_bits toPoint2_zero zero_b2 j x (by rw [← points2_eq]; exact hx)
  same j x y hx hy := same_bits (fun c hc d hd => by
      rw [toPoint1_inj (List.all_eq_true.1 ok_a c hc) (List.all_eq_true.1 ok_b1 d hd), Bool.and_eq_true, natBeq_eq, natBeq_eq, Prod.ext_iff])
    same_ab j x y (by rw [← points1_eq]; exact hx) (by rw [← points1_eq]; exact hy)

end Poseidon.Groth16
