import Verif.Proofs.GrainDraws
import Verif.Proofs.Eval

/-!
# Evaluating the Grain generator

The register as a number, 16 bits at a time.
-/

namespace Poseidon

open Grain

variable {s : Nat → Bool} {ini : List Bool}

/-- `w` is the register at bit `m`, its first bit the least significant. -/
def IsWindow (s : Nat → Bool) (m w : Nat) : Prop := w < 2 ^ 80 ∧ ∀ i, i < 80 → w.testBit i = s (m + i)

/-- The next 16 bits -/
def newBits (w : Nat) : Nat := ((w >>> 62) ^^^ ((w >>> 51) ^^^ ((w >>> 38) ^^^ ((w >>> 23) ^^^ ((w >>> 13) ^^^ w))))) % 65536

/-- The register 16 bits later -/
def advance (w : Nat) : Nat := (w >>> 16) ||| ((newBits w) <<< 64)

theorem newBits_testBit (h : IsRegister ini s) {m w : Nat} (hw : IsWindow s m w) {i : Nat} (hi : i < 16) :
    (newBits w).testBit i = s (m + 80 + i) := by
  rw [newBits, show 65536 = 2 ^ 16 by norm_num, Nat.testBit_mod_two_pow]
  simp only [hi, decide_true, Bool.true_and, Nat.testBit_xor, Nat.testBit_shiftRight]
  rw [hw.2 _ (by omega), hw.2 _ (by omega), hw.2 _ (by omega), hw.2 _ (by omega), hw.2 _ (by omega), hw.2 _ (by omega)]
  rw [show m + 80 + i = m + i + 80 by omega, h.step]
  simp only [show ∀ a, m + (a + i) = m + i + a from fun a => by omega, Bool.xor_assoc]

theorem newBits_lt (w : Nat) : newBits w < 2 ^ 16 := Nat.mod_lt _ (by norm_num)

theorem advance_window (h : IsRegister ini s) {m w : Nat} (hw : IsWindow s m w) : IsWindow s (m + 16) (advance w) := by
  refine ⟨?_, fun i hi => ?_⟩
  · rw [advance]
    refine Nat.or_lt_two_pow ?_ ?_
    · rw [Nat.shiftRight_eq_div_pow]; exact lt_of_le_of_lt (Nat.div_le_self _ _) hw.1
    · rw [Nat.shiftLeft_eq]
      have := newBits_lt w
      calc newBits w * 2 ^ 64 < 2 ^ 16 * 2 ^ 64 := Nat.mul_lt_mul_of_pos_right this (by positivity)
        _ = 2 ^ 80 := by norm_num
  · rw [advance, Nat.testBit_or, Nat.testBit_shiftRight, Nat.testBit_shiftLeft]
    by_cases h64 : i < 64
    · rw [hw.2 _ (by omega)]
      simp only [show ¬ i ≥ 64 by omega, decide_false, Bool.false_and, Bool.or_false]
      congr 1; omega
    · rw [Nat.testBit_lt_two_pow (lt_of_lt_of_le hw.1 (Nat.pow_le_pow_right (by omega) (by omega))), newBits_testBit h hw (by omega)]
      simp only [show i ≥ 64 by omega, decide_true, Bool.true_and, Bool.false_or]
      congr 1; omega

/-! ## Collecting numbers -/

/-- Process one pair: `x` holds the pair in its lowest bits, `acc` the bits of the number so far under a leading one, `top` is `2^n`. -/
def eat (top x acc : Nat) (k : Nat → List Nat) : List Nat :=
  Nat.rec (motive := fun _ => List Nat) (k acc)
    (fun _ _ => bif Nat.ble top (2 * acc + x / 2 % 2) then (2 * acc + x / 2 % 2 - top) :: k 1 else k (2 * acc + x / 2 % 2)) (x % 2)

/-- Process 8 pairs. -/
def eat8 (top x acc : Nat) (k : Nat → List Nat) : List Nat :=
  eat top x acc fun a => eat top (x >>> 2) a fun a => eat top (x >>> 4) a fun a => eat top (x >>> 6) a fun a =>
    eat top (x >>> 8) a fun a => eat top (x >>> 10) a fun a => eat top (x >>> 12) a fun a => eat top (x >>> 14) a k

/-- The complete numbers in the next `16 * fuel` bits of the register -/
def grainRun (top fuel : Nat) : Nat → Nat → List Nat :=
  Nat.rec (motive := fun _ => Nat → Nat → List Nat) (fun _ _ => [])
    (fun _ ih w acc => force (newBits w) fun x => force ((w >>> 16) ||| (x <<< 64)) fun w' => eat8 top x acc fun a => ih w' a) fuel

/-- Compare the numbers below `p` with `arc`, and the numbers behind them with `tail`. -/
def checkRun (p : Nat) (run arc tail : List Nat) : Bool :=
  List.rec (motive := fun _ => List Nat → List Nat → Bool)
    (fun arc tail => List.isEmpty arc && List.isEmpty tail)
    (fun x _ ih arc tail => List.casesOn arc
      (List.casesOn tail true fun y ys => Nat.beq x y && ih [] ys)
      (fun c cs => bif Nat.ble p x then ih arc tail else Nat.beq x c && ih cs tail)) run arc tail

theorem grainNumber_succ (s : Nat → Bool) (n g : Nat) : grainNumber s (n + 1) g = 2 * grainNumber s n g + (grainBit s (g + n)).toNat := by
  rw [grainNumber, grainNumber, Finset.sum_range_succ, Finset.mul_sum]
  have : ∀ l ∈ Finset.range n, (grainBit s (g + l)).toNat * 2 ^ (n + 1 - 1 - l) = 2 * ((grainBit s (g + l)).toNat * 2 ^ (n - 1 - l)) := by
    intro l hl
    have := Finset.mem_range.1 hl
    rw [show n + 1 - 1 - l = n - 1 - l + 1 by omega, pow_succ]; ring
  rw [Finset.sum_congr rfl this]
  simp

theorem grainNumber_lt (s : Nat → Bool) (n g : Nat) : grainNumber s n g < 2 ^ n := by
  induction n with
  | zero => simp [grainNumber]
  | succ n ih =>
    rw [grainNumber_succ, pow_succ]
    have : (grainBit s (g + n)).toNat ≤ 1 := Bool.toNat_le _
    omega

variable {n : Nat}

/-- Before pair `J` the numbers up to `B` are complete, and `acc` has the bits of number `B` so far. -/
def InNumber (s : Nat → Bool) (n B J acc : Nat) : Prop :=
  120 ≤ J ∧ ∃ r, r < n ∧ Nat.count (Taken s) J = n * B + r ∧ acc = 2 ^ r + grainNumber s r (n * B)

/-- The list has the numbers from number `B` on. -/
def Numbers (s : Nat → Bool) (n B : Nat) (l : List Nat) : Prop := ∀ i (h : i < l.length), l[i] = grainBlock s n (B + i)

theorem Numbers.cons {B x : Nat} {l : List Nat} (hx : x = grainBlock s n B) (hl : Numbers s n (B + 1) l) : Numbers s n B (x :: l) := by
  intro i h
  cases i with
  | zero => exact hx
  | succ i =>
    rw [List.getElem_cons_succ, hl i (by simpa using h)]
    congr 1; omega

theorem eat_numbers {B J acc x : Nat} {k : Nat → List Nat} (hg : InNumber s n B J acc) (h0 : x.testBit 0 = s (2 * J))
    (h1 : x.testBit 1 = s (2 * J + 1)) (hk : ∀ B' acc', InNumber s n B' (J + 1) acc' → Numbers s n B' (k acc')) :
    Numbers s n B (eat (2 ^ n) x acc k) := by
  obtain ⟨hJ, r, hr, hc, rfl⟩ := hg
  have hb0 : x % 2 = (s (2 * J)).toNat := by
    rw [← h0, Nat.testBit_zero]; have := Nat.mod_two_eq_zero_or_one x; rcases this with h | h <;> simp [h]
  have hb1 : x / 2 % 2 = (s (2 * J + 1)).toNat := by
    rw [← h1, Nat.testBit_succ, Nat.testBit_zero]; have := Nat.mod_two_eq_zero_or_one (x / 2); rcases this with h | h <;> simp [h]
  rw [eat]
  cases hs : s (2 * J) with
  | false =>
    rw [hb0, hs]
    refine hk B _ ⟨by omega, r, hr, ?_, rfl⟩
    rw [Nat.count_succ, if_neg (fun h : Taken s J => by have := h.2; rw [hs] at this; cases this), hc]
    rfl
  | true =>
    rw [hb0, hs, hb1]
    have ht : Taken s J := ⟨hJ, hs⟩
    have hc' : Nat.count (Taken s) (J + 1) = n * B + (r + 1) := by rw [Nat.count_succ, if_pos ht, hc]; rfl
    have hbit : grainBit s (n * B + r) = s (2 * J + 1) := by rw [grainBit, ← hc, Nat.nth_count ht]
    have hacc : 2 * (2 ^ r + grainNumber s r (n * B)) + (s (2 * J + 1)).toNat = 2 ^ (r + 1) + grainNumber s (r + 1) (n * B) := by
      rw [grainNumber_succ, hbit, pow_succ]; ring
    have hlt := grainNumber_lt s (r + 1) (n * B)
    show Numbers s n B (bif Nat.ble (2 ^ n) (2 * (2 ^ r + grainNumber s r (n * B)) + (s (2 * J + 1)).toNat) then _ else _)
    simp only [hacc]
    by_cases hrn : r + 1 = n
    · rw [show Nat.ble (2 ^ n) (2 ^ (r + 1) + grainNumber s (r + 1) (n * B)) = true by
        rw [Nat.ble_eq, hrn]; omega]
      refine Numbers.cons ?_ (hk (B + 1) 1 ⟨by omega, 0, by omega, by rw [hc', hrn]; ring, by simp [grainNumber]⟩)
      rw [hrn, grainBlock]; omega
    · rw [show Nat.ble (2 ^ n) (2 ^ (r + 1) + grainNumber s (r + 1) (n * B)) = false by
        rw [← Bool.not_eq_true, Nat.ble_eq]
        have : 2 ^ (r + 2) ≤ 2 ^ n := Nat.pow_le_pow_right (by omega) (by omega)
        rw [pow_succ] at this
        omega]
      exact hk B _ ⟨by omega, r + 1, by omega, hc', rfl⟩

theorem eat8_numbers {B J acc x : Nat} {k : Nat → List Nat} (hg : InNumber s n B J acc)
    (hx : ∀ i, i < 16 → x.testBit i = s (2 * J + i)) (hk : ∀ B' acc', InNumber s n B' (J + 8) acc' → Numbers s n B' (k acc')) :
    Numbers s n B (eat8 (2 ^ n) x acc k) := by
  have bits : ∀ i, i < 8 → (x >>> (2 * i)).testBit 0 = s (2 * (J + i)) ∧ (x >>> (2 * i)).testBit 1 = s (2 * (J + i) + 1) := by
    intro i hi
    rw [Nat.testBit_shiftRight, Nat.testBit_shiftRight, hx _ (by omega), hx _ (by omega)]
    constructor <;> congr 1 <;> omega
  have b0 := bits 0 (by omega)
  rw [Nat.mul_zero, Nat.shiftRight_zero] at b0
  rw [eat8]
  refine eat_numbers hg b0.1 b0.2 fun _ _ hg => ?_
  refine eat_numbers hg (bits 1 (by omega)).1 (bits 1 (by omega)).2 fun _ _ hg => ?_
  refine eat_numbers hg (bits 2 (by omega)).1 (bits 2 (by omega)).2 fun _ _ hg => ?_
  refine eat_numbers hg (bits 3 (by omega)).1 (bits 3 (by omega)).2 fun _ _ hg => ?_
  refine eat_numbers hg (bits 4 (by omega)).1 (bits 4 (by omega)).2 fun _ _ hg => ?_
  refine eat_numbers hg (bits 5 (by omega)).1 (bits 5 (by omega)).2 fun _ _ hg => ?_
  refine eat_numbers hg (bits 6 (by omega)).1 (bits 6 (by omega)).2 fun _ _ hg => ?_
  exact eat_numbers hg (bits 7 (by omega)).1 (bits 7 (by omega)).2 hk

theorem grainRun_succ (top fuel w acc : Nat) :
    grainRun top (fuel + 1) w acc = eat8 top (newBits w) acc fun a => grainRun top fuel (advance w) a := by
  show (force (newBits w) fun x => force ((w >>> 16) ||| (x <<< 64)) fun w' => eat8 top x acc fun a => grainRun top fuel w' a) = _
  rw [force_eq, force_eq, advance]

theorem grainRun_numbers (h : IsRegister ini s) : ∀ (fuel K w B acc : Nat), IsWindow s (2 * K) w → InNumber s n B (K + 40) acc →
    Numbers s n B (grainRun (2 ^ n) fuel w acc)
  | 0, _, _, _, _, _, _ => fun i hi => absurd hi (Nat.not_lt_zero i)
  | fuel + 1, K, w, B, acc, hw, hg => by
    rw [grainRun_succ]
    refine eat8_numbers hg (fun i hi => ?_) fun B' acc' hg' => ?_
    · rw [newBits_testBit h hw hi]; congr 1
    · refine grainRun_numbers h fuel (K + 8) _ B' acc' ?_ (by rwa [show K + 8 + 40 = K + 40 + 8 by omega])
      have := advance_window h hw
      rwa [show 2 * K + 16 = 2 * (K + 8) by omega] at this

theorem checkRun_cons (p x : Nat) (run arc tail : List Nat) : checkRun p (x :: run) arc tail =
    match arc, tail with
    | [], [] => true
    | [], y :: ys => Nat.beq x y && checkRun p run [] ys
    | c :: cs, tail => bif Nat.ble p x then checkRun p run (c :: cs) tail else Nat.beq x c && checkRun p run cs tail := by
  cases arc <;> cases tail <;> rfl

theorem checkRun_tail {p : Nat} : ∀ (run : List Nat) (B : Nat) (tail : List Nat), Numbers s n B run → checkRun p run [] tail = true →
    ∀ i (h : i < tail.length), tail[i] = grainBlock s n (B + i)
  | _, B, [], _, _ => fun i h => absurd h (Nat.not_lt_zero i)
  | [], B, y :: ys, _, hc => by cases hc
  | x :: run, B, y :: ys, hl, hc => by
    rw [checkRun_cons] at hc
    simp only [Bool.and_eq_true] at hc
    obtain rfl := Nat.eq_of_beq_eq_true hc.1
    intro i h
    cases i with
    | zero => exact hl 0 (by simp)
    | succ i =>
      have h1 : Numbers s n (B + 1) run := by
        intro j hj
        have := hl (j + 1) (by simpa using hj)
        rw [List.getElem_cons_succ] at this
        rw [this]; congr 1; omega
      have := checkRun_tail run (B + 1) ys h1 hc.2 i (by simpa using h)
      rw [List.getElem_cons_succ, this]; congr 1; omega

theorem checkRun_sound {p : Nat} : ∀ (run : List Nat) (B : Nat) (arc tail : List Nat), Numbers s n B run → checkRun p run arc tail = true →
    ∃ B', B ≤ B' ∧ Nat.count (Below s n p) B' = Nat.count (Below s n p) B + arc.length ∧
      (∀ B'' < B', B ≤ B'' → Nat.count (Below s n p) B'' < Nat.count (Below s n p) B + arc.length) ∧
      (∀ i (h : i < arc.length), arc[i] = grainBlock s n (Nat.nth (Below s n p) (Nat.count (Below s n p) B + i))) ∧
      ∀ i (h : i < tail.length), tail[i] = grainBlock s n (B' + i)
  | run, B, [], tail, hl, hc =>
    ⟨B, le_rfl, rfl, fun B'' h1 h2 => absurd h1 (by omega), fun i h => absurd h (Nat.not_lt_zero i), checkRun_tail run B tail hl hc⟩
  | [], B, c :: cs, tail, _, hc => by cases hc
  | x :: run, B, c :: cs, tail, hl, hc => by
    have hx : x = grainBlock s n B := hl 0 (by simp)
    have h1 : Numbers s n (B + 1) run := by
      intro j hj
      have := hl (j + 1) (by simpa using hj)
      rw [List.getElem_cons_succ] at this
      rw [this]; congr 1; omega
    rw [checkRun_cons] at hc
    dsimp only at hc
    by_cases hp : p ≤ x
    · rw [show Nat.ble p x = true by rwa [Nat.ble_eq], cond_true] at hc
      obtain ⟨B', g1, g2, g3, g4, g5⟩ := checkRun_sound run (B + 1) (c :: cs) tail h1 hc
      have hcount : Nat.count (Below s n p) (B + 1) = Nat.count (Below s n p) B := by
        rw [Nat.count_succ, if_neg (fun hb : Below s n p B => absurd hb (not_lt.2 (hx ▸ hp)))]; rfl
      rw [hcount] at g2 g3 g4
      refine ⟨B', by omega, g2, fun B'' hB hB' => ?_, g4, g5⟩
      by_cases hle : B + 1 ≤ B''
      · exact g3 B'' hB hle
      · obtain rfl : B'' = B := by omega
        simp
    · rw [show Nat.ble p x = false by rwa [← Bool.not_eq_true, Nat.ble_eq], cond_false, Bool.and_eq_true] at hc
      obtain rfl := Nat.eq_of_beq_eq_true hc.1
      have hb : Below s n p B := by rw [Below, ← hx]; omega
      have hcount : Nat.count (Below s n p) (B + 1) = Nat.count (Below s n p) B + 1 := by rw [Nat.count_succ, if_pos hb]
      obtain ⟨B', g1, g2, g3, g4, g5⟩ := checkRun_sound run (B + 1) cs tail h1 hc.2
      rw [hcount] at g2 g3 g4
      refine ⟨B', by omega, by rw [g2, List.length_cons]; omega, fun B'' hB hB' => ?_, fun i h => ?_, g5⟩
      · rw [List.length_cons]
        by_cases hle : B + 1 ≤ B''
        · have := g3 B'' hB hle; omega
        · obtain rfl : B'' = B := by omega
          omega
      · cases i with
        | zero => rw [List.getElem_cons_zero, Nat.add_zero, Nat.nth_count hb, hx]
        | succ i =>
          rw [List.getElem_cons_succ, g4 i (by simpa using h)]
          congr 2; omega

/-! ## The start -/

/-- The number with the given bits, the first the least significant -/
def ofBits (l : List Bool) : Nat := l.foldr (fun b a => 2 * a + b.toNat) 0

theorem ofBits_window (l : List Bool) : ofBits l < 2 ^ l.length ∧ ∀ i (h : i < l.length), (ofBits l).testBit i = l[i] := by
  induction l with
  | nil => exact ⟨by simp [ofBits], fun i h => absurd h (Nat.not_lt_zero i)⟩
  | cons b l ih =>
    have e : ofBits (b :: l) = 2 * ofBits l + b.toNat := rfl
    have hb : b.toNat ≤ 1 := Bool.toNat_le b
    refine ⟨by rw [e, List.length_cons, pow_succ]; have := ih.1; omega, fun i h => ?_⟩
    cases i with
    | zero => rw [e, Nat.testBit_zero, List.getElem_cons_zero]; cases b <;> simp
    | succ i =>
      rw [e, Nat.testBit_succ, List.getElem_cons_succ, ← ih.2 i (by simpa using h)]
      congr 1; omega

/-- The register after the warm-up -/
def startWindow (ini : List Bool) : Nat := advance^[10] (ofBits ini)

theorem startWindow_window (h : IsRegister ini s) (hl : ini.length = 80) : IsWindow s 160 (startWindow ini) := by
  have h0 : IsWindow s 0 (ofBits ini) := by
    have := ofBits_window ini
    refine ⟨hl ▸ this.1, fun i hi => ?_⟩
    rw [this.2 i (by omega), Nat.zero_add, h.init i (by omega)]
  have key : ∀ k, IsWindow s (16 * k) (advance^[k] (ofBits ini)) := by
    intro k
    induction k with
    | zero => exact h0
    | succ k ih => rw [Function.iterate_succ_apply']; exact advance_window h ih
  exact key 10

theorem inNumber_start (s : Nat → Bool) (hn : n ≠ 0) : InNumber s n 0 120 1 := by
  refine ⟨le_rfl, 0, by omega, ?_, by simp [grainNumber]⟩
  rw [Nat.mul_zero, Nat.add_zero, Nat.count_iff_forall_not]
  intro j hj ht
  have := ht.1
  omega

/-- What a successful check of the run says about the register -/
theorem checkRun_register (h : IsRegister ini s) (hl : ini.length = 80) (hn : n ≠ 0) {p fuel : Nat} {arc tail : List Nat}
    (hc : checkRun p (grainRun (2 ^ n) fuel (startWindow ini) 1) arc tail = true) :
    ∃ B, Nat.count (Below s n p) B = arc.length ∧ (∀ B' < B, Nat.count (Below s n p) B' < arc.length) ∧
      (∀ i (h : i < arc.length), arc[i] = grainBlock s n (Nat.nth (Below s n p) i)) ∧
      ∀ i (h : i < tail.length), tail[i] = grainBlock s n (B + i) := by
  have h1 := grainRun_numbers (n := n) h fuel 80 _ 0 1 (startWindow_window h hl) (inNumber_start s hn)
  obtain ⟨B, -, h2, h3, h4, h5⟩ := checkRun_sound _ 0 arc tail h1 hc
  simp only [Nat.count_zero, Nat.zero_add] at h2 h3 h4
  exact ⟨B, h2, fun B' hB => h3 B' hB (Nat.zero_le _), h4, h5⟩

end Poseidon
