import Verif.Model.Grain
import Verif.Spec.Grain
import Verif.Proofs.Cauchy
import Mathlib.Tactic.IntervalCases

/-! # Proofs about the Grain generator -/

namespace Poseidon

open Grain

/-! ## The register -/

/-- 80 bits from bit `m` on -/
def window (s : Nat → Bool) (m : Nat) : List Bool := List.ofFn fun i : Fin 80 => s (m + i)

theorem window_length (s : Nat → Bool) (m : Nat) : (window s m).length = 80 := List.length_ofFn

theorem window_get (s : Nat → Bool) (m : Nat) {i : Nat} (hi : i < 80) : (window s m)[i]? = some (s (m + i)) := by
  rw [window, List.getElem?_ofFn, dif_pos hi]

theorem window_succ (s : Nat → Bool) (m : Nat) : (window s m).tail ++ [s (m + 80)] = window s (m + 1) := by
  apply List.ext_getElem
  · simp [window]
  · intro i h1 h2
    rw [window_length] at h2
    by_cases hi : i < 79
    · rw [List.getElem_append_left (by simpa [window] using hi)]
      simp only [window, List.getElem_tail, List.getElem_ofFn]
      congr 1; omega
    · obtain rfl : i = 79 := by omega
      rw [List.getElem_append_right (by simp [window])]
      simp [window]

variable {s : Nat → Bool} {ini : List Bool}

theorem shift_window (h : IsRegister ini s) (m : Nat) : shift (window s m) = some (s (m + 80), window s (m + 1)) := by
  rw [shift]
  simp only [window_get s m (show 62 < 80 by omega), window_get s m (show 51 < 80 by omega), window_get s m (show 38 < 80 by omega),
    window_get s m (show 23 < 80 by omega), window_get s m (show 13 < 80 by omega), window_get s m (show 0 < 80 by omega),
    Option.bind_eq_bind, Option.bind_some, Nat.add_zero]
  rw [← h.step m, window_succ]
  rfl

theorem warmUp_window (h : IsRegister ini s) (i m : Nat) : warmUp i (window s m) = some (window s (m + i)) := by
  induction i generalizing m with
  | zero => rfl
  | succ i ih =>
    rw [warmUp, shift_window h]
    simp only [Option.bind_eq_bind, Option.bind_some]
    rw [ih]
    congr 2; omega

theorem register_window (h : IsRegister ini s) (hl : ini.length = 80) : window s 0 = ini := by
  apply List.ext_getElem
  · rw [window_length, hl]
  · intro i h1 h2
    simp only [window, List.getElem_ofFn, Nat.zero_add]
    exact h.init i h2

/-- Every start has its register. -/
theorem exists_register (ini : List Bool) (hl : ini.length = 80) : ∃ s, IsRegister ini s := by
  let nxt : (Fin 80 → Bool) → Fin 80 → Bool := fun b i =>
    if h : i.val + 1 < 80 then b ⟨i + 1, h⟩ else b 62 ^^ b 51 ^^ b 38 ^^ b 23 ^^ b 13 ^^ b 0
  let st : Nat → Fin 80 → Bool := fun n => nxt^[n] fun i => ini[i.val]
  have hst : ∀ n, st (n + 1) = nxt (st n) := fun n => Function.iterate_succ_apply' _ _ _
  have key : ∀ i, ∀ n (h : i < 80), st n ⟨i, h⟩ = st (n + i) 0 := by
    intro i
    induction i with
    | zero => intro n h; rfl
    | succ i ih =>
      intro n h
      have h1 : st (n + 1) ⟨i, by omega⟩ = st n ⟨i + 1, h⟩ := by
        rw [hst]
        exact dif_pos h
      rw [← h1, ih]
      congr 1; omega
  refine ⟨fun n => st n 0, ⟨?_, ?_⟩⟩
  · intro i h
    have := key i 0 (by omega)
    rw [Nat.zero_add] at this
    exact this.symm
  · intro i
    have h1 : st (i + 1) ⟨79, by omega⟩ = (st i 62 ^^ st i 51 ^^ st i 38 ^^ st i 23 ^^ st i 13 ^^ st i 0) := by
      rw [hst]
      exact dif_neg (by simp)
    rw [key] at h1
    show st (i + 80) 0 = _
    rw [show i + 80 = i + 1 + 79 by omega, h1]
    show _ = (st (i + 62) 0 ^^ st (i + 51) 0 ^^ st (i + 38) 0 ^^ st (i + 23) 0 ^^ st (i + 13) 0 ^^ st i 0)
    rw [← key 62 i (by omega), ← key 51 i (by omega), ← key 38 i (by omega), ← key 23 i (by omega), ← key 13 i (by omega)]
    rfl

/-! ## A register that is not zero has ones at even places -/

/-- The exclusive or of the bits `s (m + i)`, `i` a bit of `a` below `w` -/
def maskXor (s : Nat → Bool) (m a : Nat) : Nat → Bool
  | 0 => false
  | w + 1 => (maskXor s m a w) ^^ (a.testBit w && s (m + w))

theorem maskXor_xor (s : Nat → Bool) (m a b w : Nat) : maskXor s m (a ^^^ b) w = (maskXor s m a w ^^ maskXor s m b w) := by
  induction w with
  | zero => rfl
  | succ w ih =>
    rw [maskXor, maskXor, maskXor, ih, Nat.testBit_xor]
    cases maskXor s m a w <;> cases maskXor s m b w <;> cases a.testBit w <;> cases b.testBit w <;> cases s (m + w) <;> rfl

theorem maskXor_shift (s : Nat → Bool) (m a k w : Nat) : maskXor s m (a <<< k) (w + k) = maskXor s (m + k) a w := by
  induction w with
  | zero =>
    rw [Nat.zero_add]
    have : ∀ v, v ≤ k → maskXor s m (a <<< k) v = false := by
      intro v hv
      induction v with
      | zero => rfl
      | succ v ih =>
        rw [maskXor, ih (by omega), Nat.testBit_shiftLeft]
        simp; omega
    rw [this k le_rfl]; rfl
  | succ w ih =>
    rw [show w + 1 + k = (w + k) + 1 by omega, maskXor, ih, maskXor, Nat.testBit_shiftLeft]
    congr 2
    · simp
    · congr 1; omega

theorem maskXor_ext (s : Nat → Bool) (m a w v : Nat) (hwv : w ≤ v) (ha : a < 2 ^ w) : maskXor s m a v = maskXor s m a w := by
  induction v, hwv using Nat.le_induction with
  | base => rfl
  | succ v hv ih =>
    rw [maskXor, ih, Nat.testBit_lt_two_pow (lt_of_lt_of_le ha (Nat.pow_le_pow_right (by omega) hv))]
    simp

/-- The feedback polynomial x^80 + x^62 + x^51 + x^38 + x^23 + x^13 + 1 -/
def feedback : Nat := 2 ^ 80 + 2 ^ 62 + 2 ^ 51 + 2 ^ 38 + 2 ^ 23 + 2 ^ 13 + 1

theorem maskXor_feedback (h : IsRegister ini s) (m : Nat) : maskXor s m feedback 81 = false := by
  have e : feedback = (1 <<< 80) ^^^ (1 <<< 62) ^^^ (1 <<< 51) ^^^ (1 <<< 38) ^^^ (1 <<< 23) ^^^ (1 <<< 13) ^^^ 1 := by decide +kernel
  have one : ∀ k, k < 81 → maskXor s m (1 <<< k) 81 = s (m + k) := by
    intro k hk
    rw [maskXor_ext s m _ (1 + k) 81 (by omega) (by rw [Nat.shiftLeft_eq, pow_add]; have := Nat.two_pow_pos k; omega), maskXor_shift]
    simp [maskXor]
  rw [e]
  simp only [maskXor_xor]
  rw [one 80 (by omega), one 62 (by omega), one 51 (by omega), one 38 (by omega), one 23 (by omega), one 13 (by omega)]
  rw [show maskXor s m 1 81 = s (m + 0) from one 0 (by omega), h.step m, Nat.add_zero]
  cases s (m + 62) <;> cases s (m + 51) <;> cases s (m + 38) <;> cases s (m + 23) <;> cases s (m + 13) <;> cases s m <;> rfl

/-- The square root of x modulo the feedback polynomial, as a polynomial in x², and the quotient -/
def rootMask : Nat := 0x5405544050454405550045401004115510404545
def quotientBits : List Nat := [0, 1, 2, 6, 8, 10, 13, 15, 19, 21, 22, 24, 25, 26, 29, 31, 33, 35, 37, 45, 47, 48, 49, 54, 56, 62, 64, 66, 74, 76, 78]

theorem root_identity : quotientBits.foldr (fun k a => (feedback <<< k) ^^^ a) 0 = rootMask ^^^ (1 <<< 1) := by decide +kernel

theorem maskXor_multiple (h : IsRegister ini s) (m : Nat) (l : List Nat) (hl : ∀ k ∈ l, k ≤ 78) :
    maskXor s m (l.foldr (fun k a => (feedback <<< k) ^^^ a) 0) 159 = false := by
  induction l with
  | nil =>
    rw [List.foldr_nil, maskXor_ext s m 0 0 159 (by omega) (by omega)]
    rfl
  | cons k l ih =>
    rw [List.foldr_cons, maskXor_xor, ih fun x hx => hl x (List.mem_cons_of_mem _ hx)]
    have hk := hl k List.mem_cons_self
    have hf : feedback < 2 ^ 81 := by decide +kernel
    rw [maskXor_ext s m _ (81 + k) 159 (by omega) (by
      rw [Nat.shiftLeft_eq, pow_add]; exact Nat.mul_lt_mul_of_pos_right hf (Nat.two_pow_pos k)), maskXor_shift, maskXor_feedback h]
    rfl

/-- Each bit of the register is the exclusive or of bits at even distances from the one before. -/
theorem register_root (h : IsRegister ini s) (m : Nat) : s (m + 1) = maskXor s m rootMask 159 := by
  have h1 := maskXor_multiple h m quotientBits (by decide)
  rw [root_identity, maskXor_xor, maskXor_ext s m (1 <<< 1) (1 + 1) 159 (by omega) (by decide), maskXor_shift] at h1
  have h2 : maskXor s (m + 1) 1 1 = s (m + 1) := by simp [maskXor]
  rw [h2] at h1
  revert h1
  cases s (m + 1) <;> cases maskXor s m rootMask 159 <;> simp

theorem rootMask_even : ∀ i, rootMask.testBit i = true → i % 2 = 0 := by
  intro i hi
  by_cases h : i < 160
  · have h1 : ∀ i, i < 160 → rootMask.testBit i = true → i % 2 = 0 := by decide +kernel
    exact h1 i h hi
  · rw [Nat.testBit_lt_two_pow (lt_of_lt_of_le (show rootMask < 2 ^ 160 by decide +kernel) (Nat.pow_le_pow_right (by omega) (by omega)))] at hi
    exact absurd hi (by simp)

/-- If all later bits at even places are zero, all later bits are. -/
theorem register_even_zero (h : IsRegister ini s) (m : Nat) (h0 : ∀ i, s (m + 2 * i) = false) : ∀ i, s (m + i) = false := by
  have odd : ∀ i, s (m + 2 * i + 1) = false := by
    intro i
    rw [register_root h]
    have : ∀ w, maskXor s (m + 2 * i) rootMask w = false := by
      intro w
      induction w with
      | zero => rfl
      | succ w ih =>
        rw [maskXor, ih]
        by_cases hw : rootMask.testBit w = true
        · have := rootMask_even w hw
          have h1 := h0 (i + w / 2)
          rw [show m + 2 * (i + w / 2) = m + 2 * i + w by omega] at h1
          rw [h1]; simp
        · simp [hw]
    exact this 159
  intro i
  rcases Nat.even_or_odd' i with ⟨j, rfl | rfl⟩
  · exact h0 j
  · rw [← Nat.add_assoc]; exact odd j

theorem register_back (h : IsRegister ini s) (m : Nat) (h0 : ∀ i, s (m + i) = false) : ∀ i, s i = false := by
  induction m with
  | zero => intro i; simpa using h0 i
  | succ m ih =>
    apply ih
    intro i
    cases i with
    | zero =>
      have h1 := h.step m
      have e : ∀ k, s (m + (k + 1)) = false := fun k => by
        have := h0 k
        rwa [show m + 1 + k = m + (k + 1) by omega] at this
      rw [e 79, e 61, e 50, e 37, e 22, e 12] at h1
      rw [Nat.add_zero]
      simpa using h1.symm
    | succ i =>
      have := h0 i
      rwa [show m + 1 + i = m + (i + 1) by omega] at this

/-- Pairs that count never run out. -/
theorem taken_infinite (h : IsRegister ini s) {i : Nat} (h1 : s i = true) : (Set.ofPred (Taken s)).Infinite := by
  rw [Set.infinite_iff_exists_gt]
  intro a
  by_contra hcon
  push Not at hcon
  have h2 : ∀ j, s (2 * (a + 121) + 2 * j) = false := by
    intro j
    by_contra hs
    have := hcon (a + 121 + j) ⟨by omega, by
      rw [show 2 * (a + 121 + j) = 2 * (a + 121) + 2 * j by omega]; simpa using hs⟩
    omega
  have := register_back h _ (register_even_zero h _ h2) i
  rw [h1] at this
  cases this

/-! ## Draws -/

instance (s : Nat → Bool) : DecidablePred (Taken s) := fun j => inferInstanceAs (Decidable (120 ≤ j ∧ s (2 * j) = true))

/-- The register `b` of the generator after `g` bits -/
def At (s : Nat → Bool) (g : Nat) (b : List Bool) : Prop :=
  ∃ K, 80 ≤ K ∧ b = window s (2 * K) ∧ Nat.count (Taken s) (K + 40) = g

theorem skip_eq (h : IsRegister ini s) : ∀ (fuel d K : Nat), (∀ i, i < d → s (2 * (K + i) + 80) = false) → s (2 * (K + d) + 80) = true →
    skip fuel (s (2 * K + 80)) (window s (2 * K + 1)) = if d < fuel then some (window s (2 * (K + d) + 1)) else none
  | 0, d, K, _, _ => by simp [skip]
  | fuel + 1, 0, K, _, h1 => by
    have h1' : s (2 * K + 80) = true := h1
    rw [skip, if_pos h1', if_pos (Nat.succ_pos _)]
    rfl
  | fuel + 1, d + 1, K, h0, h1 => by
    have h2 : s (2 * K + 80) = false := h0 0 (Nat.succ_pos _)
    rw [skip, h2, if_neg (by simp), shift_window h]
    simp only [Option.bind_eq_bind, Option.bind_some]
    rw [shift_window h]
    simp only [Option.bind_some]
    have := skip_eq h fuel d (K + 1) (fun i hi => by
      have := h0 (i + 1) (by omega)
      rwa [show K + (i + 1) = K + 1 + i by omega] at this) (by rwa [show K + (d + 1) = K + 1 + d by omega] at h1)
    rw [show 2 * K + 1 + 1 + 80 = 2 * (K + 1) + 80 by omega, show 2 * K + 1 + 1 + 1 = 2 * (K + 1) + 1 by omega, this]
    simp only [Nat.add_lt_add_iff_right]
    rw [show K + 1 + d = K + (d + 1) by omega]

theorem next_eq (h : IsRegister ini s) (fuel d K : Nat) (h0 : ∀ i, i < d → s (2 * (K + i) + 80) = false) (h1 : s (2 * (K + d) + 80) = true) :
    next fuel (window s (2 * K)) =
      if d < fuel then some (s (2 * (K + d) + 81), window s (2 * (K + d + 1))) else none := by
  rw [next, shift_window h]
  simp only [Option.bind_eq_bind, Option.bind_some]
  rw [skip_eq h fuel d K h0 h1]
  split
  · rw [Option.bind_some, shift_window h, show 2 * (K + d) + 1 + 1 = 2 * (K + d + 1) by omega]
  · rfl

/-- From a register after `g` bits the next bit is bit `g`. -/
theorem next_at (h : IsRegister ini s) (hinf : (Set.ofPred (Taken s)).Infinite) {g : Nat} {b : List Bool} (hb : At s g b) :
    ∃ d b', At s (g + 1) b' ∧ ∀ fuel, next fuel b = if d < fuel then some (grainBit s g, b') else none := by
  obtain ⟨K, hK, rfl, hg⟩ := hb
  have hle : K + 40 ≤ Nat.nth (Taken s) g := by
    rw [← hg]; exact Nat.le_nth_count hinf _
  obtain ⟨d, hd⟩ := Nat.exists_eq_add_of_le hle
  have ht : Taken s (Nat.nth (Taken s) g) := Nat.nth_mem_of_infinite hinf g
  have h1 : s (2 * (K + d) + 80) = true := by
    have := ht.2
    rwa [hd, show 2 * (K + 40 + d) = 2 * (K + d) + 80 by omega] at this
  have h0 : ∀ i, i < d → s (2 * (K + i) + 80) = false := by
    intro i hi
    by_contra hs
    have h2 : Taken s (K + i + 40) := ⟨by omega, by rw [show 2 * (K + i + 40) = 2 * (K + i) + 80 by omega]; simpa using hs⟩
    have h3 : Nat.count (Taken s) (K + i + 40) < Nat.count (Taken s) (K + i + 40 + 1) := by
      rw [Nat.count_succ _ (K + i + 40), if_pos h2]; omega
    have h4 : Nat.count (Taken s) (K + i + 40 + 1) ≤ Nat.count (Taken s) (Nat.nth (Taken s) g) := Nat.count_monotone _ (by omega)
    rw [Nat.count_nth_of_infinite hinf] at h4
    have h5 : g ≤ Nat.count (Taken s) (K + i + 40) := by rw [← hg]; exact Nat.count_monotone _ (by omega)
    omega
  refine ⟨d, window s (2 * (K + d + 1)), ⟨K + d + 1, by omega, rfl, ?_⟩, fun fuel => ?_⟩
  · rw [show K + d + 1 + 40 = (K + 40 + d) + 1 by omega, ← hd, Nat.count_succ, if_pos ht, Nat.count_nth_of_infinite hinf]
  · rw [next_eq h fuel d K h0 h1, grainBit, hd, show 2 * (K + 40 + d) + 1 = 2 * (K + d) + 81 by omega]

/-- The register at the first bit -/
theorem at_start (h : IsRegister ini s) (hl : ini.length = 80) : ∃ b, warmUp 160 ini = some b ∧ At s 0 b := by
  refine ⟨_, by rw [← register_window h hl, warmUp_window h], 80, le_rfl, rfl, ?_⟩
  rw [Nat.count_iff_forall_not]
  intro j hj ht
  have := ht.1
  omega

/-- `draw` takes `w` bits and, from a register after `g` bits, returns `val g` — or nothing, if `fuel` is too small. -/
def DrawsAt (s : Nat → Bool) {α : Type} (draw : Nat → List Bool → Option (α × List Bool)) (g : Nat) (b : List Bool) (x : α) (w : Nat) :
    Prop :=
  ∃ f0 b', At s (g + w) b' ∧ (∀ fuel, f0 ≤ fuel → draw fuel b = some (x, b')) ∧ ∀ fuel, draw fuel b = none ∨ draw fuel b = some (x, b')

theorem collect_at {α : Type} {draw : Nat → List Bool → Option (α × List Bool)} {val : Nat → α} {w : Nat}
    (hd : ∀ g b, At s g b → DrawsAt s draw g b (val g) w) (i : Nat) :
    ∀ g b, At s g b → DrawsAt s (fun fuel => collect (draw fuel) i) g b (fun l : Fin i => val (g + w * l)) (w * i) := by
  induction i with
  | zero =>
    intro g b hb
    refine ⟨0, b, by simpa using hb, fun fuel _ => ?_, fun fuel => Or.inr ?_⟩ <;>
    · show some _ = some _
      congr 2; exact Subsingleton.elim _ _
  | succ i ih =>
    intro g b hb
    obtain ⟨f0, b1, h1, h2, h3⟩ := hd g b hb
    obtain ⟨f1, b2, h4, h5, h6⟩ := ih _ b1 h1
    beta_reduce at h5 h6
    have e : (Fin.cons (val g) fun l : Fin i => val (g + w + w * l)) = fun l : Fin (i + 1) => val (g + w * l) := by
      funext l
      refine Fin.cases ?_ (fun l => ?_) l
      · simp
      · rw [Fin.cons_succ]; congr 1; simp only [Fin.val_succ]; ring
    refine ⟨max f0 f1, b2, by rwa [show g + w * (i + 1) = g + w + w * i by ring], fun fuel hf => ?_, fun fuel => ?_⟩
    · show collect (draw fuel) (i + 1) b = _
      rw [collect, h2 fuel (le_trans (le_max_left _ _) hf)]
      simp only [Option.bind_eq_bind, Option.bind_some]
      rw [h5 fuel (le_trans (le_max_right _ _) hf)]
      simp only [Option.bind_some]
      rw [e]; rfl
    · show collect (draw fuel) (i + 1) b = none ∨ collect (draw fuel) (i + 1) b = _
      rw [collect]
      rcases h3 fuel with h | h
      · left; rw [h]; rfl
      · rw [h]
        simp only [Option.bind_eq_bind, Option.bind_some]
        rcases h6 fuel with h' | h'
        · left; rw [h']; rfl
        · right
          rw [h']
          simp only [Option.bind_some]
          rw [e]; rfl

theorem next_draws (h : IsRegister ini s) (hinf : (Set.ofPred (Taken s)).Infinite) (g : Nat) (b : List Bool) (hb : At s g b) :
    DrawsAt s next g b (grainBit s g) 1 := by
  obtain ⟨d, b', h1, h2⟩ := next_at h hinf hb
  refine ⟨d + 1, b', h1, fun fuel hf => ?_, fun fuel => ?_⟩
  · rw [h2, if_pos (by omega)]
  · rw [h2]
    split
    · exact Or.inr rfl
    · exact Or.inl rfl

theorem intOfBits_aux (f : Nat → Bool) (n a : Nat) :
    (List.ofFn fun l : Fin n => f l).foldl (fun a b => 2 * a + b.toNat) a =
      a * 2 ^ n + ∑ l ∈ Finset.range n, (f l).toNat * 2 ^ (n - 1 - l) := by
  induction n with
  | zero => simp
  | succ n ih =>
    rw [List.ofFn_succ', List.concat_eq_append, List.foldl_append]
    simp only [Fin.val_castSucc, Fin.val_last, List.foldl_cons, List.foldl_nil]
    rw [ih, Finset.sum_range_succ, mul_add, Finset.mul_sum, pow_succ]
    have : ∀ l ∈ Finset.range n, 2 * ((f l).toNat * 2 ^ (n - 1 - l)) = (f l).toNat * 2 ^ (n + 1 - 1 - l) := by
      intro l hl
      have := Finset.mem_range.1 hl
      rw [show n + 1 - 1 - l = n - 1 - l + 1 by omega, pow_succ]; ring
    rw [Finset.sum_congr rfl this]
    simp
    ring

theorem intOfBits_eq (f : Nat → Bool) (n : Nat) :
    intOfBits (List.ofFn fun l : Fin n => f l) = ∑ l ∈ Finset.range n, (f l).toNat * 2 ^ (n - 1 - l) := by
  rw [intOfBits, intOfBits_aux]; simp

theorem randomBits_draws (h : IsRegister ini s) (hinf : (Set.ofPred (Taken s)).Infinite) {n : Nat} (hn : n ≠ 0) (g : Nat) (b : List Bool)
    (hb : At s g b) : DrawsAt s (fun fuel => randomBits fuel n) g b (grainNumber s n g) n := by
  obtain ⟨f0, b', h1, h2, h3⟩ := collect_at (next_draws h hinf) n g b hb
  beta_reduce at h2 h3
  have e : intOfBits (List.ofFn fun l : Fin n => grainBit s (g + 1 * l)) = grainNumber s n g := by
    rw [intOfBits_eq fun l => grainBit s (g + 1 * l), grainNumber]
    simp only [Nat.one_mul]
  refine ⟨f0, b', by rwa [Nat.one_mul] at h1, fun fuel hf => ?_, fun fuel => ?_⟩
  · have := h2 fuel hf
    show randomBits fuel n b = _
    rw [randomBits, if_neg hn, this]
    simp only [Option.bind_eq_bind, Option.bind_some]
    rw [e]; rfl
  · show randomBits fuel n b = none ∨ randomBits fuel n b = _
    rw [randomBits, if_neg hn]
    rcases h3 fuel with h | h
    · left; rw [h]; rfl
    · right
      rw [h]
      simp only [Option.bind_eq_bind, Option.bind_some]
      rw [e]; rfl

end Poseidon
