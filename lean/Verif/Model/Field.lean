import Mathlib.NumberTheory.LucasPrimality
import Mathlib.Algebra.Field.ZMod
import Mathlib.Tactic.NormNum.Prime
import Mathlib.Tactic.Ring

/-!
# The field `decaf377::Fq`

`Fq` is the scalar field of BLS12-377.  `decaf377` is not part of /repo; the model uses `ZMod q`, the
prime field with the same modulus.  Primality of `q` is proved here (Lucas certificate), it is not an
assumption.
-/

namespace Poseidon

/-- Evaluate a natural number before passing it on (keeps kernel evaluation strict).  No counterpart in /repo (an identity function). -/
def force {α : Type _} (n : Nat) (f : Nat → α) : α :=
  Nat.rec (f 0) (fun k _ => f (Nat.succ k)) n

theorem force_eq {α : Type _} (n : Nat) (f : Nat → α) : force n f = f n := by
  cases n <;> rfl

/-- `acc * b ^ e mod m` by square and multiply (at most `fuel` bits).  No counterpart in /repo (used to prove `q` prime). -/
def powModAux (m : Nat) : Nat → Nat → Nat → Nat → Nat
  | 0, _, _, acc => acc
  | fuel + 1, b, e, acc =>
    match e with
    | 0 => acc
    | e' + 1 =>
      force (b * b % m) fun b2 => force ((e' + 1) / 2) fun e2 =>
        force (if (e' + 1) % 2 = 1 then acc * b % m else acc) fun acc2 => powModAux m fuel b2 e2 acc2

theorem powModAux_eq (m : Nat) : ∀ fuel b e acc, e < 2 ^ fuel →
    powModAux m fuel b e acc % m = acc * b ^ e % m := by
  intro fuel
  induction fuel with
  | zero =>
    intro b e acc h
    have : e = 0 := by simpa using h
    simp [powModAux, this]
  | succ fuel ih =>
    intro b e acc h
    cases e with
    | zero => simp [powModAux]
    | succ e' =>
      simp only [powModAux, force_eq]
      rw [ih _ _ _ (by rw [Nat.div_lt_iff_lt_mul (by omega)]; rwa [pow_succ] at h)]
      have h1 : (b * b % m) ^ ((e' + 1) / 2) ≡ (b * b) ^ ((e' + 1) / 2) [MOD m] :=
        (Nat.mod_modEq _ _).pow _
      have h2 : (b * b) ^ ((e' + 1) / 2) = b ^ (2 * ((e' + 1) / 2)) := by rw [← pow_two, ← pow_mul]
      rcases Nat.mod_two_eq_zero_or_one (e' + 1) with hp | hp
      · rw [if_neg (by omega)]
        have : 2 * ((e' + 1) / 2) = e' + 1 := by omega
        rw [this] at h2
        exact (h1.trans (by rw [h2])).mul_left acc
      · rw [if_pos hp]
        have : 2 * ((e' + 1) / 2) + 1 = e' + 1 := by omega
        calc acc * b % m * (b * b % m) ^ ((e' + 1) / 2) % m
            = acc * b * (b * b) ^ ((e' + 1) / 2) % m := ((Nat.mod_modEq _ _).mul h1)
          _ = acc * b ^ (e' + 1) % m := by
              conv_rhs => rw [← this, pow_succ]
              rw [h2, mul_assoc, mul_comm b]

/-- Lucas' test with a factorisation `p - 1 = ∏ f ^ e`. -/
theorem lucas_of_check (p a : Nat) (fs : List (Nat × Nat))
    (hp : 1 < p) (hb : p < 2 ^ 300)
    (hprime : ∀ f ∈ fs, Nat.Prime f.1)
    (hprod : (fs.map fun f => f.1 ^ f.2).prod = p - 1)
    (h1 : powModAux p 300 a (p - 1) 1 % p = 1)
    (h2 : ∀ f ∈ fs, powModAux p 300 a ((p - 1) / f.1) 1 % p ≠ 1) : p.Prime := by
  have key : ∀ e, e < 2 ^ 300 → ((a : ZMod p) ^ e = 1 ↔ powModAux p 300 a e 1 % p = 1) := by
    intro e he
    rw [powModAux_eq p 300 a e 1 he, one_mul]
    have : ((a ^ e : Nat) : ZMod p) = ((1 : Nat) : ZMod p) ↔ a ^ e ≡ 1 [MOD p] := ZMod.natCast_eq_natCast_iff _ _ _
    rw [Nat.cast_pow, Nat.cast_one] at this
    rw [this, Nat.ModEq, Nat.mod_eq_of_lt hp]
  apply lucas_primality p (a : ZMod p)
  · rw [key _ (by omega)]; exact h1
  · intro r hr hdvd
    have : ∃ f ∈ fs, r = f.1 := by
      rw [← hprod, Prime.dvd_prod_iff hr.prime] at hdvd
      obtain ⟨x, hx, hrx⟩ := hdvd
      obtain ⟨f, hf, rfl⟩ := List.mem_map.1 hx
      exact ⟨f, hf, (Nat.prime_dvd_prime_iff_eq hr (hprime f hf)).1 (hr.dvd_of_dvd_pow hrx)⟩
    obtain ⟨f, hf, rfl⟩ := this
    rw [Ne, key _ (lt_of_le_of_lt (Nat.div_le_self _ _) (by omega))]
    exact h2 f hf

theorem prime_1832756501 : Nat.Prime 1832756501 := by
  apply lucas_of_check _ 2 [(2, 2), (5, 3), (29, 1), (126397, 1)] (by decide +kernel) (by decide +kernel)
  · intro f hf
    fin_cases hf <;> norm_num
  · decide +kernel
  · decide +kernel
  · decide +kernel

theorem prime_49484425527001 : Nat.Prime 49484425527001 := by
  apply lucas_of_check _ 14 [(2, 3), (3, 3), (5, 3), (1832756501, 1)] (by decide +kernel) (by decide +kernel)
  · intro f hf
    fin_cases hf <;> first | exact prime_1832756501 | norm_num
  · decide +kernel
  · decide +kernel
  · decide +kernel

theorem prime_958612291309063373 : Nat.Prime 958612291309063373 := by
  apply lucas_of_check _ 2 [(2, 2), (29, 1), (167, 1), (49484425527001, 1)] (by decide +kernel) (by decide +kernel)
  · intro f hf
    fin_cases hf <;> first | exact prime_49484425527001 | norm_num
  · decide +kernel
  · decide +kernel
  · decide +kernel

theorem prime_9586122913090633729 : Nat.Prime 9586122913090633729 := by
  apply lucas_of_check _ 11 [(2, 46), (3, 1), (7, 1), (13, 1), (499, 1)] (by decide +kernel) (by decide +kernel)
  · intro f hf
    fin_cases hf <;> norm_num
  · decide +kernel
  · decide +kernel
  · decide +kernel

/-- The modulus of `decaf377::Fq` (the BLS12-377 scalar field order).  Imported from `decaf377` in poseidon377/src/lib.rs:34. -/
def q : Nat := 8444461749428370424248824938781546531375899335154063827935233455917409239041

theorem q_prime : Nat.Prime q := by
  apply lucas_of_check _ 22 [(2, 47), (3, 1), (5, 1), (7, 1), (13, 1), (499, 1), (958612291309063373, 1),
    (9586122913090633729, 2)] (by decide +kernel) (by decide +kernel)
  · intro f hf
    fin_cases hf <;>
      first | exact prime_958612291309063373 | exact prime_9586122913090633729 | norm_num
  · decide +kernel
  · decide +kernel
  · decide +kernel

instance : Fact (Nat.Prime q) := ⟨q_prime⟩

/-- `decaf377::Fq`.  Re-exported in poseidon377/src/lib.rs:34. -/
abbrev Fq := ZMod q

end Poseidon
