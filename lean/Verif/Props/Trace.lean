import Verif.Proofs.TraceCost
import Verif.Props.Panics

/-!
# What an observer of a hash computation sees (C80)

`Model/Trace.lean` records every field operation and every array access of `permutation.rs`.
-/

namespace Poseidon

open Traced

variable {F G : Type} [Field F] [DecidableEq F] [Field G] [DecidableEq G] {k t tm1 nmds nhat rows cols nround npart : Nat}

/-- **C80.** The recorded runs compute what the hash functions compute. -/
theorem C80_result (self : Instance F t tm1 nmds nhat rows cols nround npart) (x : Vector F t) :
    (Traced.nTo1FixedHash self x).result = self.nTo1FixedHash x ∧
    (Traced.unoptimizedNTo1FixedHash self x).result = self.unoptimizedNTo1FixedHash x :=
  ⟨result_nTo1FixedHash self x, result_unoptimizedNTo1FixedHash self x⟩

/-- **C80, data independence.** With the power S-box the sequence of field operations and array accesses is the same for
all inputs, all earlier states of the instance, all contents of the tables and all fields: it depends on the
array sizes, the round numbers and the exponent only.  This holds for runs that panic too. -/
theorem C80_data_independent (p : Params F t tm1 nmds nhat rows cols nround npart) (p' : Params G t tm1 nmds nhat rows cols nround npart)
    {e : Nat} (he : p.alpha = .exponent e) (he' : p'.alpha = .exponent e) (hr : p.rounds = p'.rounds) (s x : Vector F t)
    (s' x' : Vector G t) :
    (Traced.nTo1FixedHash ⟨p, s⟩ x).trace = (Traced.nTo1FixedHash ⟨p', s'⟩ x').trace ∧
    (Traced.unoptimizedNTo1FixedHash ⟨p, s⟩ x).trace = (Traced.unoptimizedNTo1FixedHash ⟨p', s'⟩ x').trace := by
  have key : ∀ {α β : Type} {Q : α → β → Prop} {a : Traced α} {b : Traced β}, Rel False Q a b → a.trace = b.trace := by
    intro α β Q a b h
    cases h with
    | ok _ _ ht _ => exact ht
    | error _ _ ht => exact ht
    | left h => exact h.elim
    | right h => exact h.elim
  have hE : p.alpha = .inverse → False := by rw [he]; intro h; cases h
  exact ⟨key (rel_hash p p' hr (he.trans he'.symm) hE s x s' x'), key (rel_unoptimizedHash p p' hr (he.trans he'.symm) hE s x s' x')⟩

/-- **C80, the shipped instances.** For every rate, all runs of a hash function look the same, whatever is hashed. -/
theorem C80_shipped (i : Fin 7) (s x s' x' : Vector Fq (i.val + 2)) :
    (Traced.nTo1FixedHash ⟨shippedParams i, s⟩ x).trace = (Traced.nTo1FixedHash ⟨shippedParams i, s'⟩ x').trace ∧
    (Traced.unoptimizedNTo1FixedHash ⟨shippedParams i, s⟩ x).trace =
      (Traced.unoptimizedNTo1FixedHash ⟨shippedParams i, s'⟩ x').trace :=
  C80_data_independent _ _ (shipped_alpha i) (shipped_alpha i) rfl s x s' x'

/-- **C80, inverse S-box.** Two runs look the same until one of them panics on the inversion of zero; two runs that return look the
same throughout. -/
theorem C80_inverse (p : Params F t tm1 nmds nhat rows cols nround npart) (p' : Params G t tm1 nmds nhat rows cols nround npart)
    (ha : p.alpha = p'.alpha) (hr : p.rounds = p'.rounds) (s x : Vector F t) (s' x' : Vector G t) :
    ((Traced.nTo1FixedHash ⟨p, s⟩ x).trace <+: (Traced.nTo1FixedHash ⟨p', s'⟩ x').trace ∨
      (Traced.nTo1FixedHash ⟨p', s'⟩ x').trace <+: (Traced.nTo1FixedHash ⟨p, s⟩ x).trace) ∧
    ((∃ r, Instance.nTo1FixedHash ⟨p, s⟩ x = .ok r) → (∃ r, Instance.nTo1FixedHash ⟨p', s'⟩ x' = .ok r) →
      (Traced.nTo1FixedHash ⟨p, s⟩ x).trace = (Traced.nTo1FixedHash ⟨p', s'⟩ x').trace) ∧
    ((Traced.unoptimizedNTo1FixedHash ⟨p, s⟩ x).trace <+: (Traced.unoptimizedNTo1FixedHash ⟨p', s'⟩ x').trace ∨
      (Traced.unoptimizedNTo1FixedHash ⟨p', s'⟩ x').trace <+: (Traced.unoptimizedNTo1FixedHash ⟨p, s⟩ x).trace) ∧
    ((∃ r, Instance.unoptimizedNTo1FixedHash ⟨p, s⟩ x = .ok r) → (∃ r, Instance.unoptimizedNTo1FixedHash ⟨p', s'⟩ x' = .ok r) →
      (Traced.unoptimizedNTo1FixedHash ⟨p, s⟩ x).trace = (Traced.unoptimizedNTo1FixedHash ⟨p', s'⟩ x').trace) := by
  have key : ∀ {α β : Type} {Q : α → β → Prop} {a : Traced α} {b : Traced β}, Rel True Q a b →
      (a.trace <+: b.trace ∨ b.trace <+: a.trace) ∧
      ((∃ r, a.result = .ok r) → (∃ r, b.result = .ok r) → a.trace = b.trace) := by
    intro α β Q a b h
    cases h with
    | ok _ _ ht _ => exact ⟨Or.inl (ht ▸ List.prefix_refl _), fun _ _ => ht⟩
    | error _ _ ht => exact ⟨Or.inl (ht ▸ List.prefix_refl _), fun _ _ => ht⟩
    | left _ hx ht => exact ⟨Or.inl ht, fun ⟨r, hr⟩ _ => by rw [hx] at hr; cases hr⟩
    | right _ hy ht => exact ⟨Or.inr ht, fun _ ⟨r, hr⟩ => by rw [hy] at hr; cases hr⟩
  have h1 := key (rel_hash p p' hr ha (fun _ => trivial) s x s' x')
  have h2 := key (rel_unoptimizedHash p p' hr ha (fun _ => trivial) s x s' x')
  rw [result_nTo1FixedHash, result_nTo1FixedHash] at h1
  rw [result_unoptimizedNTo1FixedHash, result_unoptimizedNTo1FixedHash] at h2
  exact ⟨h1.1, h1.2, h2.1, h2.2⟩

/-- **C80, cost of the optimized hash.** In any run that returns, priced at `a` for an addition, `m` for a multiplication and `c` for an
S-box, with `t = k + 1` words. -/
theorem C80_cost (p : Params F (k + 1) k nmds nhat rows cols nround npart) (hm : nmds = (k + 1) * (k + 1)) (a m c : Nat)
    (s x : Vector F (k + 1)) (h : ∃ r, Instance.nTo1FixedHash ⟨p, s⟩ x = .ok r) :
    (Traced.nTo1FixedHash ⟨p, s⟩ x).price a m c = (p.rounds.rF / 2 * 2 * (k + 1) + p.rounds.rP) * c +
      ((p.rounds.rF / 2 * 2 + 1) * (k + 1) ^ 2 + p.rounds.rP * (2 * k + 1)) * (m + a) +
      ((p.rounds.rF / 2 * 2 + 1) * (k + 1) + (p.rounds.rP - 1)) * a := by
  obtain ⟨r, hr⟩ := h
  exact (((costs_setState s x).bind fun v _ => (costs_permute p hm v).bind fun _ _ => (Costs.get _ _ _).bind fun _ _ =>
    Costs.pure _).of_eq (by ring)) ⟨r, (result_nTo1FixedHash _ _).trans hr⟩

/-- **C80, cost of the unoptimized hash.** -/
theorem C80_cost_unoptimized (p : Params F t tm1 nmds nhat rows cols nround npart) (ht : 0 < t) (hm : nmds = t * t) (a m c : Nat)
    (s x : Vector F t) (h : ∃ r, Instance.unoptimizedNTo1FixedHash ⟨p, s⟩ x = .ok r) :
    (Traced.unoptimizedNTo1FixedHash ⟨p, s⟩ x).price a m c = (p.rounds.rF / 2 * 2 * t + p.rounds.rP) * c +
      (p.rounds.rF / 2 * 2 + p.rounds.rP) * t ^ 2 * (m + a) + (p.rounds.rF / 2 * 2 + p.rounds.rP) * t * a := by
  obtain ⟨r, hr⟩ := h
  exact (((costs_setState s x).bind fun v _ => (costs_unoptimizedPermute p ht hm v).bind fun _ _ => (Costs.get _ _ _).bind fun _ _ =>
    Costs.pure _).of_eq (by ring)) ⟨r, (result_unoptimizedNTo1FixedHash _ _).trans hr⟩

/-- **C80, what the optimization saves.** It costs one matrix multiplication and saves `(t - 1)²` products in each partial round. -/
theorem C80_saving (p : Params F (k + 1) k nmds nhat rows cols nround npart) (hm : nmds = (k + 1) * (k + 1)) (a m c : Nat)
    (s x s' x' : Vector F (k + 1)) (h : ∃ r, Instance.nTo1FixedHash ⟨p, s⟩ x = .ok r)
    (h' : ∃ r, Instance.unoptimizedNTo1FixedHash ⟨p, s'⟩ x' = .ok r) (hP : 1 ≤ p.rounds.rP) :
    (Traced.unoptimizedNTo1FixedHash ⟨p, s'⟩ x').price a m c + (k + 1) ^ 2 * (m + a) =
      (Traced.nTo1FixedHash ⟨p, s⟩ x).price a m c + p.rounds.rP * k ^ 2 * (m + a) + (p.rounds.rP - 1) * k * a := by
  rw [C80_cost p hm a m c s x h, C80_cost_unoptimized p (by omega) hm a m c s' x' h']
  obtain ⟨n, hn⟩ : ∃ n, p.rounds.rP = n + 1 := ⟨p.rounds.rP - 1, by omega⟩
  rw [hn, Nat.add_sub_cancel]
  ring

/-- **C80, the shipped instances.** The exact number of operations of the hash functions, on every input: for `t` words `8t + 31` S-boxes,
`9t² + 31(2t-1)` multiplications and as many additions, and `9t + 30` further additions.  The unoptimized functions need `39t²`
multiplications, and are dearer in any price list in which multiplications or additions cost something. -/
theorem C80_cost_shipped (i : Fin 7) (a m c : Nat) (s x : Vector Fq (i.val + 2)) :
    (Traced.nTo1FixedHash ⟨shippedParams i, s⟩ x).price a m c = (8 * (i.val + 2) + 31) * c +
      (9 * (i.val + 2) ^ 2 + 31 * (2 * i.val + 3)) * (m + a) + (9 * (i.val + 2) + 30) * a ∧
    (Traced.unoptimizedNTo1FixedHash ⟨shippedParams i, s⟩ x).price a m c = (8 * (i.val + 2) + 31) * c +
      39 * (i.val + 2) ^ 2 * (m + a) + 39 * (i.val + 2) * a ∧
    (0 < m + a → (Traced.nTo1FixedHash ⟨shippedParams i, s⟩ x).price a m c <
      (Traced.unoptimizedNTo1FixedHash ⟨shippedParams i, s⟩ x).price a m c) := by
  have h1 : ∃ r, Instance.nTo1FixedHash ⟨shippedParams i, s⟩ x = .ok r :=
    (C66_optimized (k := i.val + 1) (shippedParams i) rfl rfl (by omega) (shipped_alpha i) s x).2 (by
      rw [shipped_rounds]; exact ⟨by norm_num [FitsConstants], by norm_num, by norm_num⟩)
  have h2 : ∃ r, Instance.unoptimizedNTo1FixedHash ⟨shippedParams i, s⟩ x = .ok r :=
    (C66_unoptimized (shippedParams i) rfl rfl (by omega) (shipped_alpha i) s x).2 (by rw [shipped_rounds]; norm_num [FitsConstants])
  have c1 := C80_cost (k := i.val + 1) (shippedParams i) rfl a m c s x h1
  have c2 := C80_cost_unoptimized (shippedParams i) (by omega) rfl a m c s x h2
  rw [shipped_rounds] at c1 c2
  have e1 : (Traced.nTo1FixedHash ⟨shippedParams i, s⟩ x).price a m c = (8 * (i.val + 2) + 31) * c +
      (9 * (i.val + 2) ^ 2 + 31 * (2 * i.val + 3)) * (m + a) + (9 * (i.val + 2) + 30) * a := c1.trans (by simp only [Nat.reduceDiv, Nat.reduceMul, Nat.reduceAdd, Nat.reduceSub]; ring)
  have e2 : (Traced.unoptimizedNTo1FixedHash ⟨shippedParams i, s⟩ x).price a m c = (8 * (i.val + 2) + 31) * c +
      39 * (i.val + 2) ^ 2 * (m + a) + 39 * (i.val + 2) * a := c2.trans (by norm_num)
  refine ⟨e1, e2, fun h => ?_⟩
  rw [e1, e2]
  have : 9 * (i.val + 2) ^ 2 + 31 * (2 * i.val + 3) + 1 ≤ 39 * (i.val + 2) ^ 2 := by nlinarith [sq_nonneg (i.val : ℕ)]
  have := Nat.mul_le_mul_right (m + a) this
  have : (9 * (i.val + 2) + 30) * a ≤ 39 * (i.val + 2) * a := Nat.mul_le_mul_right a (by omega)
  nlinarith

/-- **C80 is about something.** A two-word hash is 47 S-boxes, 129 multiplications and 177 additions long, whatever is hashed. -/
example (s x : Vector Fq 2) : (Traced.nTo1FixedHash ⟨shippedParams 0, s⟩ x).price 0 0 1 = 47 ∧
    (Traced.nTo1FixedHash ⟨shippedParams 0, s⟩ x).price 0 1 0 = 129 ∧
    (Traced.nTo1FixedHash ⟨shippedParams 0, s⟩ x).price 1 0 0 = 177 :=
  ⟨(C80_cost_shipped 0 0 0 1 s x).1, (C80_cost_shipped 0 0 1 0 s x).1, (C80_cost_shipped 0 1 0 0 s x).1⟩

end Poseidon
