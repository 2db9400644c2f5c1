import Verif.Proofs.GenAlpha
import Verif.Proofs.Hash
import Verif.Model.Field
import Verif.Model.GenTranscript

/-!
# Properties of the choice of the S-box (C31, C32, C33)
-/

set_option linter.unusedSectionVars false

namespace Poseidon

/-! ## The loop over the table -/

/-- The candidate is accepted: odd, and coprime to `p - 1`. -/
def qualifies (p c : Nat) : Bool := c % 2 != 0 && Nat.gcd c (p - 1) == 1

theorem alphaCoprime_eq {p : Nat} (hp : 2 ≤ p) (c : Nat) :
    alphaCoprimeToPMinusOne c p = .ok (Nat.gcd (c % p) (p - 1) == 1) := by
  have h1 : 1 % p = 1 := Nat.mod_eq_of_lt (by omega)
  have hg : Nat.gcd (c % p) (p - 1) ≤ p - 1 := Nat.gcd_le_right _ (by omega)
  rw [alphaCoprimeToPMinusOne]
  dsimp only
  rw [h1, usub, if_pos (by omega)]
  show Except.ok _ = Except.ok _
  rw [Nat.mod_eq_of_lt (a := Nat.gcd _ _) (by omega)]

theorem alphaLoop_eq {p : Nat} (hp : 2 ≤ p) (l : List Nat) :
    alphaLoop p l = .ok (l.find? fun c => c % 2 != 0 && Nat.gcd (c % p) (p - 1) == 1) := by
  induction l with
  | nil => rfl
  | cons c l ih =>
    rw [alphaLoop, List.find?_cons]
    by_cases h : (c % 2 != 0) = true
    · rw [if_pos h, alphaCoprime_eq hp, h, Bool.true_and]
      show (if (Nat.gcd (c % p) (p - 1) == 1) = true then _ else _) = _
      cases hg : Nat.gcd (c % p) (p - 1) == 1
      · rw [if_neg (by simp)]; exact ih
      · rw [if_pos rfl]; rfl
    · rw [if_neg h, Bool.eq_false_iff.2 h, Bool.false_and]; exact ih

/-- For small primes the reduction of the candidate modulo `p` makes a difference only for `p = 3`. -/
theorem find_small : ∀ p, p < 129 → 2 ≤ p → p.Prime → p ≠ 3 →
    (depthsInOrder.find? fun c => c % 2 != 0 && Nat.gcd (c % p) (p - 1) == 1) = depthsInOrder.find? (qualifies p) := by
  decide +kernel

theorem depths_le : ∀ c ∈ depthsInOrder, c ≤ 128 := by decide

theorem find?_congr' {α : Type} {f g : α → Bool} : ∀ {l : List α}, (∀ x ∈ l, f x = g x) → l.find? f = l.find? g
  | [], _ => rfl
  | x :: l, h => by
    rw [List.find?_cons, List.find?_cons, h x (by simp), find?_congr' fun y hy => h y (by simp [hy])]

theorem alphaGenerate_eq {p : Nat} (hp : p.Prime) (h3 : p ≠ 3) (allow : Bool) :
    alphaGenerate p allow = match depthsInOrder.find? (qualifies p) with
      | some a => .ok (.exponent a)
      | none => if allow then .ok .inverse else .error .explicit := by
  have h2 := hp.two_le
  have hf : (depthsInOrder.find? fun c => c % 2 != 0 && Nat.gcd (c % p) (p - 1) == 1) =
      depthsInOrder.find? (qualifies p) := by
    rcases Nat.lt_or_ge p 129 with h | h
    · exact find_small p h h2 hp h3
    · apply find?_congr'
      intro c hc
      have := depths_le c hc
      rw [qualifies, Nat.mod_eq_of_lt (show c < p by omega)]
  rw [alphaGenerate, alphaLoop_eq h2, hf, ok_bind]
  cases depthsInOrder.find? (qualifies p) <;> rfl

theorem mem_depths {n : Nat} : n ∈ depthsInOrder ↔ ∃ d, 2 ≤ d ∧ d ≤ 7 ∧ n ∈ tableAt d := by
  have : depthsInOrder = tableAt 2 ++ tableAt 3 ++ (tableAt 4 ++ tableAt 5) ++ (tableAt 6 ++ tableAt 7) := rfl
  rw [this]
  simp only [List.mem_append]
  constructor
  · rintro (((h | h) | h | h) | h | h)
    exacts [⟨2, by omega, by omega, h⟩, ⟨3, by omega, by omega, h⟩, ⟨4, by omega, by omega, h⟩,
      ⟨5, by omega, by omega, h⟩, ⟨6, by omega, by omega, h⟩, ⟨7, by omega, by omega, h⟩]
  · rintro ⟨d, h2, h7, h⟩
    interval_cases d <;> tauto

theorem mem_depths_iff_reachable {n : Nat} (h3 : 3 ≤ n) : n ∈ depthsInOrder ↔ ∃ d, d ≤ 7 ∧ ReachableIn n d := by
  rw [mem_depths]
  constructor
  · rintro ⟨d, -, h7, h⟩
    exact ⟨d, h7, table_reachable d h7 n h⟩
  · rintro ⟨d, h7, h⟩
    obtain ⟨e, he, h1⟩ := mem_tableUpTo.1 (reachable_mem h7 h)
    refine ⟨e, ?_, by omega, h1⟩
    by_contra hlt
    have : e = 0 ∨ e = 1 := by omega
    rcases this with rfl | rfl
    · simp [tableAt] at h1; omega
    · simp [tableAt] at h1; omega

theorem three_le_depths : ∀ c ∈ depthsInOrder, 3 ≤ c := by decide

/-! ## C31: the S-box is a bijection -/

/-- C31: whenever the generator returns a positive exponent, the S-box is a bijection of the field, for
every prime. -/
theorem C31_bijective {p a : Nat} (hp : p.Prime) (allow : Bool) (h : alphaGenerate p allow = .ok (.exponent a))
    (F : Type) [Field F] [Fintype F] (hF : Fintype.card F = p) :
    Function.Bijective fun x : F => x ^ a := by
  have key : Nat.Coprime a (p - 1) ∧ a ≠ 0 := by
    by_cases h3 : p = 3
    · subst h3
      have : alphaGenerate 3 allow = .ok (.exponent 7) := by cases allow <;> decide +kernel
      rw [this] at h
      cases h
      exact ⟨by decide, by omega⟩
    · rw [alphaGenerate_eq hp h3] at h
      cases hf : depthsInOrder.find? (qualifies p) with
      | none =>
        rw [hf] at h
        dsimp only at h
        cases allow <;> simp at h
      | some b =>
        rw [hf] at h
        dsimp only at h
        cases h
        have hq := List.find?_some hf
        have hm := three_le_depths a (List.mem_of_find?_eq_some hf)
        rw [qualifies, Bool.and_eq_true_iff] at hq
        exact ⟨by simpa using hq.2, by omega⟩
  classical exact pow_bijective (by rw [hF]; exact key.1) (by omega)

/-- The condition under which no positive exponent is found: every odd number from 3 on that has an
addition chain with at most 7 additions has a factor in common with `p - 1`. -/
def NoSmallExponent (p : Nat) : Prop :=
  ∀ n d, n % 2 = 1 → 3 ≤ n → d ≤ 7 → ReachableIn n d → ¬ Nat.Coprime n (p - 1)

theorem find_none_iff (p : Nat) : depthsInOrder.find? (qualifies p) = none ↔ NoSmallExponent p := by
  rw [List.find?_eq_none]
  constructor
  · intro h n d hodd h3 h7 hr hc
    refine h n ((mem_depths_iff_reachable h3).2 ⟨d, h7, hr⟩) ?_
    rw [qualifies, hodd]
    simpa using hc
  · intro h c hc hq
    have h3 := three_le_depths c hc
    obtain ⟨d, h7, hr⟩ := (mem_depths_iff_reachable h3).1 hc
    rw [qualifies, Bool.and_eq_true_iff] at hq
    refine h c d ?_ h3 h7 hr (by simpa using hq.2)
    have : c % 2 ≠ 0 := by simpa using hq.1
    omega

/-- C31: the inverse S-box is chosen only if no positive exponent qualifies, and the generator panics only
if moreover the inverse is not allowed. -/
theorem C31_fallback {p : Nat} (hp : p.Prime) (allow : Bool) :
    (alphaGenerate p allow = .ok .inverse ↔ allow = true ∧ NoSmallExponent p) ∧
    ((∃ e, alphaGenerate p allow = .error e) ↔ allow = false ∧ NoSmallExponent p) := by
  by_cases h3 : p = 3
  · subst h3
    have h7 : alphaGenerate 3 allow = .ok (.exponent 7) := by cases allow <;> decide +kernel
    have hn : ¬ NoSmallExponent 3 := by
      intro h
      exact h 3 2 (by omega) (by omega) (by omega) (table_reachable 2 (by omega) 3 (by decide)) (by decide)
    rw [h7]
    simp [hn]
  · rw [alphaGenerate_eq hp h3, ← find_none_iff]
    cases depthsInOrder.find? (qualifies p) <;> cases allow <;> simp

/-- A prime that is 1 modulo every odd prime of the table. -/
theorem prime_noExponent : Nat.Prime 78496567990020181 := by
  apply lucas_of_check _ 2 [(2, 2), (3, 2), (5, 1), (7, 1), (11, 1), (13, 1), (17, 1), (19, 1), (23, 1), (29, 1),
    (31, 1), (37, 1), (41, 1), (43, 1)] (by decide +kernel) (by decide +kernel) <;> decide +kernel

/-- Non-vacuity: all three outcomes occur. -/
example : alphaGenerate 78496567990020181 true = .ok .inverse := by decide +kernel
example : alphaGenerate 78496567990020181 false = .error .explicit := by decide +kernel
example : alphaGenerate 7 false = .ok (.exponent 5) := by decide +kernel
example : alphaGenerate 211 false = .ok (.exponent 17) := by decide +kernel

/-- The shipped field: the generator chooses 17. -/
theorem C31_shipped (allow : Bool) : alphaGenerate q allow = .ok (.exponent 17) := by
  cases allow <;> decide +kernel

/-! ## C32: the cheapest exponent -/

/-- C32: the table lists at depth `d` exactly the numbers whose shortest addition chain has `d` additions. -/
theorem C32_table (n : Nat) :
    (n ∈ depth2 ↔ ShortestChain n 2) ∧ (n ∈ depth3 ↔ ShortestChain n 3) ∧ (n ∈ depth4 ↔ ShortestChain n 4) ∧
    (n ∈ depth5 ↔ ShortestChain n 5) ∧ (n ∈ depth6 ↔ ShortestChain n 6) ∧ (n ∈ depth7 ↔ ShortestChain n 7) :=
  have h (d : Nat) (hd : d ≤ 7) : n ∈ tableAt d ↔ ShortestChain n d := ⟨shortest_of_mem hd, mem_of_shortest hd⟩
  ⟨h 2 (by omega), h 3 (by omega), h 4 (by omega), h 5 (by omega), h 6 (by omega), h 7 (by omega)⟩

/-- The table with its depths. -/
def depthPairs : List (Nat × Nat) := [2, 3, 4, 5, 6, 7].flatMap fun d => (tableAt d).map fun n => (d, n)

/-- In the order of the table, later entries are deeper, or as deep and smaller. -/
theorem depths_sorted : depthsInOrder.Pairwise fun a b =>
    ∀ d, d < 8 → a ∈ tableAt d → ∀ e, e < 8 → b ∈ tableAt e → d < e ∨ d = e ∧ b < a := by
  have h1 : depthPairs.Pairwise fun x y => x.1 < y.1 ∨ x.1 = y.1 ∧ y.2 < x.2 := by decide +kernel
  have h2 : depthsInOrder = depthPairs.map Prod.snd := by decide +kernel
  have h3 : ∀ x ∈ depthPairs, x.1 ≤ 7 ∧ x.2 ∈ tableAt x.1 := by
    intro x hx
    simp only [depthPairs, List.mem_flatMap, List.mem_map] at hx
    obtain ⟨d, hd, n, hn, rfl⟩ := hx
    refine ⟨?_, hn⟩
    simp only [List.mem_cons, List.not_mem_nil, or_false] at hd
    dsimp only
    omega
  have uniq : ∀ {n d e}, d ≤ 7 → e ≤ 7 → n ∈ tableAt d → n ∈ tableAt e → d = e := fun h7 h7' hd he =>
    (shortest_of_mem h7 hd).unique (shortest_of_mem h7' he)
  rw [h2, List.pairwise_map]
  refine h1.imp_of_mem ?_
  intro x y hx hy hxy d hd8 hd e he8 he
  rw [uniq (by omega) (h3 x hx).1 hd (h3 x hx).2, uniq (by omega) (h3 y hy).1 he (h3 y hy).2]
  exact hxy

/-- C32: for every prime but 3, the generated exponent is odd, coprime to `p - 1`, has a chain no longer
than that of any other odd number from 3 on that is coprime to `p - 1`, and is the largest of those with
equally short chains. -/
theorem C32_cheapest {p a : Nat} (hp : p.Prime) (hp3 : p ≠ 3) (allow : Bool)
    (h : alphaGenerate p allow = .ok (.exponent a)) :
    a % 2 = 1 ∧ 3 ≤ a ∧ Nat.Coprime a (p - 1) ∧ ∃ d, ShortestChain a d ∧
      ∀ n e, n % 2 = 1 → 3 ≤ n → Nat.Coprime n (p - 1) → ShortestChain n e → d < e ∨ d = e ∧ n ≤ a := by
  rw [alphaGenerate_eq hp hp3] at h
  cases hf : depthsInOrder.find? (qualifies p) with
  | none => rw [hf] at h; dsimp only at h; cases allow <;> simp at h
  | some b =>
    rw [hf] at h
    dsimp only at h
    cases h
    obtain ⟨hq, as, bs, hl, has⟩ := List.find?_eq_some_iff_append.1 hf
    have hmem : a ∈ depthsInOrder := List.mem_of_find?_eq_some hf
    have hq' := hq
    rw [qualifies, Bool.and_eq_true_iff] at hq'
    obtain ⟨d, -, hd7, hd⟩ := mem_depths.1 hmem
    refine ⟨?_, three_le_depths a hmem, by simpa using hq'.2, d, shortest_of_mem hd7 hd, ?_⟩
    · have : a % 2 ≠ 0 := by simpa using hq'.1
      omega
    · intro n e hodd hn3 hcop hse
      by_cases he : e ≤ 7
      · have hne : n ∈ tableAt e := mem_of_shortest he hse
        have hnm : n ∈ depthsInOrder := (mem_depths_iff_reachable hn3).2 ⟨e, he, hse.1⟩
        have hqn : qualifies p n = true := by
          rw [qualifies, hodd]; simpa using hcop
        rw [hl, List.mem_append, List.mem_cons] at hnm
        rcases hnm with h1 | rfl | h1
        · have := has n h1; simp [hqn] at this
        · right
          exact ⟨(shortest_of_mem hd7 hd).unique hse, le_rfl⟩
        · have hs := depths_sorted
          rw [hl, List.pairwise_append] at hs
          rcases (List.pairwise_cons.1 hs.2.1).1 n h1 d (by omega) hd e (by omega) hne with h2 | ⟨h2, h3⟩
          · exact Or.inl h2
          · exact Or.inr ⟨h2, h3.le⟩
      · left; omega

/-- C32 fails for the field with 3 elements, where the candidate 3 is reduced to 0 first: 3 qualifies but
the deeper 7 is returned. -/
theorem C32_three : alphaGenerate 3 true = .ok (.exponent 7) ∧ Nat.Coprime 3 (3 - 1) ∧ ShortestChain 3 2 ∧
    ShortestChain 7 4 :=
  ⟨by decide +kernel, by decide, shortest_of_mem (by omega) (by decide), shortest_of_mem (by omega) (by decide)⟩

/-! ## C33: the byte encoding -/

/-- C33: the encoding has four bytes, and reading them as a little-endian number gives back the exponent. -/
theorem C33_decode (e : Nat) (h : e < 2 ^ 32) : leValue (Alpha.exponent e).toBytesLe = e ∧
    (Alpha.exponent e).toBytesLe.length = 4 ∧ ∀ b ∈ (Alpha.exponent e).toBytesLe, b < 256 := by
  refine ⟨?_, rfl, ?_⟩
  · simp only [Alpha.toBytesLe, u32le, leValue]; omega
  · intro b hb
    simp only [Alpha.toBytesLe, u32le, List.mem_cons, List.not_mem_nil, or_false] at hb
    rcases hb with rfl | rfl | rfl | rfl <;> omega

/-- The S-boxes the type `Alpha` can represent (`u32` exponents). -/
def Alpha.Valid : Alpha → Prop
  | .exponent e => e < 2 ^ 32
  | .inverse => True

/-- C33: two different S-boxes have the same encoding exactly when they are `Exponent(2^32 - 1)` and
`Inverse`. -/
theorem C33_injective (a b : Alpha) (ha : a.Valid) (hb : b.Valid) :
    a.toBytesLe = b.toBytesLe ↔ a = b ∨ (a = .exponent (2 ^ 32 - 1) ∧ b = .inverse) ∨
      (a = .inverse ∧ b = .exponent (2 ^ 32 - 1)) := by
  have hinv : leValue Alpha.inverse.toBytesLe = 2 ^ 32 - 1 := rfl
  have h0 : (Alpha.exponent (2 ^ 32 - 1)).toBytesLe = Alpha.inverse.toBytesLe := by decide +kernel
  constructor
  · intro h
    have hv := congrArg leValue h
    cases a with
    | exponent x =>
      cases b with
      | exponent y =>
        rw [(C33_decode x ha).1, (C33_decode y hb).1] at hv
        exact Or.inl (by rw [hv])
      | inverse =>
        rw [(C33_decode x ha).1, hinv] at hv
        exact Or.inr (Or.inl ⟨by rw [hv], rfl⟩)
    | inverse =>
      cases b with
      | exponent y =>
        rw [(C33_decode y hb).1, hinv] at hv
        exact Or.inr (Or.inr ⟨rfl, by rw [← hv]⟩)
      | inverse => exact Or.inl rfl
  · rintro (rfl | ⟨rfl, rfl⟩ | ⟨rfl, rfl⟩)
    · rfl
    · exact h0
    · exact h0.symm

/-- The colliding pair is real. -/
theorem C33_collision : (Alpha.exponent (2 ^ 32 - 1)).toBytesLe = Alpha.inverse.toBytesLe ∧
    (Alpha.exponent (2 ^ 32 - 1)).Valid ∧ Alpha.exponent (2 ^ 32 - 1) ≠ Alpha.inverse :=
  ⟨by decide +kernel, by simp [Alpha.Valid], by simp⟩

end Poseidon
