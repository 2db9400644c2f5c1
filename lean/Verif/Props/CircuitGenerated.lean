import Verif.Props.GenerateV1
import Verif.Props.Alpha
import Verif.Props.Circuit
import Verif.Proofs.SboxCost

/-!
# Properties C63 and C64: circuits for generated parameters

* C63: with parameters from `v1::generate` the circuit computes the native hash; with the inverse S-box there is no circuit.
* C64: what the generated S-box costs in the circuit.
-/

namespace Poseidon

open R1cs

variable {F : Type} [Field F] [DecidableEq F] {k rows nmds nhat nround npart : Nat}

/-! ## C63 -/

/-- What a run of `v1::generate` that returned `P` is, for the theorems below. -/
structure GeneratedBy (L : Libm) (debug : Bool) (nlimbs p security : Nat) (allow : Bool)
    (P : Params F (k + 1) k nmds nhat rows (k + 1) nround npart) : Prop where
  accurate : L.Accurate
  log2_two : L.log2 2 = 1
  limbs : nlimbs < 2 ^ 28
  bits : numBits p < 2 ^ 32
  nmds_eq : nmds = (k + 1) * (k + 1)
  nhat_eq : nhat = k * k
  nround_eq : nround = rows * (k + 1)
  run : v1Generate L debug F nlimbs k nmds nhat rows nround npart security p allow = .ok P

/-- **C63, soundness.** Every satisfying assignment gives the output variable the native hash of the inputs. -/
theorem C63_sound {L : Libm} {debug : Bool} {nlimbs p security : Nat} [CharP F p] {allow : Bool}
    {P : Params F (k + 1) k nmds nhat rows (k + 1) nround npart} (g : GeneratedBy L debug nlimbs p security allow P)
    {e : Nat} (he : P.alpha = .exponent e) (inputs : Vector (FpVar F) (k + 1)) (cs cs' : CS F) (out : FpVar F)
    (h : R1cs.nTo1FixedHash P inputs cs = .ok (out, cs')) (σ : R1cs.Variable → F) (hσ : Satisfies σ cs') :
    ∃ inst', (Instance.new P).nTo1FixedHash (inputs.map (FpVar.eval σ)) = .ok (out.eval σ, inst') := by
  have r := v1Generate_result g.accurate g.log2_two debug g.limbs g.bits g.nmds_eq g.nhat_eq g.nround_eq g.run
  have hr := alphaGenerate_range (he ▸ r.alpha)
  obtain ⟨inst', h1⟩ := C09_soundness P he (by omega) (by have := r.width; omega) g.nmds_eq inputs cs cs' out h σ hσ
  exact ⟨inst', (C01_v1_generate L g.accurate g.log2_two debug nlimbs g.limbs p g.bits security allow g.nmds_eq g.nhat_eq
    g.nround_eq P g.run _ _).trans h1⟩

/-- The native code runs on generated parameters with an exponent. -/
theorem generated_native {L : Libm} {debug : Bool} {nlimbs p security : Nat} [CharP F p] {allow : Bool}
    {P : Params F (k + 1) k nmds nhat rows (k + 1) nround npart} (g : GeneratedBy L debug nlimbs p security allow P)
    {e : Nat} (he : P.alpha = .exponent e) (x : Vector F (k + 1)) :
    ∃ d inst', (Instance.new P).nTo1FixedHash x = .ok (d, inst') ∧
      (Instance.new P).unoptimizedNTo1FixedHash x = .ok (d, inst') := by
  obtain ⟨C, -, hC⟩ := C51_textbook L g.accurate g.log2_two debug nlimbs g.limbs p g.bits security allow g.nmds_eq g.nhat_eq
    g.nround_eq P g.run
  have h1 := hC (Instance.new P).stateWords fun i => x[i]
  rw [he, textbook_exponent] at h1
  obtain ⟨i1, -, h1⟩ := h1
  have hx : Vector.ofFn (fun i : Fin (k + 1) => x[i]) = x := by ext; simp
  rw [hx] at h1
  exact ⟨_, _, h1, (C01_v1_generate L g.accurate g.log2_two debug nlimbs g.limbs p g.bits security allow g.nmds_eq g.nhat_eq
    g.nround_eq P g.run _ _).symm.trans h1⟩

/-- **C63, completeness.** The honest prover always succeeds and stores the native hash in the output variable. -/
theorem C63_complete {L : Libm} {debug : Bool} {nlimbs p security : Nat} [CharP F p] {allow : Bool}
    {P : Params F (k + 1) k nmds nhat rows (k + 1) nround npart} (g : GeneratedBy L debug nlimbs p security allow P)
    {e : Nat} (he : P.alpha = .exponent e) (inputs : Vector (FpVar F) (k + 1)) (x : Vector F (k + 1)) (cs : CS F)
    (hcs : Proving cs) (hvar : ∃ i : Fin (k + 1), inputs[i].isVar = true)
    (hx : ∀ i : Fin (k + 1), Carries cs inputs[i] x[i]) :
    ∃ out cs' d inst', R1cs.nTo1FixedHash P inputs cs = .ok (out, cs') ∧
      (Instance.new P).nTo1FixedHash x = .ok (d, inst') ∧ Proving cs' ∧ Carries cs' out d ∧
      ∀ σ, Stored cs' σ → Stored cs σ ∧ (Satisfies σ cs → Satisfies σ cs') := by
  have r := v1Generate_result g.accurate g.log2_two debug g.limbs g.bits g.nmds_eq g.nhat_eq g.nround_eq g.run
  have hr := alphaGenerate_range (he ▸ r.alpha)
  obtain ⟨d, inst', h1, h2⟩ := generated_native g he x
  obtain ⟨out, cs', h3, h4, h5, h6⟩ := C10_completeness P he (by omega) (by omega) (by have := r.width; omega) g.nmds_eq
    inputs x cs hcs hvar hx d inst' h2
  exact ⟨out, cs', d, inst', h3, h1, h4, h5, h6⟩

/-- **C63, setup.** Key generation always succeeds. -/
theorem C63_setup {L : Libm} {debug : Bool} {nlimbs p security : Nat} [CharP F p] {allow : Bool}
    {P : Params F (k + 1) k nmds nhat rows (k + 1) nround npart} (g : GeneratedBy L debug nlimbs p security allow P)
    {e : Nat} (he : P.alpha = .exponent e) (inputs : Vector (FpVar F) (k + 1)) (cs : CS F) (hcs : cs.setup = true)
    (hvar : ∃ i : Fin (k + 1), inputs[i].isVar = true) :
    ∃ out cs', R1cs.nTo1FixedHash P inputs cs = .ok (out, cs') := by
  have r := v1Generate_result g.accurate g.log2_two debug g.limbs g.bits g.nmds_eq g.nhat_eq g.nround_eq g.run
  have hr := alphaGenerate_range (he ▸ r.alpha)
  obtain ⟨d, inst', h1, h2⟩ := generated_native g he (Vector.replicate _ 0)
  exact C11_setup_total P he (by omega) (by omega) (by have := r.width; omega) g.nmds_eq inputs cs hcs hvar _ d inst' h2

/-- **C63, size.** The number of constraints, from the round numbers and the exponent. -/
theorem C63_size {L : Libm} {debug : Bool} {nlimbs p security : Nat} [CharP F p] {allow : Bool}
    {P : Params F (k + 1) k nmds nhat rows (k + 1) nround npart} (g : GeneratedBy L debug nlimbs p security allow P)
    {e : Nat} (he : P.alpha = .exponent e) (inputs : Vector (FpVar F) (k + 1)) (cs cs' : CS F) (out : FpVar F)
    (h : R1cs.nTo1FixedHash P inputs cs = .ok (out, cs')) :
    cs'.constraints.length = cs.constraints.length + sboxCost e *
      (inputs.toList.countP FpVar.isVar + (P.rounds.rF - 1) * (k + 1) + P.rounds.rP) := by
  have r := v1Generate_result g.accurate g.log2_two debug g.limbs g.bits g.nmds_eq g.nhat_eq g.nround_eq g.run
  have hr := alphaGenerate_range (he ▸ r.alpha)
  have hf := r.full
  have := (C12_size P he (by omega) (by omega) (by have := r.width; omega) g.nmds_eq (by omega) inputs cs cs' out h).1
  rw [show 2 * (P.rounds.rF / 2) - 1 = P.rounds.rF - 1 by omega] at this
  exact this

/-- **C63, inverse S-box.** If the generator chose the inverse S-box, the circuit code panics on every input. -/
theorem C63_inverse {L : Libm} {debug : Bool} {nlimbs p security : Nat} [CharP F p] {allow : Bool}
    {P : Params F (k + 1) k nmds nhat rows (k + 1) nround npart} (g : GeneratedBy L debug nlimbs p security allow P)
    (he : P.alpha = .inverse) (inputs : Vector (FpVar F) (k + 1)) (cs : CS F) :
    ∃ err, R1cs.nTo1FixedHash P inputs cs = .error err := by
  have r := v1Generate_result g.accurate g.log2_two debug g.limbs g.bits g.nmds_eq g.nhat_eq g.nround_eq g.run
  have hf := r.full
  have hround : ∀ st, Ens (fun _ => False) (R1cs.round P true st) := by
    rintro ⟨s, c, cs⟩
    unfold R1cs.round
    refine Ens.bind (Q := fun _ => True) (fun _ _ => trivial) fun a _ => ?_
    refine Ens.bind (Q := fun _ => False) ?_ (fun _ h => h.elim)
    rw [he]
    exact Ens.error
  have key : Ens (fun _ => False) (R1cs.permute P inputs.toList cs) := by
    unfold R1cs.permute
    simp only [RoundNumbers.full, RoundNumbers.partialRounds]
    refine Ens.bind (Q := fun _ => False) ?_ (fun _ h => h.elim)
    obtain ⟨m, hm⟩ : ∃ m, P.rounds.rF / 2 = m + 1 := ⟨P.rounds.rF / 2 - 1, by omega⟩
    rw [hm]
    exact Ens.bind (hround _) (fun _ h => h.elim)
  unfold R1cs.nTo1FixedHash
  cases hp : R1cs.permute P inputs.toList cs with
  | error e => exact ⟨e, rfl⟩
  | ok r => exact (key r hp).elim

/-! ## C64 -/

/-- The exponents `v1::generate` can choose, in order of preference. -/
def chosenExponents : List Nat := [3, 5, 7, 17, 13, 11, 23, 19, 43, 41, 37, 31, 29]

/-- **C64.** The S-box is the first of these thirteen primes that does not divide `p - 1`; no other exponent is ever chosen. -/
theorem C64_choice {p : Nat} (hp : p.Prime) (h3 : p ≠ 3) (allow : Bool) (a : Nat) :
    alphaGenerate p allow = .ok (.exponent a) ↔ chosenExponents.find? (fun n => ¬ n ∣ p - 1) = some a := by
  rw [alphaGenerate_eq hp h3]
  have hpr : ∀ n ∈ chosenExponents, n.Prime := by decide +kernel
  have key : depthsInOrder.find? (qualifies p) = chosenExponents.find? (fun n => ¬ n ∣ p - 1) := by
    have hc : ∀ {n f : Nat}, f.Prime → f ∣ n → f ∣ p - 1 → qualifies p n = false := by
      intro n f hf h1 h2
      have : f ∣ Nat.gcd n (p - 1) := Nat.dvd_gcd h1 h2
      have hne : Nat.gcd n (p - 1) ≠ 1 := fun h => hf.one_lt.ne' (Nat.dvd_one.1 (h ▸ this))
      simp [qualifies, hne]
    have hq : ∀ {n : Nat}, n.Prime → n % 2 = 1 → (qualifies p n = true ↔ ¬ n ∣ p - 1) := by
      intro n hn ho
      rw [qualifies, ho]
      simp only [bne_iff_ne, ne_eq, one_ne_zero, not_false_eq_true, Bool.and_eq_true, beq_iff_eq, true_and]
      exact (Nat.Prime.coprime_iff_not_dvd hn)
    have he : ∀ {n : Nat}, n % 2 = 0 → qualifies p n = false := by
      intro n h; simp [qualifies, h]
    have hodd : ∀ n ∈ chosenExponents, n % 2 = 1 := by decide
    have hq' : ∀ n ∈ chosenExponents, qualifies p n = decide (¬ n ∣ p - 1) := by
      intro n hn
      have := hq (hpr n hn) (hodd n hn)
      by_cases h : n ∣ p - 1
      · simp only [h, not_true_eq_false, decide_false]
        cases hb : qualifies p n with
        | false => rfl
        | true => exact absurd h (this.1 hb)
      · simp only [h, not_false_eq_true, decide_true]
        exact this.2 h
    have e2 : chosenExponents.find? (fun n => ¬ n ∣ p - 1) = chosenExponents.find? (qualifies p) :=
      (find?_congr' hq').symm
    rw [e2]
    -- remove what cannot be reached
    by_cases d3 : 3 ∣ p - 1
    · by_cases d5 : 5 ∣ p - 1
      · by_cases d7 : 7 ∣ p - 1
        · have k3 : ∀ {n}, 3 ∣ n → qualifies p n = false := fun h => hc Nat.prime_three h d3
          have k5 : ∀ {n}, 5 ∣ n → qualifies p n = false := fun h => hc Nat.prime_five h d5
          have k7 : ∀ {n}, 7 ∣ n → qualifies p n = false := fun h => hc (by norm_num) h d7
          have hsub : depthsInOrder.find? (qualifies p) =
              (depthsInOrder.filter fun n => n % 2 = 1 ∧ ¬ 3 ∣ n ∧ ¬ 5 ∣ n ∧ ¬ 7 ∣ n).find? (qualifies p) := by
            rw [List.find?_filter]
            apply find?_congr'
            intro n _
            by_cases h2 : n % 2 = 1
            · by_cases h3 : 3 ∣ n
              · simp [k3 h3]
              · by_cases h5 : 5 ∣ n
                · simp [k5 h5]
                · by_cases h7 : 7 ∣ n
                  · simp [k7 h7]
                  · simp [h2, h3, h5, h7]
            · simp [he (show n % 2 = 0 by omega)]
          have hsub' : chosenExponents.find? (qualifies p) =
              (chosenExponents.filter fun n => n % 2 = 1 ∧ ¬ 3 ∣ n ∧ ¬ 5 ∣ n ∧ ¬ 7 ∣ n).find? (qualifies p) := by
            rw [List.find?_filter]
            apply find?_congr'
            intro n _
            by_cases h2 : n % 2 = 1
            · by_cases h3 : 3 ∣ n
              · simp [k3 h3]
              · by_cases h5 : 5 ∣ n
                · simp [k5 h5]
                · by_cases h7 : 7 ∣ n
                  · simp [k7 h7]
                  · simp [h2, h3, h5, h7]
            · simp [he (show n % 2 = 0 by omega)]
          rw [hsub, hsub']
          congr 1
        · have q3 : qualifies p 3 = false := hc Nat.prime_three (dvd_refl _) d3
          have q5 : qualifies p 5 = false := hc Nat.prime_five (dvd_refl _) d5
          have q9 : qualifies p 9 = false := hc Nat.prime_three (by norm_num) d3
          have q7 : qualifies p 7 = true := (hq (by norm_num) rfl).2 d7
          simp [depthsInOrder, depth2, depth3, depth4, depth5, depth6, depth7, chosenExponents,
            q3, q5, q9, q7, he (n := 4) rfl, he (n := 8) rfl, he (n := 6) rfl, he (n := 16) rfl, he (n := 12) rfl,
            he (n := 10) rfl]
      · have q3 : qualifies p 3 = false := hc Nat.prime_three (dvd_refl _) d3
        have q5 : qualifies p 5 = true := (hq Nat.prime_five rfl).2 d5
        simp [depthsInOrder, depth2, depth3, depth4, depth5, depth6, depth7, chosenExponents,
          q3, q5, he (n := 4) rfl, he (n := 8) rfl, he (n := 6) rfl]
    · have q3 : qualifies p 3 = true := (hq Nat.prime_three rfl).2 d3
      simp [depthsInOrder, depth2, depth3, depth4, depth5, depth6, depth7, chosenExponents,
        q3, he (n := 4) rfl]
  rw [key]
  cases chosenExponents.find? (fun n => ¬ n ∣ p - 1) with
  | none => cases allow <;> simp
  | some b => simp

/-- **C64.** A generated S-box costs at most 8 constraints and at most one more than the cheapest admissible exponent; it is
the cheapest unless it is 23, 31 or 43. -/
theorem C64_cost {p a : Nat} (hp : p.Prime) (h3 : p ≠ 3) (allow : Bool) (h : alphaGenerate p allow = .ok (.exponent a))
    (n : Nat) (hodd : n % 2 = 1) (hn : 3 ≤ n) (hc : Nat.Coprime n (p - 1)) :
    sboxCost a ≤ 8 ∧ sboxCost a ≤ sboxCost n + 1 ∧ (a ≠ 23 → a ≠ 31 → a ≠ 43 → sboxCost a ≤ sboxCost n) := by
  have hmem : a ∈ chosenExponents := List.mem_of_find?_eq_some ((C64_choice hp h3 allow a).1 h)
  obtain ⟨-, -, -, d, hd, hmin⟩ := C32_cheapest hp h3 allow h
  have hr : ReachableIn n (sboxCost n) := reachable_sboxCost (by omega)
  have hdn : d ≤ sboxCost n := by
    classical
    have hex : ∃ m, ReachableIn n m := ⟨_, hr⟩
    have hs : ShortestChain n (Nat.find hex) := ⟨Nat.find_spec hex, fun d' h' => Nat.find_min' hex h'⟩
    have := hmin n _ hodd hn hc hs
    have h2 := hs.2 _ hr
    omega
  have hcost : ∀ a ∈ chosenExponents, ∃ d, a ∈ tableAt d ∧ d ≤ 7 ∧ sboxCost a ≤ 8 ∧ sboxCost a ≤ d + 1 ∧
      (a ≠ 23 → a ≠ 31 → a ≠ 43 → sboxCost a ≤ d) := by
    intro a ha
    simp only [chosenExponents, List.mem_cons, List.not_mem_nil, or_false] at ha
    rcases ha with rfl | rfl | rfl | rfl | rfl | rfl | rfl | rfl | rfl | rfl | rfl | rfl | rfl
    · exact ⟨2, by decide +kernel⟩
    · exact ⟨3, by decide +kernel⟩
    · exact ⟨4, by decide +kernel⟩
    · exact ⟨5, by decide +kernel⟩
    · exact ⟨5, by decide +kernel⟩
    · exact ⟨5, by decide +kernel⟩
    · exact ⟨6, by decide +kernel⟩
    · exact ⟨6, by decide +kernel⟩
    · exact ⟨7, by decide +kernel⟩
    · exact ⟨7, by decide +kernel⟩
    · exact ⟨7, by decide +kernel⟩
    · exact ⟨7, by decide +kernel⟩
    · exact ⟨7, by decide +kernel⟩
  obtain ⟨d', h1, h2, h4, h5, h6⟩ := hcost a hmem
  have : d' = d := (shortest_of_mem h2 h1).unique hd
  subst this
  exact ⟨h4, by omega, fun x y z => (h6 x y z).trans hdn⟩

/-- `2^106 · 3^3 · 5 · 7 · 11 · 13 · 17 + 1` -/
def costlyModulus : Nat := 186378712681683856826327602572432506881

theorem costlyModulus_prime : Nat.Prime costlyModulus := by
  apply lucas_of_check _ 29 [(2, 106), (3, 3), (5, 1), (7, 1), (11, 1), (13, 1), (17, 1)] (by decide +kernel)
    (by decide +kernel)
  · intro f hf
    fin_cases hf <;> norm_num
  · decide +kernel
  · decide +kernel
  · decide +kernel

/-- **C64, finding.** "Optimal" is with respect to addition chains, which the circuit does not use: for this 128-bit prime the
generator returns 23 (7 constraints for each S-box) although 19 is admissible and costs 6. -/
theorem C64_not_cheapest : costlyModulus.Prime ∧ alphaGenerate costlyModulus false = .ok (.exponent 23) ∧
    Nat.Coprime 19 (costlyModulus - 1) ∧ sboxCost 23 = 7 ∧ sboxCost 19 = 6 :=
  ⟨costlyModulus_prime, by decide +kernel, by decide +kernel, by decide +kernel, by decide +kernel⟩

/-- The shipped S-box is the cheapest possible. -/
theorem C64_shipped (n : Nat) (hodd : n % 2 = 1) (hn : 3 ≤ n) (hc : Nat.Coprime n (q - 1)) : sboxCost 17 ≤ sboxCost n :=
  (C64_cost q_prime (by decide +kernel) true (C31_shipped true) n hodd hn hc).2.2 (by norm_num) (by norm_num) (by norm_num)

/-- The hypotheses of C63 are met: the shipped parameters are generated. -/
example (i : Fin 7) : GeneratedBy roundedLibm true 4 q 128 true (shippedParams i) where
  accurate := roundedLibm_accurate
  log2_two := by
    show rne (Real.logb 2 2) = 1
    rw [Real.logb_self_eq_one (by norm_num)]
    simpa using rne_natCast (n := 1) (by norm_num)
  limbs := by norm_num
  bits := by decide +kernel
  nmds_eq := rfl
  nhat_eq := rfl
  nround_eq := rfl
  run := C20_shipped _ roundedLibm_accurate _ _ i

end Poseidon
