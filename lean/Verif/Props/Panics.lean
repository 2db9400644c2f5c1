import Verif.Proofs.Panics
import Verif.Proofs.Hash
import Verif.Props.CircuitHash

/-!
# C66: when hashing with user-supplied parameters panics

The parameters are arbitrary values of the parameter type: any tables, any round numbers.  Only the const generics are tied
together as the constructors of the matrices enforce: `t = k + 1` words, `t * t` matrix entries, `rows * t` round constants.
`npart` is the length of the arrays of sparse matrices.
-/

namespace Poseidon

open R1cs

variable {F : Type} [Field F] [DecidableEq F] {t k nmds nhat rows nround npart : Nat}

/-- The round numbers fit the tables: as many rows of constants as rounds. -/
def FitsConstants (rounds : RoundNumbers) (rows : Nat) : Prop := 2 * (rounds.rF / 2) + rounds.rP ≤ rows

/-- The round numbers fit the optimized tables: in addition there is a partial round, and a sparse matrix for each. -/
def FitsOptimized (rounds : RoundNumbers) (rows npart : Nat) : Prop :=
  FitsConstants rounds rows ∧ 1 ≤ rounds.rP ∧ rounds.rP ≤ npart

theorem optimized_tri (p : Params F (k + 1) k nmds nhat rows (k + 1) nround npart) (hm : nmds = (k + 1) * (k + 1))
    (ha : nround = rows * (k + 1)) (hk : 1 ≤ k) (hf : FitsOptimized p.rounds rows npart) (s x : Vector F (k + 1)) :
    Tri (Instance.nTo1FixedHash ⟨p, s⟩ x) (fun _ => True) (OnlyDivZero p.alpha) := by
  rw [Instance.nTo1FixedHash, setState_eq, ok_bind]
  refine Tri.bind (permute_tri p hm ha hf.2.1 hf.2.2 hf.1 x) fun y _ => ?_
  rw [aget_lt _ (by omega), ok_bind]; trivial

theorem optimized_ens (p : Params F (k + 1) k nmds nhat rows (k + 1) nround npart)
    (ha : nround = rows * (k + 1)) (s x : Vector F (k + 1)) :
    Ens (fun _ => FitsOptimized p.rounds rows npart) (Instance.nTo1FixedHash ⟨p, s⟩ x) := by
  rw [Instance.nTo1FixedHash, setState_eq, ok_bind]
  refine Ens.bind (permute_ens p ha x) fun y h => ?_
  exact fun _ _ => ⟨h.2.2, h.1, h.2.1⟩

theorem unoptimized_tri (p : Params F t k nmds nhat rows t nround npart) (hm : nmds = t * t)
    (ha : nround = rows * t) (ht : 2 ≤ t) (hf : FitsConstants p.rounds rows) (s x : Vector F t) :
    Tri (Instance.unoptimizedNTo1FixedHash ⟨p, s⟩ x) (fun _ => True) (OnlyDivZero p.alpha) := by
  rw [Instance.unoptimizedNTo1FixedHash, setState_eq, ok_bind]
  refine Tri.bind (unoptimizedPermute_tri p (by omega) hm ha hf x) fun y _ => ?_
  rw [aget_lt _ (by omega), ok_bind]; trivial

theorem unoptimized_ens (p : Params F t k nmds nhat rows t nround npart) (ht : 0 < t)
    (ha : nround = rows * t) (s x : Vector F t) :
    Ens (fun _ => FitsConstants p.rounds rows) (Instance.unoptimizedNTo1FixedHash ⟨p, s⟩ x) := by
  rw [Instance.unoptimizedNTo1FixedHash, setState_eq, ok_bind]
  refine Ens.bind (unoptimizedPermute_ens p ht ha x) fun y h => ?_
  exact fun _ _ => h

theorem tri_ok {α : Type} {x : R α} {e : Nat} {a : Alpha} (ha : a = .exponent e) (h : Tri x (fun _ => True) (OnlyDivZero a)) :
    ∃ r, x = .ok r := by
  cases x with
  | ok r => exact ⟨r, rfl⟩
  | error e => exact absurd h.1 (by rw [ha]; simp)

theorem tri_ok_or {α : Type} {x : R α} {a : Alpha} (h : Tri x (fun _ => True) (OnlyDivZero a)) :
    (∃ r, x = .ok r) ∨ x = .error .divZero := by
  cases x with
  | ok r => exact Or.inl ⟨r, rfl⟩
  | error e => exact Or.inr (by rw [h.2])

/-- **C66.** Optimized hashing, power S-box: it returns a digest exactly if the round numbers fit the tables, whatever the
instance was used for before and whatever the input is. -/
theorem C66_optimized (p : Params F (k + 1) k nmds nhat rows (k + 1) nround npart) (hm : nmds = (k + 1) * (k + 1))
    (ha : nround = rows * (k + 1)) (hk : 1 ≤ k) {e : Nat} (he : p.alpha = .exponent e) (s x : Vector F (k + 1)) :
    (∃ r, Instance.nTo1FixedHash ⟨p, s⟩ x = .ok r) ↔ FitsOptimized p.rounds rows npart :=
  ⟨fun ⟨r, h⟩ => optimized_ens p ha s x r h, fun hf => tri_ok he (optimized_tri p hm ha hk hf s x)⟩

/-- **C66.** Optimized hashing, inverse S-box: it never returns if the round numbers do not fit; if they do, the only possible
panic is the inversion of zero. -/
theorem C66_optimized_inverse (p : Params F (k + 1) k nmds nhat rows (k + 1) nround npart) (hm : nmds = (k + 1) * (k + 1))
    (ha : nround = rows * (k + 1)) (hk : 1 ≤ k) (s x : Vector F (k + 1)) :
    (FitsOptimized p.rounds rows npart →
      (∃ r, Instance.nTo1FixedHash ⟨p, s⟩ x = .ok r) ∨ Instance.nTo1FixedHash ⟨p, s⟩ x = .error .divZero) ∧
    (¬ FitsOptimized p.rounds rows npart → ∃ e, Instance.nTo1FixedHash ⟨p, s⟩ x = .error e) := by
  refine ⟨fun hf => tri_ok_or (optimized_tri p hm ha hk hf s x), fun hf => ?_⟩
  cases h : Instance.nTo1FixedHash ⟨p, s⟩ x with
  | error e => exact ⟨e, rfl⟩
  | ok r => exact absurd (optimized_ens p ha s x r h) hf

/-- **C66.** Unoptimized hashing, power S-box: only the round constants matter. -/
theorem C66_unoptimized (p : Params F t k nmds nhat rows t nround npart) (hm : nmds = t * t)
    (ha : nround = rows * t) (ht : 2 ≤ t) {e : Nat} (he : p.alpha = .exponent e) (s x : Vector F t) :
    (∃ r, Instance.unoptimizedNTo1FixedHash ⟨p, s⟩ x = .ok r) ↔ FitsConstants p.rounds rows :=
  ⟨fun ⟨r, h⟩ => unoptimized_ens p (by omega) ha s x r h, fun hf => tri_ok he (unoptimized_tri p hm ha ht hf s x)⟩

/-- **C66.** Unoptimized hashing, inverse S-box. -/
theorem C66_unoptimized_inverse (p : Params F t k nmds nhat rows t nround npart) (hm : nmds = t * t)
    (ha : nround = rows * t) (ht : 2 ≤ t) (s x : Vector F t) :
    (FitsConstants p.rounds rows → (∃ r, Instance.unoptimizedNTo1FixedHash ⟨p, s⟩ x = .ok r) ∨
      Instance.unoptimizedNTo1FixedHash ⟨p, s⟩ x = .error .divZero) ∧
    (¬ FitsConstants p.rounds rows → ∃ e, Instance.unoptimizedNTo1FixedHash ⟨p, s⟩ x = .error e) := by
  refine ⟨fun hf => tri_ok_or (unoptimized_tri p hm ha ht hf s x), fun hf => ?_⟩
  cases h : Instance.unoptimizedNTo1FixedHash ⟨p, s⟩ x with
  | error e => exact ⟨e, rfl⟩
  | ok r => exact absurd (unoptimized_ens p (by omega) ha s x r h) hf

/-- **C66.** A state of one word has no digest: the optimized function panics on every input. -/
theorem C66_one_word (p : Params F (0 + 1) 0 nmds nhat rows (0 + 1) nround npart) (s x : Vector F (0 + 1)) :
    ∃ e, Instance.nTo1FixedHash ⟨p, s⟩ x = .error e := by
  rw [Instance.nTo1FixedHash, setState_eq, ok_bind]
  dsimp only
  cases permute p x with
  | error e => exact ⟨e, rfl⟩
  | ok y => exact ⟨.indexOOB, by rw [ok_bind, aget_ge _ (by omega)]; rfl⟩

/-- **C66.** The optimized function panics where the unoptimized one returns exactly for parameters without partial rounds or
with too few sparse matrices. -/
theorem C66_difference (p : Params F (k + 1) k nmds nhat rows (k + 1) nround npart) (hm : nmds = (k + 1) * (k + 1))
    (ha : nround = rows * (k + 1)) (hk : 1 ≤ k) {e : Nat} (he : p.alpha = .exponent e) (s x : Vector F (k + 1))
    (hu : ∃ r, Instance.unoptimizedNTo1FixedHash ⟨p, s⟩ x = .ok r) :
    (∃ e, Instance.nTo1FixedHash ⟨p, s⟩ x = .error e) ↔ p.rounds.rP = 0 ∨ npart < p.rounds.rP := by
  have hf := (C66_unoptimized p hm ha (by omega) he s x).1 hu
  have h := C66_optimized p hm ha hk he s x
  constructor
  · rintro ⟨e, h1⟩
    by_contra hc
    push Not at hc
    obtain ⟨r, h2⟩ := h.2 ⟨hf, by omega, hc.2⟩
    rw [h2] at h1; cases h1
  · intro hc
    cases h1 : Instance.nTo1FixedHash ⟨p, s⟩ x with
    | error e => exact ⟨e, rfl⟩
    | ok r =>
      obtain ⟨-, h2, h3⟩ := h.1 ⟨r, h1⟩
      omega

/-- **C66.** The gadget, power S-box with positive exponent: a prover whose inputs carry values, one of them a variable,
synthesizes the circuit exactly if the round numbers fit the constants. -/
theorem C66_circuit (p : Params F t k nmds nhat rows t nround npart) (hm : nmds = t * t) (ha : nround = rows * t) (ht : 2 ≤ t)
    {e : Nat} (he : p.alpha = .exponent e) (he0 : 0 < e) (he' : e < 2 ^ 32)
    (inputs : Vector (FpVar F) t) (x : Vector F t) (cs : CS F) (hcs : Proving cs)
    (hvar : ∃ i : Fin t, inputs[i].isVar = true) (hx : ∀ i : Fin t, Carries cs inputs[i] x[i]) :
    (∃ r, R1cs.nTo1FixedHash p inputs cs = .ok r) ↔ FitsConstants p.rounds rows := by
  constructor
  · rintro ⟨r, h⟩
    have : Ens (fun _ => FitsConstants p.rounds rows) (R1cs.nTo1FixedHash p inputs cs) := by
      rw [R1cs.nTo1FixedHash]
      refine Ens.bind (circuitPermute_ens p (by omega) ha _ _) fun y h => ?_
      exact fun _ _ => h.1
    exact this r h
  · intro hf
    obtain ⟨⟨d, i⟩, h⟩ := (C66_unoptimized p hm ha ht he (Instance.new p).stateWords x).2 hf
    obtain ⟨out, cs', h1, -⟩ := C10_completeness p he he' he0 (by omega) hm inputs x cs hcs hvar hx d i h
    exact ⟨_, h1⟩

/-- **C66.** The same for key generation, where no values exist. -/
theorem C66_circuit_setup (p : Params F t k nmds nhat rows t nround npart) (hm : nmds = t * t) (ha : nround = rows * t)
    (ht : 2 ≤ t) {e : Nat} (he : p.alpha = .exponent e) (he0 : 0 < e) (he' : e < 2 ^ 32)
    (inputs : Vector (FpVar F) t) (cs : CS F) (hcs : cs.setup = true) (hvar : ∃ i : Fin t, inputs[i].isVar = true) :
    (∃ r, R1cs.nTo1FixedHash p inputs cs = .ok r) ↔ FitsConstants p.rounds rows := by
  constructor
  · rintro ⟨r, h⟩
    have : Ens (fun _ => FitsConstants p.rounds rows) (R1cs.nTo1FixedHash p inputs cs) := by
      rw [R1cs.nTo1FixedHash]
      refine Ens.bind (circuitPermute_ens p (by omega) ha _ _) fun y h => ?_
      exact fun _ _ => h.1
    exact this r h
  · intro hf
    obtain ⟨⟨d, i⟩, h⟩ := (C66_unoptimized p hm ha ht he (Instance.new p).stateWords (Vector.replicate t 0)).2 hf
    obtain ⟨out, cs', h1⟩ := C11_setup_total p he he' he0 (by omega) hm inputs cs hcs hvar _ d i h
    exact ⟨_, h1⟩

/-- **C66.** The gadget, inverse S-box: it panics as soon as there is a round. -/
theorem C66_circuit_inverse (p : Params F t k nmds nhat rows t nround npart) (ha : nround = rows * t) (ht : 0 < t)
    (hi : p.alpha = .inverse) (hr : 2 ≤ p.rounds.rF ∨ 1 ≤ p.rounds.rP)
    (inputs : Vector (FpVar F) t) (cs : CS F) : ∃ e, R1cs.nTo1FixedHash p inputs cs = .error e := by
  have key : Ens (fun _ => False) (R1cs.nTo1FixedHash p inputs cs) := by
    rw [R1cs.nTo1FixedHash]
    refine Ens.bind (circuitPermute_ens p ht ha _ _) fun y h => ?_
    have := h.2 hi
    omega
  cases h : R1cs.nTo1FixedHash p inputs cs with
  | error e => exact ⟨e, rfl⟩
  | ok r => exact (key r h).elim

/-! ### Cases that meet the hypotheses -/

/-- The shipped parameters fit. -/
example (s x : Vector Fq 4) : ∃ r, Instance.nTo1FixedHash ⟨shippedParams 2, s⟩ x = .ok r :=
  (C66_optimized (k := 3) (shippedParams 2) rfl rfl (by norm_num) (shipped_alpha 2) s x).2 (by
    rw [shipped_rounds]; exact ⟨by norm_num [FitsConstants], by norm_num, by norm_num⟩)

/-- One partial round more, and every call panics. -/
example (s x : Vector Fq 4) : ¬ ∃ r, Instance.nTo1FixedHash ⟨{ shippedParams 2 with rounds := ⟨32, 8⟩ }, s⟩ x = .ok r := by
  intro hr
  have h := ((C66_optimized (k := 3) { shippedParams 2 with rounds := ⟨32, 8⟩ } rfl rfl (by norm_num) (shipped_alpha 2) s x).1 hr).2.2
  norm_num at h

/-- Without partial rounds the optimized function panics, the unoptimized one does not. -/
example (s x : Vector Fq 4) : ∃ e, Instance.nTo1FixedHash ⟨{ shippedParams 2 with rounds := ⟨0, 8⟩ }, s⟩ x = .error e :=
  (C66_difference (k := 3) { shippedParams 2 with rounds := ⟨0, 8⟩ } rfl rfl (by norm_num) (shipped_alpha 2) s x
    ((C66_unoptimized { shippedParams 2 with rounds := ⟨0, 8⟩ } rfl rfl (by norm_num) (shipped_alpha 2) s x).2
      (by norm_num [FitsConstants]))).2 (Or.inl rfl)

/-- The inverse S-box with the shipped tables: no panic but the inversion of zero. -/
example (s x : Vector Fq 4) :
    (∃ r, Instance.nTo1FixedHash ⟨{ shippedParams 2 with alpha := .inverse }, s⟩ x = .ok r) ∨
      Instance.nTo1FixedHash ⟨{ shippedParams 2 with alpha := .inverse }, s⟩ x = .error .divZero :=
  (C66_optimized_inverse (k := 3) { shippedParams 2 with alpha := .inverse } rfl rfl (by norm_num) s x).1 (by
    show FitsOptimized (shippedParams 2).rounds 39 31
    rw [shipped_rounds]; exact ⟨by norm_num [FitsConstants], by norm_num, by norm_num⟩)

/-- A circuit for the inverse S-box always panics. -/
example (inputs : Vector (FpVar Fq) 4) (cs : CS Fq) :
    ∃ e, R1cs.nTo1FixedHash { shippedParams 2 with alpha := .inverse } inputs cs = .error e :=
  C66_circuit_inverse { shippedParams 2 with alpha := .inverse } rfl (by norm_num) rfl (Or.inr (by
    show 1 ≤ (shippedParams 2).rounds.rP
    rw [shipped_rounds]; norm_num)) inputs cs

/-- Key generation with one variable input and the shipped tables: one row of constants too few, and it panics. -/
example (cs : CS Fq) (hcs : cs.setup = true) :
    (∃ r, R1cs.nTo1FixedHash (shippedParams 0) #v[.constant 5, .var ⟨none, [(1, .witness 0)]⟩] cs = .ok r) ∧
    ¬ ∃ r, R1cs.nTo1FixedHash { shippedParams 0 with rounds := ⟨32, 8⟩ } #v[.constant 5, .var ⟨none, [(1, .witness 0)]⟩] cs = .ok r := by
  constructor
  · refine (C66_circuit_setup (shippedParams 0) rfl rfl (by norm_num) (shipped_alpha 0) (by norm_num) (by norm_num) _ cs hcs
      ⟨1, rfl⟩).2 ?_
    rw [shipped_rounds]; norm_num [FitsConstants]
  · intro hr
    have h := (C66_circuit_setup { shippedParams 0 with rounds := ⟨32, 8⟩ } rfl rfl (by norm_num) (shipped_alpha 0) (by norm_num)
      (by norm_num) _ cs hcs ⟨1, rfl⟩).1 hr
    norm_num [FitsConstants] at h

/-- A prover hashing the values 3 and 5. -/
example : ∃ r, R1cs.nTo1FixedHash (shippedParams 0) #v[demoVar 0 3, demoVar 1 5] demoCS = .ok r := by
  refine (C66_circuit (shippedParams 0) rfl rfl (by norm_num) (shipped_alpha 0) (by norm_num) (by norm_num) _ #v[3, 5] demoCS
    ⟨rfl, rfl⟩ ⟨0, rfl⟩ ?_).2 ?_
  · intro i
    have : ∀ i : Fin 2, Carries demoCS (#v[demoVar 0 3, demoVar 1 5] : Vector (FpVar Fq) 2)[i] (#v[3, 5] : Vector Fq 2)[i] := by
      simp only [Fin.forall_fin_succ, IsEmpty.forall_iff]
      exact ⟨demo_carries 0 3 rfl, demo_carries 1 5 rfl, trivial⟩
    exact this i
  · rw [shipped_rounds]; norm_num [FitsConstants]

end Poseidon
