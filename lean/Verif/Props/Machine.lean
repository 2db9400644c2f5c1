import Verif.Proofs.Machine
import Verif.Props.Panics

/-!
# C67: machine integers, debug and release builds

`Build.arith b W` is the `usize` arithmetic of a debug or release build on a machine with words `0 ≤ n < W`.
-/

set_option linter.unusedSectionVars false

namespace Poseidon

open R1cs

/-- The two ways Rust compiles `usize` arithmetic. -/
inductive Build where
  | debug
  | release

/-- Their arithmetic. -/
def Build.arith : Build → Nat → Arith
  | .debug, W => .checked W
  | .release, W => .wrapping W

theorem Build.faithful (b : Build) (W : Nat) : (b.arith W).Faithful W := by
  cases b
  · exact checked_faithful W
  · exact wrapping_faithful W

variable {F : Type} [Field F] [DecidableEq F] {t k nmds nhat rows nround npart : Nat}

theorem optimized_agree (b : Build) {W : Nat} (p : Params F (k + 1) k nmds nhat rows (k + 1) nround npart)
    (ha : nround = rows * (k + 1)) (hW : nround < W) (hk : k + 1 < W) (hP : p.rounds.rP < W) (hN : npart < W)
    (s x : Vector F (k + 1)) :
    Agree (Machine.nTo1FixedHash (b.arith W) ⟨p, s⟩ x) (Instance.nTo1FixedHash ⟨p, s⟩ x) := by
  rw [Machine.nTo1FixedHash, Instance.nTo1FixedHash]
  refine Agree.bind (Agree.refl _) fun x _ => ?_
  exact Agree.bind (Machine.permute_agree (b.faithful W) p ha hW hk hP hN x) fun y _ => Agree.refl _

/-- **C67.** Optimized hashing with any parameters whose sizes fit the machine word: either build, on any machine, returns exactly
the digests of the model with unbounded integers, and panics exactly where the model does. -/
theorem C67_optimized (b : Build) {W : Nat} (p : Params F (k + 1) k nmds nhat rows (k + 1) nround npart)
    (ha : nround = rows * (k + 1)) (hW : nround < W) (hk : k + 1 < W) (hP : p.rounds.rP < W) (hN : npart < W)
    (s x : Vector F (k + 1)) :
    (∀ r, Machine.nTo1FixedHash (b.arith W) ⟨p, s⟩ x = .ok r ↔ Instance.nTo1FixedHash ⟨p, s⟩ x = .ok r) ∧
    ((∃ e, Machine.nTo1FixedHash (b.arith W) ⟨p, s⟩ x = .error e) ↔ ∃ e, Instance.nTo1FixedHash ⟨p, s⟩ x = .error e) := by
  have h := optimized_agree b p ha hW hk hP hN s x
  refine ⟨h.ok_iff, ?_⟩
  rcases h with h | ⟨h1, h2⟩
  · rw [h]
  · exact ⟨fun _ => h2, fun _ => h1⟩

/-- **C67.** A debug and a release build, on machines with different words, return the same digests. -/
theorem C67_portable (b b' : Build) {W W' : Nat} (p : Params F (k + 1) k nmds nhat rows (k + 1) nround npart)
    (ha : nround = rows * (k + 1)) (hW : nround < W) (hk : k + 1 < W) (hP : p.rounds.rP < W) (hN : npart < W)
    (hW' : nround < W') (hk' : k + 1 < W') (hP' : p.rounds.rP < W') (hN' : npart < W') (s x : Vector F (k + 1))
    (r : F × Instance F (k + 1) k nmds nhat rows (k + 1) nround npart) :
    Machine.nTo1FixedHash (b.arith W) ⟨p, s⟩ x = .ok r ↔ Machine.nTo1FixedHash (b'.arith W') ⟨p, s⟩ x = .ok r :=
  ((C67_optimized b p ha hW hk hP hN s x).1 r).trans ((C67_optimized b' p ha hW' hk' hP' hN' s x).1 r).symm

/-- **C67.** Unoptimized hashing: the same result, including the panic; only the table of constants has to fit the word. -/
theorem C67_unoptimized (b : Build) {W : Nat} (p : Params F t k nmds nhat rows t nround npart) (hW : nround < W)
    (s x : Vector F t) :
    Machine.unoptimizedNTo1FixedHash (b.arith W) ⟨p, s⟩ x = Instance.unoptimizedNTo1FixedHash ⟨p, s⟩ x := by
  rw [Machine.unoptimizedNTo1FixedHash, Instance.unoptimizedNTo1FixedHash]
  congr 1
  funext x
  rw [Machine.unoptimizedPermute_eq (b.faithful W) hW]

/-- **C67.** The gadget: the same circuit, or the same panic. -/
theorem C67_circuit (b : Build) {W : Nat} (p : Params F t k nmds nhat rows t nround npart) (hW : nround < W)
    (inputs : Vector (FpVar F) t) (cs : CS F) :
    Machine.circuitHash (b.arith W) p inputs cs = R1cs.nTo1FixedHash p inputs cs :=
  Machine.circuitHash_eq (b.faithful W) hW p inputs cs

/-- **C67.** The shipped parameters, words of at least 16 bits: the model's digest, never a panic. -/
theorem C67_shipped (b : Build) {W : Nat} (hW : 2 ^ 16 ≤ W) (i : Fin 7) (s x : Vector Fq (i.val + 2)) :
    ∃ r, Instance.nTo1FixedHash ⟨shippedParams i, s⟩ x = .ok r ∧
      Machine.nTo1FixedHash (b.arith W) ⟨shippedParams i, s⟩ x = .ok r := by
  have hi := i.isLt
  obtain ⟨r, hr⟩ := (C66_optimized (k := i.val + 1) (shippedParams i) rfl rfl (by omega) (shipped_alpha i) s x).2 (by
    rw [shipped_rounds]; exact ⟨by norm_num [FitsConstants], by norm_num, by norm_num⟩)
  refine ⟨r, hr, ((C67_optimized (k := i.val + 1) b (shippedParams i) rfl ?_ ?_ ?_ ?_ s x).1 r).2 hr⟩
  · omega
  · omega
  · rw [shipped_rounds]; dsimp only; omega
  · omega

/-! ### Element access -/

/-- **C67.** `get_element` and `set_element` of a debug build are those of the model: an index that overflows panics, as does one
beyond the end. -/
theorem C67_access_debug {W r c n : Nat} (hn : n ≤ W) (m : Mat F r c n) (i j : Nat) (v : F) :
    (∀ x, Machine.get (Build.debug.arith W) m i j = .ok x ↔ m.get i j = .ok x) ∧
    (∀ m', Machine.set (Build.debug.arith W) m i j v = .ok m' ↔ m.set i j v = .ok m') := by
  rcases Nat.lt_or_ge (i * c + j) W with h | h
  · have h1 := (Build.debug.faithful W).mul i c (by omega)
    have h2 := (Build.debug.faithful W).add (i * c) j h
    constructor
    · intro x; rw [Machine.get, h1, ok_bind, h2, ok_bind, Mat.get]
    · intro x; rw [Machine.set, h1, ok_bind, h2, ok_bind, Mat.set]
  · have hidx : (do
        let a ← (Build.debug.arith W).mul i c
        (Build.debug.arith W).add a j) = .error .overflow := by
      by_cases h' : i * c < W
      · rw [(Build.debug.faithful W).mul _ _ h', ok_bind]
        exact if_neg (by omega)
      · rw [show (Build.debug.arith W).mul i c = .error .overflow from if_neg h']
        rfl
    have hget : Machine.get (Build.debug.arith W) m i j = (do
        let a ← (Build.debug.arith W).mul i c
        (Build.debug.arith W).add a j) >>= fun idx => aget m.elements idx := by
      rw [Machine.get, bind_assoc]
    have hset : Machine.set (Build.debug.arith W) m i j v = (do
        let a ← (Build.debug.arith W).mul i c
        (Build.debug.arith W).add a j) >>= fun idx => aset m.elements idx v >>= fun els => return ⟨els⟩ := by
      rw [Machine.set, bind_assoc]
    rw [hget, hset, hidx, Mat.get, Mat.set, aget_ge _ (by omega), aset, dif_neg (by omega)]
    constructor <;> intro x <;> constructor <;> intro h <;> cases h

/-- **C67.** A release build reads position `i * c + j` modulo the word size; so in range it is the model's. -/
theorem C67_access_release {W r c n : Nat} (m : Mat F r c n) (i j : Nat) (v : F) :
    Machine.get (Build.release.arith W) m i j = aget m.elements ((i * c + j) % W) ∧
    (i * c + j < W → Machine.get (Build.release.arith W) m i j = m.get i j ∧
      Machine.set (Build.release.arith W) m i j v = m.set i j v) := by
  constructor
  · show aget m.elements ((i * c % W + j) % W) = _
    rw [Nat.mod_add_mod]
  · intro h
    have h1 := (Build.release.faithful W).mul i c (by omega)
    have h2 := (Build.release.faithful W).add (i * c) j h
    constructor
    · rw [Machine.get, h1, ok_bind, h2, ok_bind, Mat.get]
    · rw [Machine.set, h1, ok_bind, h2, ok_bind, Mat.set]

/-- **C67, finding.** On 64-bit machines a release build answers `get_element(2^63, 0)` on a 2x2 matrix with the entry `(0, 0)`,
where a debug build panics. -/
theorem C67_alias (m : Mat F 2 2 4) :
    Machine.get (Build.release.arith (2 ^ 64)) m (2 ^ 63) 0 = m.get 0 0 ∧
    Machine.get (Build.debug.arith (2 ^ 64)) m (2 ^ 63) 0 = .error .overflow := by
  constructor
  · rw [(C67_access_release m (2 ^ 63) 0 0).1, Mat.get]
    norm_num
  · show (do
        let a ← if 2 ^ 63 * 2 < 2 ^ 64 then Except.ok (2 ^ 63 * 2) else Except.error Panic.overflow
        let idx ← if a + 0 < 2 ^ 64 then Except.ok (a + 0) else Except.error Panic.overflow
        aget m.elements idx) = _
    rw [if_neg (by norm_num)]
    rfl

/-- **C67, finding.** `Matrix::new` of a release build checks the number of elements only modulo the word size: it makes a
`2^32 x 2^32` matrix of no elements.  A debug build panics. -/
theorem C67_new :
    (∃ m, Machine.new (F := F) (Build.release.arith (2 ^ 64)) (2 ^ 32) (2 ^ 32) 0 [] = .ok m) ∧
    Machine.new (F := F) (Build.debug.arith (2 ^ 64)) (2 ^ 32) (2 ^ 32) 0 [] = .error .overflow := by
  constructor
  · refine ⟨⟨#v[]⟩, ?_⟩
    show (if 0 ≠ (2 ^ 32 * 2 ^ 32) % 2 ^ 64 then Except.error Panic.badDims else _) = _
    rw [if_neg (by norm_num)]
    rfl
  · show (do
        let rc ← if 2 ^ 32 * 2 ^ 32 < 2 ^ 64 then Except.ok (2 ^ 32 * 2 ^ 32) else Except.error Panic.overflow
        _) = _
    rw [if_neg (by norm_num)]
    rfl

/-- **C67.** If the product of the dimensions fits the word, `Matrix::new` of either build is the model's. -/
theorem C67_new_exact (b : Build) {W r c n : Nat} (h : r * c < W) (els : List F) :
    Machine.new (b.arith W) r c n els = Mat.new r c n els := by
  rw [Machine.new, (b.faithful W).mul _ _ h, ok_bind, Mat.new]

/-! ### Cases that meet the hypotheses -/

/-- wasm32 in release and x86-64 in debug agree on the shipped parameters of rate 3. -/
example (s x : Vector Fq 4) (r) :
    Machine.nTo1FixedHash (Build.release.arith (2 ^ 32)) ⟨shippedParams 2, s⟩ x = .ok r ↔
      Machine.nTo1FixedHash (Build.debug.arith (2 ^ 64)) ⟨shippedParams 2, s⟩ x = .ok r :=
  C67_portable (k := 3) .release .debug (shippedParams 2) rfl (by norm_num) (by norm_num) (by rw [shipped_rounds]; norm_num)
    (by norm_num) (by norm_num) (by norm_num) (by rw [shipped_rounds]; norm_num) (by norm_num) s x r

/-- Without partial rounds `partial_rounds - 1` wraps in a release build; it still panics, after one turn of the loop. -/
example (s x : Vector Fq 4) :
    ∃ e, Machine.nTo1FixedHash (Build.release.arith (2 ^ 64)) ⟨{ shippedParams 2 with rounds := ⟨0, 8⟩ }, s⟩ x = .error e := by
  refine ((C67_optimized (k := 3) .release { shippedParams 2 with rounds := ⟨0, 8⟩ } rfl (by norm_num) (by norm_num)
    (by norm_num) (by norm_num) s x).2).2 ?_
  exact (C66_difference (k := 3) { shippedParams 2 with rounds := ⟨0, 8⟩ } rfl rfl (by norm_num) (shipped_alpha 2) s x
    ((C66_unoptimized { shippedParams 2 with rounds := ⟨0, 8⟩ } rfl rfl (by norm_num) (shipped_alpha 2) s x).2
      (by norm_num [FitsConstants]))).2 (Or.inl rfl)

example (s x : Vector Fq 4) : Machine.unoptimizedNTo1FixedHash (Build.release.arith (2 ^ 32)) ⟨shippedParams 2, s⟩ x =
    Instance.unoptimizedNTo1FixedHash ⟨shippedParams 2, s⟩ x :=
  C67_unoptimized .release (shippedParams 2) (by norm_num) s x

example (inputs : Vector (FpVar Fq) 4) (cs : CS Fq) :
    Machine.circuitHash (Build.release.arith (2 ^ 32)) (shippedParams 2) inputs cs = R1cs.nTo1FixedHash (shippedParams 2) inputs cs :=
  C67_circuit .release (shippedParams 2) (by norm_num) inputs cs

end Poseidon
