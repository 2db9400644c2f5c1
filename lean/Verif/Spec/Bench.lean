import Verif.Spec.KeyFile
import Verif.Model.Field

/-!
# Words for the benchmark
-/

namespace Poseidon.Bench

variable {σ : Type}

/-- The state of a generator that started with `seed` after `n` draws. -/
def after (fill : σ → Vector UInt8 32 × σ) (seed : σ) (n : Nat) : σ := (fun s => (fill s).2)^[n] seed

/-- The field element of draw number `n`: the number that its 32 bytes denote, modulo the order of the field. -/
def word (fill : σ → Vector UInt8 32 × σ) (seed : σ) (n : Nat) : Fq :=
  ((Groth16.number (fill (after fill seed n)).1.toList : Nat) : Fq)

end Poseidon.Bench
