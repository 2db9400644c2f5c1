import Verif.Model.Permutation
import Verif.Params.Rate1
import Verif.Params.Rate2
import Verif.Params.Rate3
import Verif.Params.Rate4
import Verif.Params.Rate5
import Verif.Params.Rate6
import Verif.Params.Rate7

/-!
# Model of `poseidon377/src/{lib,hash}.rs`

The tuples of values are Lean tuples (nested pairs).
-/

namespace Poseidon

/-- `RATE_1_PARAMS` .. `RATE_7_PARAMS`, poseidon377/src/lib.rs:10-32, indexed by rate minus one -/
def shippedParams : (i : Fin 7) → Params Fq (i.val + 2) (i.val + 1) ((i.val + 2) * (i.val + 2))
    ((i.val + 1) * (i.val + 1)) 39 (i.val + 2) (39 * (i.val + 2)) 31
  | 0 => rate1Params
  | 1 => rate2Params
  | 2 => rate3Params
  | 3 => rate4Params
  | 4 => rate5Params
  | 5 => rate6Params
  | 6 => rate7Params

/-- `hash_1`, hash.rs:4-8 -/
def hash1 (domainSeparator : Fq) (value : Fq) : R Fq := do
  let (digest, _) ← (Instance.new rate1Params).nTo1FixedHash #v[domainSeparator, value]
  return digest

/-- `hash_2`, hash.rs:11-15 -/
def hash2 (domainSeparator : Fq) (value : Fq × Fq) : R Fq := do
  let (digest, _) ← (Instance.new rate2Params).nTo1FixedHash #v[domainSeparator, value.1, value.2]
  return digest

/-- `hash_3`, hash.rs:18-22 -/
def hash3 (domainSeparator : Fq) (value : Fq × Fq × Fq) : R Fq := do
  let (digest, _) ← (Instance.new rate3Params).nTo1FixedHash #v[domainSeparator, value.1, value.2.1, value.2.2]
  return digest

/-- `hash_4`, hash.rs:25-29 -/
def hash4 (domainSeparator : Fq) (value : Fq × Fq × Fq × Fq) : R Fq := do
  let (digest, _) ← (Instance.new rate4Params).nTo1FixedHash #v[domainSeparator, value.1, value.2.1, value.2.2.1, value.2.2.2]
  return digest

/-- `hash_5`, hash.rs:32-43 -/
def hash5 (domainSeparator : Fq) (value : Fq × Fq × Fq × Fq × Fq) : R Fq := do
  let (digest, _) ← (Instance.new rate5Params).nTo1FixedHash #v[domainSeparator, value.1, value.2.1, value.2.2.1, value.2.2.2.1, value.2.2.2.2]
  return digest

/-- `hash_6`, hash.rs:46-58 -/
def hash6 (domainSeparator : Fq) (value : Fq × Fq × Fq × Fq × Fq × Fq) : R Fq := do
  let (digest, _) ← (Instance.new rate6Params).nTo1FixedHash #v[domainSeparator, value.1, value.2.1, value.2.2.1, value.2.2.2.1, value.2.2.2.2.1, value.2.2.2.2.2]
  return digest

/-- `hash_7`, hash.rs:61-74 -/
def hash7 (domainSeparator : Fq) (value : Fq × Fq × Fq × Fq × Fq × Fq × Fq) : R Fq := do
  let (digest, _) ← (Instance.new rate7Params).nTo1FixedHash #v[domainSeparator, value.1, value.2.1, value.2.2.1, value.2.2.2.1, value.2.2.2.2.1, value.2.2.2.2.2.1, value.2.2.2.2.2.2]
  return digest

end Poseidon
