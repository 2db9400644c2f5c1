import Verif.Model.InPlace

/-!
# Specification: one call alone, and the vocabulary for logs of many calls
-/

namespace Poseidon

variable {F : Type} [Field F] [DecidableEq F] {t tm1 nmds nhat rows cols nround npart : Nat}

/-- A call on an instance, in the model of `Model/Permutation.lean`. -/
def HashCall.on (a : Instance F t tm1 nmds nhat rows cols nround npart) :
    HashCall F t → R (F × Instance F t tm1 nmds nhat rows cols nround npart)
  | .optimized x => a.nTo1FixedHash x
  | .unoptimized x => a.unoptimizedNTo1FixedHash x

/-- The words in the instance when a call has ended that was alone on a new instance, also if it panicked. -/
def HashCall.leaves (p : Params F t tm1 nmds nhat rows cols nround npart) (c : HashCall F t) : Vector F t :=
  ((c.prog p).run (Vector.replicate t 0)).2

/-- The last call that ended on instance `i`. -/
def Threads.lastEnded (i : Nat) (log : List (Entry F t)) : Option (HashCall F t) :=
  (log.filterMap fun
    | .ended j c _ => if j = i then some c else none
    | .observed _ _ => none).getLast?

/-- How often the scheduler chose thread `th`. -/
def Threads.turns (th : Nat) (cs : List (Choice F t)) : Nat :=
  cs.countP fun
    | .go th' => th' == th
    | _ => false

end Poseidon
