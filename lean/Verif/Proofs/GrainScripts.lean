import Verif.Proofs.GrainInit
import Verif.Proofs.GrainRun
import Verif.Proofs.GrainTests
import Verif.Params.GrainTests
import Verif.Props.Reference

/-! # The output of the Grain generator for the arguments of the authors' scripts, evaluated in the kernel -/

namespace Poseidon

open Authors

/-- All that is checked about the literals `arc`, `m` of a script -/
def checkScript (p n k rP fuel : Nat) (arc m xs ys : List Nat) (N NT : List (List Nat)) (rel : List Nat) (cs : List (List Nat)) : Bool :=
  checkRun p (grainRun (2 ^ n) fuel (startWindow (bitsN 2 1 ++ bitsN 4 0 ++ bitsN 12 n ++ bitsN 12 (k + 1) ++ bitsN 10 8 ++ bitsN 10 rP ++
    List.replicate 30 true)) 1) arc (xs ++ ys) &&
  Nat.beq arc.length ((8 + rP) * (k + 1)) && Nat.beq xs.length (k + 1) && Nat.beq ys.length (k + 1) &&
  distinctN p (2 * (k + 1)) (xs ++ ys) && cauchyN p (k + 1) m xs ys && checkTests p (k + 1) m N NT rel cs

set_option maxRecDepth 4000 in
theorem check_255_3 : checkScript bls381 255 2 57 14150 arc_255_3 mds_255_3 xs_255_3 ys_255_3 inv_255_3 invT_255_3 rel_255_3 pow_255_3 = true := by
  decide +kernel
set_option maxRecDepth 4000 in
theorem check_255_5 : checkScript bls381 255 4 60 24700 arc_255_5 mds_255_5 xs_255_5 ys_255_5 inv_255_5 invT_255_5 rel_255_5 pow_255_5 = true := by
  decide +kernel
set_option maxRecDepth 4000 in
theorem check_254_3 : checkScript bn254 254 2 57 17300 arc_254_3 mds_254_3 xs_254_3 ys_254_3 inv_254_3 invT_254_3 rel_254_3 pow_254_3 = true := by
  decide +kernel
set_option maxRecDepth 4000 in
theorem check_254_5 : checkScript bn254 254 4 60 30800 arc_254_5 mds_254_5 xs_254_5 ys_254_5 inv_254_5 invT_254_5 rel_254_5 pow_254_5 = true := by
  decide +kernel
set_option maxRecDepth 4000 in
theorem check_64_24 : checkScript p64 64 23 42 20000 arc_64_24 mds_64_24 xs_64_24 ys_64_24 inv_64_24 invT_64_24 rel_64_24 pow_64_24 = true := by
  decide +kernel

end Poseidon
