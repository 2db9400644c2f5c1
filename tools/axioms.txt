import Verif
open Lean
/-! Prints the axioms of every property theorem `Cnn_*`, grouped (run with `lake env lean ../tools/axioms.txt`). -/
run_cmd Elab.Command.liftCoreM do
  let env ← getEnv
  let mut groups : Std.HashMap String (Array Name) := {}
  for (n, ci) in env.constants.map₁.toList do
    if ci.isTheorem && (`Poseidon).isPrefixOf n then
      match n with
      | .str _ s =>
        if s.startsWith "C" && (s.toList.getD 1 'x').isDigit && (s.toList.getD 2 'x').isDigit then
          let ax ← collectAxioms n
          let key := toString (ax.qsort Name.lt).toList
          groups := groups.insert key ((groups.getD key #[]).push n)
      | _ => pure ()
  for (k, ns) in groups.toList do
    IO.println s!"{k} ({ns.size}): {(ns.qsort Name.lt).toList}"
