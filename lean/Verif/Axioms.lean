import Lean
/-!
# A command that checks the axioms of a theorem
-/
open Lean Elab Command

/-- `#audit name` fails if the theorem `name` depends on an axiom other than
`propext`, `Classical.choice` and `Quot.sound`. -/
elab "#audit " n:ident : command => do
  let name ← liftCoreM <| realizeGlobalConstNoOverloadWithInfo n
  let axioms ← liftCoreM <| collectAxioms name
  for a in axioms do
    unless a ∈ [``propext, ``Classical.choice, ``Quot.sound] do
      throwError "{name} depends on the axiom {a}"
