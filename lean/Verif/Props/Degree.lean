import Verif.Accepted

set_option autoImplicit false

/-!
# The degree of the circuit

The test `degree` of the repository (/repo/src/tests.rs:62-67) asserts that halo2 computes degree 9 for
the configured circuit. Here the degree is computed, by the kernel, from the modelled constraint
system. This says nothing about the circuit a test does not; it is a check of the model: a dropped or
added condition or factor in the deepest constraints would change the number.
-/

namespace Mpt

/-- `Expression::degree` of halo2, for the expressions built by `Query::run`
(/repo/src/constraint_builder/query.rs:33-43). -/
def Query.degree {F : Type} : Query F → ℕ
  | .const _ => 0
  | .advice _ _ => 1
  | .fixed _ _ => 1
  | .challenge => 0
  | .neg q => q.degree
  | .add a b => max a.degree b.degree
  | .mul a b => a.degree + b.degree

/-- The largest number of a list, 0 if there is none. Helper for /repo/src/tests.rs:62-67. -/
def listMax (l : List ℕ) : ℕ := l.foldl max 0

/-- `lookup::Argument::required_degree` of halo2. For /repo/src/constraint_builder.rs:172-180. -/
def lookupDegree {F : Type} (l : List (Query F × Query F)) : ℕ :=
  max 4 (2 + max 1 (listMax (l.map (·.1.degree))) + max 1 (listMax (l.map (·.2.degree))))

/-- `ConstraintSystem::degree` of halo2 without a permutation argument of larger degree (it needs 3).
Asserted in /repo/src/tests.rs:62-67. -/
def ConstraintSystem.degree {F : Type} (cs : ConstraintSystem F) : ℕ :=
  max 3 (max (listMax (cs.lookups.map lookupDegree)) (listMax (cs.gates.map Query.degree)))

namespace Props
open MptUpdate

theorem circuit_degree (H : HashFn) :
    (Cmd.circuit (mptCircuit H)).map ConstraintSystem.degree = some 9 := by
  -- `rfl`, checked by the kernel only (the elaborator's evaluator is too slow)
  run_tac do
    let g ← Lean.Elab.Tactic.getMainGoal
    let some (_, _, b) := (← g.getType).eq? | return
    g.assign (← Lean.Meta.mkEqRefl b)

end Props
end Mpt
