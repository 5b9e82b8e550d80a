import Verif.Accepted

set_option autoImplicit false

/-!
# A halo2 table

The rest of the model uses rows that are integers, so that a rotation never leaves the table. A halo2 table
has `N = 2^k` rows and rotations wrap around; the circuit may only use the first `U < N` of them, the
remaining rows of the advice columns are filled with random values (blinding). Here is that table, as close
to halo2 as the constraint system allows; `Verif.Props.HaloTable` relates it to `Accepted`.
-/

namespace Mpt

/-- The cells of a halo2 table, by column and row, and the challenge. Cells of
/repo/src/constraint_builder/column.rs:1-140. -/
structure HaloTable where
  adv : AdvCol → ℕ → Fr
  fix : FixCol → ℕ → Fr
  chal : Fr

/-- The row that a query with rotation `rot` on row `r` reads in a table with `N` rows.
`Rotation` in /repo/src/constraint_builder/column.rs:14-100. -/
def rotated (N r : ℕ) (rot : ℤ) : ℕ := (((r : ℤ) + rot) % (N : ℤ)).toNat

/-- Value of an expression on a row of a table with `N` rows. `Query::run`,
/repo/src/constraint_builder/query.rs:33-43. -/
def Query.evalTable (t : HaloTable) (N r : ℕ) : Query Fr → Fr
  | .const c => c
  | .advice c rot => t.adv c (rotated N r rot)
  | .fixed c rot => t.fix c (rotated N r rot)
  | .challenge => t.chal
  | .neg q => 0 - q.evalTable t N r
  | .add a b => a.evalTable t N r + b.evalTable t N r
  | .mul a b => a.evalTable t N r * b.evalTable t N r

/-- halo2's satisfaction relation: on each of the `U` usable rows every gate vanishes, and for every lookup
there is a usable row with the looked-up values. For /repo/src/constraint_builder.rs:163-181. -/
def ConstraintSystem.SatTable (cs : ConstraintSystem Fr) (t : HaloTable) (N U : ℕ) : Prop :=
  (∀ g ∈ cs.gates, ∀ r < U, g.evalTable t N r = 0) ∧
  (∀ l ∈ cs.lookups, ∀ r < U, ∃ r' < U, ∀ p ∈ l, p.1.evalTable t N r = p.2.evalTable t N r')

/-- The table `t` with `N` rows, `U` of them usable, is accepted by the circuit with `n` rows.
* `sat`: the gates and lookups of the configured circuit are satisfied;
* `fixed`: the fixed columns have the cells written by `assign` (they are part of the verifying key;
  fixed columns are not blinded);
* `posEnable`, `pos`: the external Poseidon table is sound;
* `rows`, `blinded`: the rows of the circuit are usable rows, and at least one row is not usable;
* `size`, `bound`: `N` is a power of two, at least 32 and at most `2^64`.
Models /repo/src/mpt.rs:39-260. -/
structure HaloAccepted (H : HashFn) (n U N : ℕ) (t : HaloTable) : Prop where
  sat : ∃ cs, Cmd.circuit (mptCircuit H) = some cs ∧ cs.SatTable t N U
  fixed : ∀ c, c ≠ .posEnable → ∀ r < N, t.fix c r = fixedCell n c r
  posEnable : ∀ r < U, t.fix .posEnable r = 0 ∨ t.fix .posEnable r = 1
  pos : ∀ r < U, t.fix .posEnable r = 1 → t.adv .posControl r = 0 → t.adv .posHead r = 1 →
    t.adv .posHash r = H (t.adv .posLeft r) (t.adv .posRight r) (t.adv .posDomain r)
  rows : n ≤ U
  blinded : U < N
  size : ∃ k, N = 2 ^ k ∧ 5 ≤ k ∧ k ≤ 64

/-- The table `t` holds the assigned cells `w` on its usable rows and in its fixed columns. Nothing is said
about the advice cells of the other rows. For /repo/src/constraint_builder/column.rs:1-140. -/
structure HaloTable.Holds (t : HaloTable) (w : Witness Fr) (N U : ℕ) : Prop where
  adv : ∀ c, ∀ r < U, t.adv c r = w.adv c r
  fix : ∀ c, ∀ r < N, t.fix c r = w.fix c r
  chal : t.chal = w.chal

end Mpt
