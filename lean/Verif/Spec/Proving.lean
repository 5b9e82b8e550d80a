import Verif.Spec.HaloTable
import Verif.Spec.StateClaims
import Verif.Assign.Phases

set_option autoImplicit false

/-!
# Specification: proving claims

Which claims can be proved with halo2 tables, in the order of halo2: the prover commits to the fixed and
first-phase columns (all rows, with the blinding), the challenge is drawn, the second-phase columns are filled.
-/

namespace Mpt
open Spec

/-- The tables have the same fixed and first-phase columns: what is committed to before the challenge.
For /repo/src/gadgets/rlc_randomness.rs:20. -/
structure HaloTable.SameFirst (t t' : HaloTable) (N : ℕ) : Prop where
  fix : ∀ c, ∀ r < N, t.fix c r = t'.fix c r
  adv : ∀ c : AdvCol, c.secondPhase = false → ∀ r < N, t.adv c r = t'.adv c r

/-- The claim can be looked up in the table. For /repo/src/mpt.rs:254-264. -/
def HaloTable.Shows (t : HaloTable) (N U : ℕ) (c : StateClaim) : Prop :=
  ∃ r < U, lookupExprs.map (fun q => q.evalTable t N r) = c.tuple t.chal

/-- The cells at the edges of the tables are in order: the first string of the byte-representation table starts
on the first enabled row, and the rows after the last group of the canonical-representation table (there are none
if `n % 32 = 1`) hold the leading bytes of their values, or no path is longer than 248 levels. The code does not enforce this, see findings B1 and B2.
For /repo/src/gadgets/byte_representation.rs:41-72, /repo/src/gadgets/canonical_representation.rs:54-126. -/
structure HaloTable.Edges (t : HaloTable) (n : ℕ) : Prop where
  first : t.adv .brIndex 1 = 0
  last : (∀ r : ℕ, 32 * (n / 32) < r → r < n →
      t.adv .crByte r = (((frBytes (t.adv .crValue r)).getD 0 0 : ℕ) : Fr)) ∨
    ∀ r : ℕ, 0 < r → r < n → (t.adv .depth r).val ≤ 248

/-- The challenges for which the first phase of `t₀` can be completed to a table that halo2 accepts and in
which all the claims can be looked up. For /repo/src/mpt.rs:39-264. -/
def ProvableFor (H : HashFn) (n U N : ℕ) (t₀ : HaloTable) (cs : List StateClaim) : Set Fr :=
  {ρ | ∃ t : HaloTable, t.chal = ρ ∧ t₀.SameFirst t N ∧ HaloAccepted H n U N t ∧ ∀ c ∈ cs, t.Shows N U c}

/-- The claim names a storage slot only if it is about storage. (The circuit ignores the slot of other claims,
finding B11; the assignment writes 0.) For /repo/src/types/claim.rs: storage_key. -/
def Spec.StateClaim.SlotUsed (c : StateClaim) : Prop :=
  c.type = .StorageChanged ∨ c.type = .StorageDoesNotExist ∨ c.slot = 0

end Mpt
