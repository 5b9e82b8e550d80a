import Verif.Query

set_option autoImplicit false

/-!
# Model of /repo/src/constraint_builder.rs and of halo2's satisfaction relation
-/

namespace Mpt
variable {F : Type}

/-- `ConstraintBuilder`, /repo/src/constraint_builder.rs:18-24. The Rust vector `conditions` always
starts with the every-row selector (put there by `new`, never popped because pushes and pops are
paired in `condition`); we keep that first element in its own field `everyRow`, and the rest of
the vector in `conditions`. -/
structure CB (F : Type) where
  constraints : List (String × Query F)
  lookups : List (String × List (Query F × Query F))
  everyRow : Query F
  conditions : List (Query F)

namespace CB
variable [Field F]

/-- `ConstraintBuilder::new`, constraint_builder.rs:27-34. -/
def new (everyRow : FixCol) : CB F := ⟨[], [], everyRow.cur, []⟩

/-- `every_row_selector`, constraint_builder.rs:36-41. -/
def everyRowSelector (cb : CB F) : Query F := cb.everyRow

/-- The fold `conditions.iter().fold(BinaryQuery::one(), |a, b| a.and(b))`,
constraint_builder.rs:44-47, 76-79. -/
def condition? (cb : CB F) : Query F :=
  (cb.everyRow :: cb.conditions).foldl Query.band 1

/-- The same fold after `.skip(1)`, constraint_builder.rs:96-100. -/
def conditionSkip1 (cb : CB F) : Query F := cb.conditions.foldl Query.band 1

/-- `assert_zero`, constraint_builder.rs:43-49. -/
def assertZero (cb : CB F) (name : String) (q : Query F) : CB F :=
  { cb with constraints := cb.constraints ++ [(name, cb.condition? * q)] }

/-- `condition` first half: `self.conditions.push(condition)`, constraint_builder.rs:63-64. -/
def push (cb : CB F) (c : Query F) : CB F := { cb with conditions := cb.conditions ++ [c] }
/-- `condition` second half: `self.conditions.pop().unwrap()`, constraint_builder.rs:66. -/
def pop (cb : CB F) : CB F := { cb with conditions := cb.conditions.dropLast }

/-- `add_lookup`, constraint_builder.rs:69-88; `pairs` is `left.zip(right)`. -/
def addLookup (cb : CB F) (name : String) (pairs : List (Query F × Query F)) : CB F :=
  { cb with lookups := cb.lookups ++
      [(name, pairs.map (fun p => (p.1 * cb.condition?, p.2)) ++
        [(cb.condition?, cb.everyRowSelector)])] }

/-- `poseidon_lookup`, constraint_builder.rs:90-133. The right-hand sides are the columns returned
by `PoseidonLookup::lookup_columns` (/repo/src/gadgets/poseidon.rs:85-99).
/repo/src/constraint_builder.rs:89-130. -/
def poseidonLookup (cb : CB F) (name : String) (left right domain hash : Query F) : CB F :=
  { cb with lookups := cb.lookups ++
      [(name, List.zip
        ([1, hash, left, right, 0, domain, 1].map (fun q => q * cb.conditionSkip1))
        [FixCol.posEnable.cur, AdvCol.posHash.cur, AdvCol.posLeft.cur, AdvCol.posRight.cur,
         AdvCol.posControl.cur, AdvCol.posDomain.cur, AdvCol.posHead.cur])] }

end CB

/-- What `build` hands to halo2: the gates (`create_gate`) and lookups (`lookup_any`).
/repo/src/constraint_builder.rs:163-181. -/
structure ConstraintSystem (F : Type) where
  gates : List (Query F)
  lookups : List (List (Query F × Query F))

/-- `build`, constraint_builder.rs:161-181; `none` is the panic of the `assert_eq!` on
`conditions.len() == 1`. -/
def CB.build (cb : CB F) : Option (ConstraintSystem F) :=
  if cb.conditions = [] then some ⟨cb.constraints.map (·.2), cb.lookups.map (·.2)⟩ else none

/-- Row `r` lies in the usable area of a table with `U` usable rows.
halo2, for /repo/src/constraint_builder.rs:163-181. -/
def InU (U : ℕ) (r : ℤ) : Prop := 0 ≤ r ∧ r < U

/-- halo2's satisfaction relation (trusted): every gate vanishes on every usable row, and for every
lookup and every usable row there is a usable row on which the table side equals the input side.
For /repo/src/constraint_builder.rs:163-181. -/
def ConstraintSystem.Sat [Field F] (cs : ConstraintSystem F) (w : Witness F) (U : ℕ) : Prop :=
  (∀ g ∈ cs.gates, ∀ r, InU U r → g.eval w r = 0) ∧
  (∀ l ∈ cs.lookups, ∀ r, InU U r → ∃ r', InU U r' ∧ ∀ p ∈ l, p.1.eval w r = p.2.eval w r')

/-! ## Builder programs -/

/-- A call sequence on the builder. `assert_equal`, `assert`, `assert_unreachable` are the
derived forms below; `cond c body` is `cb.condition(c, |cb| body)`. /repo/src/constraint_builder.rs:43-130. -/
inductive Cmd (F : Type) where
  | assertZero (name : String) (q : Query F)
  | lookup (name : String) (pairs : List (Query F × Query F))
  | poseidon (name : String) (left right domain hash : Query F)
  | cond (c : Query F) (body : List (Cmd F))

namespace Cmd
variable [Field F]

/-- `assert_equal`, constraint_builder.rs:51-53. -/
def assertEqual (name : String) (a b : Query F) : Cmd F := .assertZero name (a - b)
/-- `assert`, constraint_builder.rs:55-57. -/
def assert (name : String) (c : Query F) : Cmd F := .assertZero name (1 - c)
/-- `assert_unreachable`, constraint_builder.rs:59-61. -/
def assertUnreachable (name : String) : Cmd F := .assert name 0
/-- `poseidon_lookup(name, [left, right, domain, hash], poseidon)`. -/
def poseidonLookup (name : String) (left right domain hash : Query F) : Cmd F :=
  .poseidon name left right domain hash

mutual
/-- Run one call on the builder. /repo/src/constraint_builder.rs:43-130. -/
def exec : Cmd F → CB F → CB F
  | .assertZero n q, cb => cb.assertZero n q
  | .lookup n ps, cb => cb.addLookup n ps
  | .poseidon n l r d h, cb => cb.poseidonLookup n l r d h
  | .cond c body, cb => (execs body (cb.push c)).pop
/-- Run a call sequence on the builder. /repo/src/constraint_builder.rs:43-130. -/
def execs : List (Cmd F) → CB F → CB F
  | [], cb => cb
  | c :: cs, cb => execs cs (exec c cb)
end

/-- The constraint system built by a program on a fresh builder with selector column
`selector` (/repo/src/mpt.rs:46-48, 102). -/
def circuit (prog : List (Cmd F)) : Option (ConstraintSystem F) :=
  (execs prog (CB.new .selector)).build

/-! ## Literal semantics of a program

`s` is the value of the every-row selector on row `r` and `acc` the product of the enclosing
conditions. -/

/-- The tuple `(left, right, domain, hash)` scaled by `acc` is on some usable row of the Poseidon
table. /repo/src/constraint_builder.rs:89-130. -/
def PoseidonRow (w : Witness F) (U : ℕ) (acc l rr d h : F) : Prop :=
  ∃ r', InU U r' ∧ acc = w.fix .posEnable r' ∧ h * acc = w.adv .posHash r' ∧
    l * acc = w.adv .posLeft r' ∧ rr * acc = w.adv .posRight r' ∧ 0 = w.adv .posControl r' ∧
    d * acc = w.adv .posDomain r' ∧ acc = w.adv .posHead r'

mutual
/-- Meaning of a call on one row, /repo/src/constraint_builder.rs:43-130. -/
def LHolds (w : Witness F) (U : ℕ) (r : ℤ) (s acc : F) : Cmd F → Prop
  | .assertZero _ q => s * acc * q.eval w r = 0
  | .lookup _ ps => ∃ r', InU U r' ∧
      (∀ p ∈ ps, p.1.eval w r * (s * acc) = p.2.eval w r') ∧ s * acc = w.fix .selector r'
  | .poseidon _ l rr d h => PoseidonRow w U acc (l.eval w r) (rr.eval w r) (d.eval w r) (h.eval w r)
  | .cond c body => LHoldsL w U r s (acc * c.eval w r) body
/-- Meaning of a call sequence on one row, /repo/src/constraint_builder.rs:43-130. -/
def LHoldsL (w : Witness F) (U : ℕ) (r : ℤ) (s acc : F) : List (Cmd F) → Prop
  | [] => True
  | c :: cs => LHolds w U r s acc c ∧ LHoldsL w U r s acc cs
end

/-! ## Structured semantics: what an enabled row of an accepted witness satisfies. -/

mutual
/-- Meaning of a call on an enabled row when all conditions are Boolean, /repo/src/constraint_builder.rs:43-130. -/
def Holds (w : Witness F) (U : ℕ) (r : ℤ) : Cmd F → Prop
  | .assertZero _ q => q.eval w r = 0
  | .lookup _ ps => ∃ r', InU U r' ∧ w.fix .selector r' = 1 ∧
      ∀ p ∈ ps, p.1.eval w r = p.2.eval w r'
  | .poseidon _ l rr d h => PoseidonRow w U 1 (l.eval w r) (rr.eval w r) (d.eval w r) (h.eval w r)
  | .cond c body => c.eval w r ≠ 0 → HoldsL w U r body
/-- Meaning of a call sequence on an enabled row, /repo/src/constraint_builder.rs:43-130. -/
def HoldsL (w : Witness F) (U : ℕ) (r : ℤ) : List (Cmd F) → Prop
  | [] => True
  | c :: cs => Holds w U r c ∧ HoldsL w U r cs
end

/-! ### Every condition met on the way to an active lookup is 0 or 1 (needed for acceptance) -/
mutual
/-- All conditions of a call are 0 or 1 on row `r` (type `BinaryQuery`), /repo/src/constraint_builder/binary_query.rs:9-12. -/
def Binary (w : Witness F) (r : ℤ) : Cmd F → Prop
  | .cond c body => (c.eval w r = 0 ∨ c.eval w r = 1) ∧ BinaryL w r body
  | _ => True
/-- All conditions of a call sequence are 0 or 1 on row `r`, /repo/src/constraint_builder/binary_query.rs:9-12. -/
def BinaryL (w : Witness F) (r : ℤ) : List (Cmd F) → Prop
  | [] => True
  | c :: cs => Binary w r c ∧ BinaryL w r cs
end

/-! ### The constraints a program consists of, each with its enclosing conditions -/
mutual
/-- `P` holds of every constraint and lookup of a call, with its conditions, /repo/src/constraint_builder.rs:63-67. -/
def Leaves (P : List (Query F) → Cmd F → Prop) (conds : List (Query F)) : Cmd F → Prop
  | .cond c body => LeavesL P (conds ++ [c]) body
  | .assertZero n q => P conds (.assertZero n q)
  | .lookup n ps => P conds (.lookup n ps)
  | .poseidon n l r d h => P conds (.poseidon n l r d h)
/-- `P` holds of every constraint and lookup of a call sequence, with its conditions, /repo/src/constraint_builder.rs:63-67. -/
def LeavesL (P : List (Query F) → Cmd F → Prop) (conds : List (Query F)) : List (Cmd F) → Prop
  | [] => True
  | c :: cs => Leaves P conds c ∧ LeavesL P conds cs
end

section lemmas
variable (w : Witness F) (U : ℕ) (r : ℤ)

@[simp] theorem holdsL_nil : HoldsL w U r ([] : List (Cmd F)) ↔ True := by simp [HoldsL]
@[simp] theorem holdsL_cons (c : Cmd F) (cs) :
    HoldsL w U r (c :: cs) ↔ Holds w U r c ∧ HoldsL w U r cs := by simp [HoldsL]
theorem holdsL_iff (cs : List (Cmd F)) : HoldsL w U r cs ↔ ∀ c ∈ cs, Holds w U r c := by
  induction cs with
  | nil => simp
  | cons c cs ih => simp [ih]
@[simp] theorem holdsL_append (a b : List (Cmd F)) :
    HoldsL w U r (a ++ b) ↔ HoldsL w U r a ∧ HoldsL w U r b := by
  simp only [holdsL_iff, List.mem_append]
  constructor
  · intro h; exact ⟨fun c hc => h c (.inl hc), fun c hc => h c (.inr hc)⟩
  · rintro ⟨h1, h2⟩ c (hc | hc)
    · exact h1 c hc
    · exact h2 c hc
@[simp] theorem holds_assertZero (n : String) (q : Query F) :
    Holds w U r (.assertZero n q) ↔ q.eval w r = 0 := by simp [Holds]
@[simp] theorem holds_assertEqual (n : String) (a b : Query F) :
    Holds w U r (assertEqual n a b) ↔ a.eval w r = b.eval w r := by
  simp [assertEqual, sub_eq_zero]
@[simp] theorem holds_assert (n : String) (c : Query F) :
    Holds w U r (assert n c) ↔ c.eval w r = 1 := by
  simp only [assert, holds_assertZero, Query.eval_sub, Query.eval_one, sub_eq_zero]
  exact eq_comm
@[simp] theorem holds_assertUnreachable (n : String) :
    Holds w U r (assertUnreachable n : Cmd F) ↔ False := by
  simp [assertUnreachable]
@[simp] theorem holds_cond (c : Query F) (body) :
    Holds w U r (.cond c body) ↔ (c.eval w r ≠ 0 → HoldsL w U r body) := by simp [Holds]
theorem holds_lookup (n : String) (ps : List (Query F × Query F)) :
    Holds w U r (.lookup n ps) ↔ ∃ r', InU U r' ∧ w.fix .selector r' = 1 ∧
      ∀ p ∈ ps, p.1.eval w r = p.2.eval w r' := by simp [Holds]
theorem holds_poseidon (n : String) (a b d h : Query F) :
    Holds w U r (.poseidon n a b d h) ↔
      PoseidonRow w U 1 (a.eval w r) (b.eval w r) (d.eval w r) (h.eval w r) := by simp [Holds]
theorem holds_poseidonLookup (n : String) (a b d h : Query F) :
    Holds w U r (poseidonLookup n a b d h) ↔
      PoseidonRow w U 1 (a.eval w r) (b.eval w r) (d.eval w r) (h.eval w r) := by
  simp [poseidonLookup, Holds]

end lemmas

end Cmd
end Mpt
