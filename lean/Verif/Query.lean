import Verif.Enums
import Mathlib.Tactic.Ring
import Mathlib.Algebra.Field.Basic

set_option autoImplicit false

/-!
# Queries: model of /repo/src/constraint_builder/{query,binary_query,column,binary_column}.rs
-/

namespace Mpt

/-- `Query<F>`, /repo/src/constraint_builder/query.rs:9-18. There is a single challenge in the
circuit (`evm_word_challenge`, /repo/src/mpt.rs:42), so `Challenge` carries no index. -/
inductive Query (F : Type) where
  | const (c : F)
  | advice (c : AdvCol) (rot : ℤ)
  | fixed (c : FixCol) (rot : ℤ)
  | challenge
  | neg (q : Query F)
  | add (a b : Query F)
  | mul (a b : Query F)

/-- A halo2 witness: contents of all advice and fixed cells, and the verifier challenge.
Rows are integers so that rotations never fall off the table; cells outside the usable area are
arbitrary. (halo2 wraps rotations around modulo `2^k`; wrapped cells are blinding cells.)
Cells read by `Query::run`, /repo/src/constraint_builder/query.rs:33-43. -/
structure Witness (F : Type) where
  adv : AdvCol → ℤ → F
  fix : FixCol → ℤ → F
  chal : F

namespace Query
variable {F : Type} [Field F]

/-- Value of a query on a row: `Query::run` (/repo/src/constraint_builder/query.rs:33-43) followed
by halo2's evaluation of the resulting `Expression` (`Neg q` is `0 - q`). -/
def eval (w : Witness F) (r : ℤ) : Query F → F
  | const c => c
  | advice c rot => w.adv c (r + rot)
  | fixed c rot => w.fix c (r + rot)
  | challenge => w.chal
  | neg q => 0 - q.eval w r
  | add a b => a.eval w r + b.eval w r
  | mul a b => a.eval w r * b.eval w r

/-- `From<u64> for Query`, /repo/src/constraint_builder/query.rs:50-54. -/
instance instOfNatQuery (n : ℕ) : OfNat (Query F) n := ⟨.const (n : F)⟩
/-- `impl Add`, /repo/src/constraint_builder/query.rs:76-81. -/
instance instAddQuery : Add (Query F) := ⟨.add⟩
/-- `impl Sub`: `a + Neg b`, /repo/src/constraint_builder/query.rs:83-88. -/
instance instSubQuery : Sub (Query F) := ⟨fun a b => .add a (.neg b)⟩
/-- `impl Mul`, /repo/src/constraint_builder/query.rs:90-94. -/
instance instMulQuery : Mul (Query F) := ⟨.mul⟩
/-- `Query::square`, /repo/src/constraint_builder/query.rs:45-47. -/
def square (q : Query F) : Query F := q * q
/-- `From<u64>` applied to a computed number. /repo/src/constraint_builder/query.rs:50-54. -/
def ofNat (n : ℕ) : Query F := .const (n : F)

variable (w : Witness F) (r : ℤ)
@[simp] theorem eval_const (c : F) : (const c : Query F).eval w r = c := rfl
@[simp] theorem eval_advice (c rot) : (advice c rot : Query F).eval w r = w.adv c (r + rot) := rfl
@[simp] theorem eval_fixed (c rot) : (fixed c rot : Query F).eval w r = w.fix c (r + rot) := rfl
@[simp] theorem eval_challenge : (challenge : Query F).eval w r = w.chal := rfl
@[simp] theorem eval_neg (a : Query F) : (neg a).eval w r = - a.eval w r := by
  simp [eval]
@[simp] theorem eval_add (a b : Query F) : (a + b).eval w r = a.eval w r + b.eval w r := rfl
@[simp] theorem eval_sub (a b : Query F) : (a - b).eval w r = a.eval w r - b.eval w r := by
  show eval w r (.add a (.neg b)) = _
  simp only [eval]; ring
@[simp] theorem eval_mul (a b : Query F) : (a * b).eval w r = a.eval w r * b.eval w r := rfl
@[simp] theorem eval_natLit (n : ℕ) : (ofNat(n) : Query F).eval w r = (n : F) := rfl
@[simp] theorem eval_zero : (0 : Query F).eval w r = 0 := by
  show ((0 : ℕ) : F) = 0
  simp
@[simp] theorem eval_one : (1 : Query F).eval w r = 1 := by
  show ((1 : ℕ) : F) = 1
  simp
@[simp] theorem eval_ofNat (n : ℕ) : (Query.ofNat n : Query F).eval w r = (n : F) := rfl
@[simp] theorem eval_square (a : Query F) : (square a).eval w r = a.eval w r * a.eval w r := rfl

/-! ## `BinaryQuery` (/repo/src/constraint_builder/binary_query.rs)
A `BinaryQuery` is a newtype around `Query` whose value "we promise is 0 or 1"; the promise is not
enforced by the type, so we model it by the query itself. -/

/-- `BinaryQuery::and`, binary_query.rs:23-25. -/
def band (a b : Query F) : Query F := a * b
/-- `!BinaryQuery`, binary_query.rs:44-52. -/
def bnot (a : Query F) : Query F := 1 - a
/-- `BinaryQuery::or`, binary_query.rs:27-29. -/
def bor (a b : Query F) : Query F := bnot (band (bnot a) (bnot b))
/-- `BinaryQuery::select`, binary_query.rs:35-37. -/
def select (c t e : Query F) : Query F := t * c + e * bnot c

@[simp] theorem eval_band (a b : Query F) : (band a b).eval w r = a.eval w r * b.eval w r := rfl
@[simp] theorem eval_bnot (a : Query F) : (bnot a).eval w r = 1 - a.eval w r := by simp [bnot]
theorem eval_bor (a b : Query F) :
    (bor a b).eval w r = 1 - (1 - a.eval w r) * (1 - b.eval w r) := by simp [bor]
theorem eval_select (c t e : Query F) :
    (select c t e).eval w r = t.eval w r * c.eval w r + e.eval w r * (1 - c.eval w r) := by
  simp [select]

end Query

/-! ## Columns (/repo/src/constraint_builder/column.rs) -/

/-- `AdviceColumn::current` (also `SecondPhaseAdviceColumn`, `BinaryColumn`), column.rs:77-79. -/
def AdvCol.cur {F} (c : AdvCol) : Query F := .advice c 0
/-- `previous`, column.rs:81-83. -/
def AdvCol.prev {F} (c : AdvCol) : Query F := .advice c (-1)
/-- `next`, column.rs:85-87. -/
def AdvCol.next {F} (c : AdvCol) : Query F := .advice c 1
/-- `rotation`, column.rs:73-75. -/
def AdvCol.rot {F} (c : AdvCol) (i : ℤ) : Query F := .advice c i
/-- `SelectorColumn::current` / `FixedColumn::current`, column.rs:14-20, 41-43. -/
def FixCol.cur {F} (c : FixCol) : Query F := .fixed c 0
/-- `SelectorColumn::rotation`, column.rs:18-20. -/
def FixCol.rot {F} (c : FixCol) (i : ℤ) : Query F := .fixed c i

section
variable {F : Type} [Field F] (w : Witness F) (r : ℤ)
@[simp] theorem AdvCol.eval_cur (c : AdvCol) : (c.cur : Query F).eval w r = w.adv c r := by
  simp [AdvCol.cur]
@[simp] theorem AdvCol.eval_prev (c : AdvCol) : (c.prev : Query F).eval w r = w.adv c (r - 1) := by
  simp [AdvCol.prev, sub_eq_add_neg]
@[simp] theorem AdvCol.eval_next (c : AdvCol) : (c.next : Query F).eval w r = w.adv c (r + 1) := by
  simp [AdvCol.next]
@[simp] theorem AdvCol.eval_rot (c : AdvCol) (i : ℤ) :
    (c.rot i : Query F).eval w r = w.adv c (r + i) := by simp [AdvCol.rot]
@[simp] theorem FixCol.eval_cur (c : FixCol) : (c.cur : Query F).eval w r = w.fix c r := by
  simp [FixCol.cur]
@[simp] theorem FixCol.eval_rot (c : FixCol) (i : ℤ) :
    (c.rot i : Query F).eval w r = w.fix c (r + i) := by simp [FixCol.rot]
end

end Mpt
