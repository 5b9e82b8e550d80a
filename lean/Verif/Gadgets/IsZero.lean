import Verif.BuilderSemantics

set_option autoImplicit false

/-!
# Model of /repo/src/gadgets/is_zero.rs and of /repo/src/constraint_builder/binary_column.rs
-/

namespace Mpt
variable {F : Type} [Field F]

/-- `BinaryColumn::configure`, /repo/src/constraint_builder/binary_column.rs:29-39. -/
def binaryColumn (c : AdvCol) : List (Cmd F) :=
  [.assert "binary column is 0 or 1" (Query.bor c.cur (Query.bnot c.cur))]

theorem binaryColumn_holds (c : AdvCol) (w : Witness F) (U : ℕ) (r : ℤ) :
    Cmd.HoldsL w U r (binaryColumn c) ↔ w.adv c r = 0 ∨ w.adv c r = 1 := by
  simp only [binaryColumn, Cmd.holdsL_cons, Cmd.holdsL_nil, and_true, Cmd.holds_assert,
    Query.eval_bor, Query.eval_bnot, AdvCol.eval_cur]
  rw [sub_eq_iff_eq_add, left_eq_add, sub_sub_cancel, mul_eq_zero]
  constructor
  · rintro (h | h)
    · exact .inr (sub_eq_zero.1 h).symm
    · exact .inl h
  · rintro (h | h)
    · exact .inr h
    · exact .inl (by rw [h, sub_self])

/-- `IsZeroGadget`, /repo/src/gadgets/is_zero.rs:7-11. -/
structure IsZeroGadget where
  value : AdvCol
  inverseOrZero : AdvCol

namespace IsZeroGadget

/-- `IsZeroGadget::current`, is_zero.rs:14-16. -/
def current (g : IsZeroGadget) : Query F := 1 - g.value.cur * g.inverseOrZero.cur
/-- `IsZeroGadget::previous`, is_zero.rs:18-20. -/
def previous (g : IsZeroGadget) : Query F := 1 - g.value.prev * g.inverseOrZero.prev

/-- `IsZeroGadget::configure`, is_zero.rs:51-70. -/
def configure (g : IsZeroGadget) : List (Cmd F) :=
  [ .assertZero "value is 0 or inverse_or_zero is inverse of value"
      (g.value.cur * (1 - g.value.cur * g.inverseOrZero.cur)),
    .assertZero "inverse_or_zero is 0 or inverse_or_zero is inverse of value"
      (g.inverseOrZero.cur * (1 - g.value.cur * g.inverseOrZero.cur)) ]

/-- What `IsZeroGadget::assign` writes to the `inverse_or_zero` column, is_zero.rs:22-36
(`Assigned::invert` maps 0 to 0, as does Mathlib's field inverse). -/
def assignInverse (value : F) : F := value⁻¹

theorem configure_holds (g : IsZeroGadget) (w : Witness F) (U : ℕ) (r : ℤ) :
    Cmd.HoldsL w U r g.configure ↔ w.adv g.inverseOrZero r = (w.adv g.value r)⁻¹ := by
  simp only [configure, Cmd.holdsL_cons, Cmd.holdsL_nil, and_true, Cmd.holds_assertZero,
    Query.eval_mul, Query.eval_sub, Query.eval_one, AdvCol.eval_cur, mul_eq_zero]
  constructor
  · rintro ⟨h1, h2⟩
    by_cases hv : w.adv g.value r = 0
    · rw [hv, inv_zero]
      rcases h2 with h | h
      · exact h
      · rw [hv] at h; simp at h
    · rcases h1 with h | h
      · exact absurd h hv
      · exact eq_inv_of_mul_eq_one_right (sub_eq_zero.1 h).symm
  · intro h
    rw [h]
    by_cases hv : w.adv g.value r = 0
    · simp [hv]
    · simp [mul_inv_cancel₀ hv]

theorem one_sub_mul_inv [DecidableEq F] (x : F) : 1 - x * x⁻¹ = if x = 0 then 1 else 0 := by
  split
  · simp [*]
  · rw [mul_inv_cancel₀ ‹_›, sub_self]

/-- Output of the gadget on a row on which its constraints hold. -/
theorem eval_current [DecidableEq F] (g : IsZeroGadget) (w : Witness F) (r : ℤ)
    (h : w.adv g.inverseOrZero r = (w.adv g.value r)⁻¹) :
    g.current.eval w r = if w.adv g.value r = 0 then 1 else 0 := by
  rw [← one_sub_mul_inv]
  simp [current, h]

theorem eval_previous [DecidableEq F] (g : IsZeroGadget) (w : Witness F) (r : ℤ)
    (h : w.adv g.inverseOrZero (r - 1) = (w.adv g.value (r - 1))⁻¹) :
    g.previous.eval w r = if w.adv g.value (r - 1) = 0 then 1 else 0 := by
  rw [← one_sub_mul_inv]
  simp [previous, h]

end IsZeroGadget
end Mpt
