import Verif.Spec.Agreement

set_option autoImplicit false

/-!
# Specification: claims that make the same change
-/

namespace Mpt.Spec
open Mpt Types Props

/-- The other of the two roots of a claim. -/
def Side.other : Side → Side
  | .old => .new
  | .new => .old

/-- The claims are about the same field or slot, start (`s = old`) from the same root, and set it to the same
value; for `s = new` they end with the same root and undo the setting from the same value. -/
structure StateClaim.SameChange (c : StateClaim) (s : Side) (d : StateClaim) : Prop where
  type : c.type = d.type
  address : c.address = d.address
  slot : c.type = .StorageChanged ∨ c.type = .StorageDoesNotExist → c.slot = d.slot
  root : c.root s = d.root s
  value : SameValue c.type (c.value s.other) (d.value s.other)

/-- The claims make the same change, but the roots on the other side differ. -/
structure StateClaim.Diverges (c : StateClaim) (s : Side) (d : StateClaim) : Prop where
  same : c.SameChange s d
  root : c.root s.other ≠ d.root s.other

end Mpt.Spec
