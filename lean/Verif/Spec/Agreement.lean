import Verif.Spec.StateClaims

set_option autoImplicit false

/-!
# Specification: claims that contradict each other

A claim talks about two roots. Two claims, which may come from different circuits, contradict each other if they
talk about one root and ascribe to it different values of the same field or slot.
-/

namespace Mpt.Spec
open Mpt Types Props

/-- The two roots a claim talks about. -/
inductive Side
  | old
  | new
  deriving DecidableEq

/-- The one of two things that belongs to the side. -/
def Side.pick {α : Type} : Side → α → α → α
  | .old, a, _ => a
  | .new, _, b => b

/-- The root before or after. -/
def StateClaim.root (c : StateClaim) (s : Side) : Fr := s.pick c.oldRoot c.newRoot

/-- The value before or after. -/
def StateClaim.value (c : StateClaim) (s : Side) : ℕ := s.pick c.oldValue c.newValue

/-- On the side `s` the claim ascribes the value `v` to the field of the account that claims of the type `t` are
about, or to the slot `slot`. A claim that the account does not exist ascribes 0 to all its fields and slots. -/
def StateClaim.Ascribes (c : StateClaim) (s : Side) (t : MPTProofType) (slot v : ℕ) : Prop :=
  (c.type = t ∧ (t = .StorageChanged → c.slot = slot) ∧ v = c.value s) ∨
  (c.type = .AccountDoesNotExist ∧ v = 0) ∨
  (c.type = .StorageDoesNotExist ∧ t = .StorageChanged ∧ c.slot = slot ∧ v = 0)

/-- The claims ascribe different values of the same field, of the same account, to the same root. -/
structure StateClaim.Contradicts (c : StateClaim) (s : Side) (d : StateClaim) (s' : Side) : Prop where
  address : c.address = d.address
  root : c.root s = d.root s'
  value : ∃ t slot v v', c.Ascribes s t slot v ∧ d.Ascribes s' t slot v' ∧ ¬ SameValue t v v'

/-- The claim says that the field is there, on this side: the value is not 0. If it is about a slot, neither
value is 0, so the slot is there on both sides. -/
structure StateClaim.Definite (c : StateClaim) (s : Side) : Prop where
  value : ¬ SameValue c.type (c.value s) 0
  slot : c.type = .StorageChanged → c.oldValue ≠ 0 ∧ c.newValue ≠ 0

end Mpt.Spec
