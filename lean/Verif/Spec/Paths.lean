import Verif.Spec.Openings

set_option autoImplicit false

/-!
# Specification: node paths of a trie (for the trace-level properties)
-/

namespace Mpt.Spec
open Mpt (Fr HashFn HashDomain)

/-- One internal node on the path of a key: the hash of the child on the path, the hash of the other
child, and the domain the node is hashed with. -/
structure PathNode where
  child : Fr
  sibling : Fr
  domain : HashDomain

/-- Hash of an internal node whose child in direction `bit` is on the path. -/
def PathNode.hash (H : HashFn) (bit : Bool) (n : PathNode) : Fr :=
  if bit then H n.sibling n.child n.domain.toFr else H n.child n.sibling n.domain.toFr

/-- From depth `i` on, `top` is the hash of the first node, the child of each node is the hash of the
next, and the child of the last node is `bottom`. -/
def PathOK (H : HashFn) (key : Fr) : ℕ → List PathNode → Fr → Fr → Prop
  | _, [], bottom, top => top = bottom
  | i, n :: ns, bottom, top =>
    top = n.hash H (keyBit key i) ∧ PathOK H key (i + 1) ns bottom n.child

/-- Does the domain say that the child in direction `bit` is itself a branch node? -/
def childIsBranch (d : HashDomain) (bit : Bool) : Bool :=
  match d with
  | .Branch3 => true
  | .Branch1 => bit
  | .Branch2 => !bit
  | _ => false

/-- One of the four branch domains. -/
def branchDomain (d : HashDomain) : Prop :=
  d = .Branch0 ∨ d = .Branch1 ∨ d = .Branch2 ∨ d = .Branch3

/-- The domains are those of internal nodes and tell the truth about the child on the path: it is a
branch node exactly when the path goes on. -/
def Truthful (key : Fr) : ℕ → List PathNode → Prop
  | _, [] => True
  | i, n :: ns => branchDomain n.domain ∧
      (childIsBranch n.domain (keyBit key i) = true ↔ ns ≠ []) ∧ Truthful key (i + 1) ns

/-- The two paths have the same siblings on their common levels, and the domains agree about them. -/
def SameSiblings (key : Fr) : ℕ → List PathNode → List PathNode → Prop
  | i, a :: as, b :: bs => a.sibling = b.sibling ∧
      childIsBranch a.domain (!keyBit key i) = childIsBranch b.domain (!keyBit key i) ∧
      SameSiblings key (i + 1) as bs
  | _, _, _ => True

end Mpt.Spec
