import Verif.Props.Operations

set_option autoImplicit false

/-!
# Specification: claims about states, and histories

A claim as another circuit means it, with the roots and words themselves instead of their random linear
combinations; when it is true of a state; how it is looked up once the challenge is known.
-/

namespace Mpt.Spec
open Mpt Types Props

/-- A claim: the value of a field of the account at `address`, or of its slot `slot`, is `oldValue` in the
state with the root `oldRoot`, and changing it to `newValue` leads to the root `newRoot`. -/
structure StateClaim where
  type : MPTProofType
  address : List ℕ
  slot : ℕ
  oldRoot : Fr
  newRoot : Fr
  oldValue : ℕ
  newValue : ℕ

/-- The range of the values of claims of a type. -/
def ValueFits (t : MPTProofType) (x : ℕ) : Prop :=
  match t with
  | .NonceChanged | .CodeSizeExists => x < 2 ^ 64
  | .PoseidonCodeHashExists => True
  | .BalanceChanged | .CodeHashExists | .StorageChanged => x < 2 ^ 256
  | .AccountDoesNotExist | .StorageDoesNotExist | .AccountDestructed => x = 0

/-- The address has 20 bytes, the numbers are in range. -/
structure StateClaim.Fits (c : StateClaim) : Prop where
  address : IsBytes c.address ∧ c.address.length = 20
  slot : c.slot < 2 ^ 256
  oldValue : ValueFits c.type c.oldValue
  newValue : ValueFits c.type c.newValue

/-- The tuple that is looked up for the claim, for the challenge `ρ`. -/
def StateClaim.tuple (c : StateClaim) (ρ : Fr) : List Fr :=
  [1, (beVal c.address : Fr), rlc ρ (beBytes 32 c.slot), (c.type.toNat : Fr), rootRlc ρ c.newRoot,
    rootRlc ρ c.oldRoot, valueCode ρ c.type c.newValue, valueCode ρ c.type c.oldValue]

/-- Two values of claims of a type are the same; Poseidon code hashes are field elements. -/
def SameValue (t : MPTProofType) (x y : ℕ) : Prop :=
  x = y ∨ (t = .PoseidonCodeHashExists ∧ (x : Fr) = (y : Fr))

/-- The claim is true of the state `W`, and describes the operation `op` that leads to the state `W'`. -/
structure StateClaim.StepBy (c : StateClaim) (H : HashFn) (op : Op) (W W' : World) : Prop where
  address : op.address = c.address
  type : op.type = c.type
  slot : c.type = .StorageChanged ∨ c.type = .StorageDoesNotExist → op.slot = c.slot
  apply : op.apply H W = some W'
  oldRoot : c.oldRoot = W.trie.hash H
  newRoot : c.newRoot = W'.trie.hash H
  oldValue : SameValue c.type c.oldValue (opValue H op W)
  newValue : SameValue c.type c.newValue (opValue H op W')

/-- The claim is true of the state `W` and leads to `W'`. -/
def StateClaim.Step (c : StateClaim) (H : HashFn) (W W' : World) : Prop := ∃ op, c.StepBy H op W W'

/-- The claims are a history of the state `W`: each is true of the state the previous one led to. -/
def History (H : HashFn) : World → List StateClaim → Prop
  | _, [] => True
  | W, c :: cs => ∃ W', c.Step H W W' ∧ History H W' cs

/-- Each claim starts with the root the previous one ended with; the first one starts with `r`. -/
def Linked (r : Fr) : List StateClaim → Prop
  | [] => True
  | c :: cs => c.oldRoot = r ∧ Linked c.newRoot cs

/-- The claims that the circuit decides, in the state `W`: that an account does not exist; reads of absent
accounts; claims about accounts that exist, where a storage write overwrites a slot that exists by a value
other than 0. (Other claims: findings B3 to B9.) -/
def StateClaim.Decided (c : StateClaim) (H : HashFn) (W : World) : Prop :=
  c.type = .AccountDoesNotExist ∨
  (W.accounts (accountKey H c.address) = none ∧ c.type ∈ Op.absentTypes ∧ c.oldRoot = c.newRoot ∧
    c.oldValue = 0 ∧ c.newValue = 0) ∨
  ∃ a, W.accounts (accountKey H c.address) = some a ∧
    (c.type = .StorageChanged → c.newValue ≠ 0 ∧ a.slots (Account.wordHash H c.slot) ≠ 0)

end Mpt.Spec
