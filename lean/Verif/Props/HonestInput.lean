import Verif.Props.Trie
import Verif.Spec.Honest
import Verif.Spec.Tries
import Verif.Types.Proof

set_option autoImplicit false

/-!
# Specification: honest traces (C35)

Which JSON traces describe, truthfully, one of the updates the circuit supports. The conditions are on
the trace alone; nothing here mentions the rows or the columns of the circuit.
-/

namespace Mpt.Props
open Mpt Spec Types

/-- What stands at the end of a path: nothing, or a leaf with a key and data. -/
abbrev PathEnd := Option (Fr × Fr)

/-- The hash of the end of a path. -/
def endHash (H : HashFn) : PathEnd → Fr
  | none => 0
  | some (k, d) => H k d HashDomain.Leaf.toFr

/-- The leaf of a path of the trace. -/
def LeafDenotes : Option SMTNode → PathEnd → Prop
  | none, none => True
  | some n, some (k, d) => fr n.sibling = some k ∧ fr n.value = some d
  | _, _ => False

/-- The leaf is where its key leads: its key agrees with `key` on the first `n` bits. -/
def EndPlaced (key : Fr) (n : ℕ) (e : PathEnd) : Prop :=
  ∀ k d, e = some (k, d) → ∀ i < n, keyBit k i = keyBit key i

/-- Two paths of a trace are the paths of `key` in a trie with root `ro` and in the trie with root `rn`
that results from the change `c`; they end with `eo` and `en`. -/
structure HonestPaths (H : HashFn) (key : Fr) (c : Change) (old new : SMTPath) (po pn : List PathNode)
    (eo en : PathEnd) (ro rn : Fr) : Prop where
  nodesOld : List.Forall₂ Denotes old.path po
  nodesNew : List.Forall₂ Denotes new.path pn
  leafOld : LeafDenotes old.leaf eo
  leafNew : LeafDenotes new.leaf en
  rootOld : fr old.root = some ro
  rootNew : fr new.root = some rn
  depthOld : po.length ≤ 256
  depthNew : pn.length ≤ 256
  honest : LevelHonest H key c po pn (endHash H eo) (endHash H en) ro rn
  siblings : SameSiblings key 0 po pn
  bytes : ∀ p ∈ old.path.zip new.path, p.1.sibling = p.2.sibling
  placedOld : EndPlaced key po.length eo
  placedNew : EndPlaced key pn.length en

/-- The end of a path that shows that `key` is absent. -/
def AbsentEnd (H : HashFn) (key : Fr) (e : PathEnd) : Prop :=
  e = none ∨ ∃ k d, e = some (k, d) ∧ k ≠ key ∧ endHash H e ≠ 0

/-- The data in the leaf of an account of a trace with the given storage root. -/
def accountLeafData (H : HashFn) (a : AccountData) (root : Fr) : Fr :=
  Account.data H ⟨a.nonce, a.codeSize, a.balance, a.codeHash, (a.poseidonCodeHash : Fr), root⟩

/-- The leaf of an account. -/
def accountEnd (H : HashFn) (address : List ℕ) (a : AccountData) (root : Fr) : PathEnd :=
  some (accountKey H address, accountLeafData H a root)

/-- The numbers of an account are in range. -/
structure AccountOK (a : AccountData) : Prop where
  nonce : a.nonce < 2 ^ 64
  codeSize : a.codeSize < 2 ^ 64
  balance : a.balance < 2 ^ 248
  codeHash : a.codeHash < 2 ^ 256

/-- The leaf of a storage slot. -/
def slotEnd (H : HashFn) (slot value : ℕ) : PathEnd :=
  some (Account.wordHash H slot, Account.wordHash H value)

/-- The account part of a trace. -/
structure AccountPart (H : HashFn) (tr : SMTTrace) (c : Change) (po pn : List PathNode)
    (eo en : PathEnd) (ro rn : Fr) : Prop where
  address : IsBytes tr.address ∧ tr.address.length = 20
  key : fr tr.accountKey = some (accountKey H tr.address)
  paths : HonestPaths H (accountKey H tr.address) c tr.accountPath.1 tr.accountPath.2 po pn eo en ro rn

/-- No storage update in the trace. -/
def NoStateUpdate (tr : SMTTrace) : Prop :=
  tr.stateUpdate = none ∨ tr.stateUpdate = some (none, none)

/-- The claims about an absent account, and what the trace says about storage. -/
inductive AbsentClaim (H : HashFn) (tr : SMTTrace) : MPTProofType → Prop
  | field (t : MPTProofType) (ht : t ∈ [MPTProofType.NonceChanged, .BalanceChanged, .CodeHashExists,
        .CodeSizeExists, .AccountDoesNotExist]) (hs : NoStateUpdate tr) (r : List ℕ) (x : Fr)
      (hr : tr.commonStateRoot = some r) (hx : fr r = some x) : AbsentClaim H tr t
  | slot (k : List ℕ) (hs : NoStateUpdate tr) (hk : tr.stateKey = some k) (r : List ℕ) (x : Fr)
      (hr : tr.commonStateRoot = some r) (hx : fr r = some x) : AbsentClaim H tr .StorageDoesNotExist
  | slotRoot (o n : StateData) (hu : tr.stateUpdate = some (some o, some n)) (hkey : o.key = n.key)
      (ho : beVal o.value = 0) (hn : beVal n.value = 0) (r : List ℕ) (x : Fr)
      (hr : tr.commonStateRoot = some r) (hx : fr r = some x) : AbsentClaim H tr .StorageDoesNotExist
  | slotTrie (o n : StateData) (hu : tr.stateUpdate = some (some o, some n)) (hkey : o.key = n.key)
      (hb : beVal o.key < 2 ^ 256) (ho : beVal o.value = 0) (hn : beVal n.value = 0)
      (hr : tr.commonStateRoot = none) (k : List ℕ) (hk : tr.stateKey = some k)
      (hkh : fr k = some (Account.wordHash H (beVal o.key))) (zo zn : List ℕ)
      (hp : tr.statePath = (some ⟨zo, none, []⟩, some ⟨zn, none, []⟩)) (hzo : fr zo = some 0)
      (hzn : fr zn = some 0) : AbsentClaim H tr .StorageDoesNotExist

/-- One field of an existing account is changed (or read). -/
inductive FieldChange (H : HashFn) (o n : AccountData) : MPTProofType → Prop
  | nonce (h1 : o.codeSize = n.codeSize) (h2 : o.balance = n.balance) (h3 : o.codeHash = n.codeHash)
      (h4 : o.poseidonCodeHash = n.poseidonCodeHash) : FieldChange H o n .NonceChanged
  | codeSize (h1 : o.nonce = n.nonce) (h2 : o.balance = n.balance) (h3 : o.codeHash = n.codeHash)
      (h4 : o.poseidonCodeHash = n.poseidonCodeHash) : FieldChange H o n .CodeSizeExists
  | balance (h1 : o.nonce = n.nonce) (h2 : o.codeSize = n.codeSize) (h3 : o.codeHash = n.codeHash)
      (h4 : o.poseidonCodeHash = n.poseidonCodeHash) : FieldChange H o n .BalanceChanged
  | codeHash (h1 : o.nonce = n.nonce) (h2 : o.codeSize = n.codeSize) (h3 : o.balance = n.balance)
      (h4 : o.poseidonCodeHash = n.poseidonCodeHash)
      (hd : ∀ x ∈ [o.codeHash, n.codeHash], ∀ d ∈ [HashDomain.AccountFields, .Leaf],
        H ((x / 2 ^ 128 : ℕ) : Fr) ((x % 2 ^ 128 : ℕ) : Fr) d.toFr ≠ Account.wordHash H x) :
      FieldChange H o n .CodeHashExists
  | poseidon (h1 : o.nonce = n.nonce) (h2 : o.codeSize = n.codeSize) (h3 : o.balance = n.balance)
      (h4 : o.codeHash = n.codeHash) : FieldChange H o n .PoseidonCodeHashExists

/-- A change of a storage slot from `x` to `y` (0 = absent), with the ends of the two storage paths. -/
inductive SlotChange (H : HashFn) (slot : ℕ) : Change → ℕ → ℕ → PathEnd → PathEnd → Prop
  | change (x y : ℕ) (hx : x ≠ 0) (hy : y ≠ 0) (hx' : x < 2 ^ 256) (hy' : y < 2 ^ 256)
      (hxz : Account.wordHash H x ≠ Account.wordHash H 0) (hyz : Account.wordHash H y ≠ Account.wordHash H 0) :
      SlotChange H slot .same x y (slotEnd H slot x) (slotEnd H slot y)
  | insert (y : ℕ) (e : PathEnd) (hy : y ≠ 0) (hy' : y < 2 ^ 256)
      (hyz : Account.wordHash H y ≠ Account.wordHash H 0) (he : AbsentEnd H (Account.wordHash H slot) e)
      (hez : endHash H e ≠ Account.wordHash H 0) : SlotChange H slot .insert 0 y e (slotEnd H slot y)
  | delete (x : ℕ) (e : PathEnd) (hx : x ≠ 0) (hx' : x < 2 ^ 256)
      (hxz : Account.wordHash H x ≠ Account.wordHash H 0) (he : AbsentEnd H (Account.wordHash H slot) e)
      (hez : endHash H e ≠ Account.wordHash H 0) : SlotChange H slot .delete x 0 (slotEnd H slot x) e

/-- The storage part of a trace that changes or reads a slot of an existing account. -/
structure StoragePart (H : HashFn) (tr : SMTTrace) (c : Change) (o n : StateData) (old new : SMTPath)
    (po pn : List PathNode) (eo en : PathEnd) (so sn : Fr) : Prop where
  noRoot : tr.commonStateRoot = none
  update : tr.stateUpdate = some (some o, some n)
  slot : o.key = n.key
  range : beVal o.key < 2 ^ 256
  stateKey : ∃ k, tr.stateKey = some k ∧ fr k = some (Account.wordHash H (beVal o.key))
  state : tr.statePath = (some old, some new)
  paths : HonestPaths H (Account.wordHash H (beVal o.key)) c old new po pn eo en so sn

/-- **An honest trace** for a claim of type `t`. -/
inductive HonestTrace (H : HashFn) (t : MPTProofType) (tr : SMTTrace) : Prop
  /-- A claim about an account that does not exist. -/
  | absent (po : List PathNode) (e : PathEnd) (ro : Fr) (hA : AccountPart H tr .same po po e e ro ro)
      (hu : tr.accountUpdate = (none, none)) (he : AbsentEnd H (accountKey H tr.address) e)
      (hc : AbsentClaim H tr t)
  /-- The creation of an account by its first nonce. -/
  | newNonce (nonce : ℕ) (hn : 0 < nonce) (hn' : nonce < 2 ^ 64) (po pn : List PathNode) (e : PathEnd)
      (ro rn : Fr)
      (hA : AccountPart H tr .insert po pn e (accountEnd H tr.address ⟨nonce, 0, 0, 0, 0⟩ 0) ro rn)
      (hu : tr.accountUpdate = (none, some ⟨nonce, 0, 0, 0, 0⟩))
      (he : AbsentEnd H (accountKey H tr.address) e)
      (hne : endHash H (accountEnd H tr.address ⟨nonce, 0, 0, 0, 0⟩ 0) ≠ 0)
      (hs : NoStateUpdate tr) (r : List ℕ) (hr : tr.commonStateRoot = some r) (hx : fr r = some 0)
      (ht : t = .NonceChanged)
  /-- The creation of an account by its first balance. -/
  | newBalance (balance : ℕ) (hb : 0 < balance) (hb' : balance < 2 ^ 248) (po pn : List PathNode)
      (e : PathEnd) (ro rn : Fr)
      (hA : AccountPart H tr .insert po pn e (accountEnd H tr.address ⟨0, balance, 0, 0, 0⟩ 0) ro rn)
      (hu : tr.accountUpdate = (none, some ⟨0, balance, 0, 0, 0⟩))
      (he : AbsentEnd H (accountKey H tr.address) e)
      (hne : endHash H (accountEnd H tr.address ⟨0, balance, 0, 0, 0⟩ 0) ≠ 0)
      (hs : NoStateUpdate tr) (r : List ℕ) (hr : tr.commonStateRoot = some r) (hx : fr r = some 0)
      (ht : t = .BalanceChanged)
  /-- A change of one field of an account. -/
  | field (o n : AccountData) (x : Fr) (po pn : List PathNode) (ro rn : Fr)
      (hA : AccountPart H tr .same po pn (accountEnd H tr.address o x) (accountEnd H tr.address n x) ro rn)
      (hu : tr.accountUpdate = (some o, some n)) (ho : AccountOK o) (hn : AccountOK n)
      (hoe : endHash H (accountEnd H tr.address o x) ≠ 0)
      (hne : endHash H (accountEnd H tr.address n x) ≠ 0)
      (hs : NoStateUpdate tr) (r : List ℕ) (hr : tr.commonStateRoot = some r) (hx : fr r = some x)
      (hc : FieldChange H o n t)
  /-- A change, insertion or deletion of a storage slot. -/
  | slot (a : AccountData) (o n : StateData) (c : Change) (old new : SMTPath) (so sn : Fr)
      (qo qn : List PathNode) (eo en : PathEnd) (po pn : List PathNode) (ro rn : Fr)
      (hA : AccountPart H tr .same po pn (accountEnd H tr.address a so) (accountEnd H tr.address a sn) ro rn)
      (hu : tr.accountUpdate = (some a, some a)) (ho : AccountOK a)
      (hoe : endHash H (accountEnd H tr.address a so) ≠ 0)
      (hne : endHash H (accountEnd H tr.address a sn) ≠ 0)
      (hS : StoragePart H tr c o n old new qo qn eo en so sn)
      (hc : SlotChange H (beVal o.key) c (beVal o.value) (beVal n.value) eo en)
      (ht : t = .StorageChanged)
  /-- A claim that a slot of an existing account is empty. -/
  | slotEmpty (a : AccountData) (o n : StateData) (old new : SMTPath) (so : Fr)
      (qo : List PathNode) (e : PathEnd) (po : List PathNode) (ro : Fr)
      (hA : AccountPart H tr .same po po (accountEnd H tr.address a so) (accountEnd H tr.address a so) ro ro)
      (hu : tr.accountUpdate = (some a, some a)) (ho : AccountOK a)
      (hoe : endHash H (accountEnd H tr.address a so) ≠ 0)
      (hS : StoragePart H tr .same o n old new qo qo e e so so)
      (hv : beVal o.value = 0 ∧ beVal n.value = 0)
      (he : AbsentEnd H (Account.wordHash H (beVal o.key)) e)
      (ht : t = .StorageDoesNotExist)

end Mpt.Props
