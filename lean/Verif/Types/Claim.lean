import Verif.Types.Trie

set_option autoImplicit false

/-!
# Model of the traces of /repo/src/serde.rs and of the claims of /repo/src/types.rs

`none` is a panic.
-/

namespace Mpt.Types
open Mpt Spec

/-- `SMTPath`, /repo/src/serde.rs:275-287 (`path_part` is never read and left out). -/
structure SMTPath where
  root : List ℕ
  leaf : Option SMTNode
  path : List SMTNode

/-- `AccountData`, /repo/src/serde.rs:290-316. `nonce` and `code_size` are `u64`, the rest are
unbounded integers. -/
structure AccountData where
  nonce : ℕ
  balance : ℕ
  codeHash : ℕ
  poseidonCodeHash : ℕ
  codeSize : ℕ
  deriving DecidableEq, Repr

/-- `AccountData::default()`, derived, /repo/src/serde.rs:289. -/
def AccountData.default : AccountData := ⟨0, 0, 0, 0, 0⟩

/-- `StateData`, /repo/src/serde.rs:318-325. -/
structure StateData where
  key : List ℕ
  value : List ℕ
  deriving DecidableEq, Repr

/-- `SMTTrace`, /repo/src/serde.rs:327-350; the two-element arrays are pairs (old, new). -/
structure SMTTrace where
  address : List ℕ
  accountKey : List ℕ
  accountPath : SMTPath × SMTPath
  accountUpdate : Option AccountData × Option AccountData
  statePath : Option SMTPath × Option SMTPath
  commonStateRoot : Option (List ℕ)
  stateKey : Option (List ℕ)
  stateUpdate : Option (Option StateData × Option StateData)

/-- `ClaimKind`, /repo/src/types.rs:83-112. -/
inductive ClaimKind
  | Nonce (old new : Option ℕ)
  | Balance (old new : Option ℕ)
  | CodeHash (old new : Option ℕ)
  | CodeSize (old new : Option ℕ)
  | PoseidonCodeHash (old new : Option Fr)
  | Storage (key : ℕ) (oldValue newValue : Option ℕ)
  | IsEmpty (key : Option ℕ)

/-- `Claim`, /repo/src/types.rs:75-81. -/
structure Claim where
  oldRoot : Fr
  newRoot : Fr
  address : List ℕ
  kind : ClaimKind

/-- `impl From<ClaimKind> for MPTProofType`, /repo/src/mpt_table.rs:36-49. -/
def ClaimKind.proofType : ClaimKind → MPTProofType
  | .Nonce _ _ => .NonceChanged
  | .Balance _ _ => .BalanceChanged
  | .PoseidonCodeHash _ _ => .PoseidonCodeHashExists
  | .CodeHash _ _ => .CodeHashExists
  | .CodeSize _ _ => .CodeSizeExists
  | .Storage _ _ _ => .StorageChanged
  | .IsEmpty none => .AccountDoesNotExist
  | .IsEmpty (some _) => .StorageDoesNotExist

/-- `Claim::storage_key`, /repo/src/types.rs:115-120. -/
def Claim.storageKey (c : Claim) : ℕ :=
  match c.kind with
  | .Storage key _ _ => key
  | .IsEmpty (some key) => key
  | _ => 0

/-- `Claim::old_value_assignment`, /repo/src/types.rs:122-137. -/
def Claim.oldValueAssignment (c : Claim) (ρ : Fr) : Fr :=
  match c.kind with
  | .Nonce old _ => ((old.getD 0 : ℕ) : Fr)
  | .CodeSize old _ => ((old.getD 0 : ℕ) : Fr)
  | .PoseidonCodeHash old _ => old.getD 0
  | .Balance old _ => rlcFold (u256ToBigEndian (old.getD 0)) ρ
  | .CodeHash old _ => rlcFold (u256ToBigEndian (old.getD 0)) ρ
  | .Storage _ old _ => rlcFold (u256ToBigEndian (old.getD 0)) ρ
  | .IsEmpty _ => 0

/-- `Claim::new_value_assignment`, /repo/src/types.rs:139-154. -/
def Claim.newValueAssignment (c : Claim) (ρ : Fr) : Fr :=
  match c.kind with
  | .Nonce _ new => ((new.getD 0 : ℕ) : Fr)
  | .CodeSize _ new => ((new.getD 0 : ℕ) : Fr)
  | .PoseidonCodeHash _ new => new.getD 0
  | .Balance _ new => rlcFold (u256ToBigEndian (new.getD 0)) ρ
  | .CodeHash _ new => rlcFold (u256ToBigEndian (new.getD 0)) ρ
  | .Storage _ _ new => rlcFold (u256ToBigEndian (new.getD 0)) ρ
  | .IsEmpty _ => 0

/-- The `[Some(old), Some(new)]` arm for storage updates, /repo/src/types.rs:265-297. -/
def storageKind (accountOld accountNew : Option AccountData) (old new : StateData) :
    Option ClaimKind :=
  if accountOld = accountNew ∨ (accountOld = none ∧ accountNew = some AccountData.default) then
    if old.key = new.key then
      let oldValue := u256FromHex old.value
      let newValue := u256FromHex new.value
      let key := u256FromHex old.key
      if oldValue = 0 ∧ newValue = 0 then some (.IsEmpty (some key))
      else some (.Storage key (if oldValue = 0 then none else some oldValue)
        (if newValue = 0 then none else some newValue))
    else none
  else none

/-- The `match &trace.account_update` of `ClaimKind::from`, /repo/src/types.rs:302-402. -/
def accountKind (proofType : MPTProofType) (trace : SMTTrace) : Option ClaimKind :=
  match trace.accountUpdate with
  | (none, none) =>
    match proofType with
    | .NonceChanged => some (.Nonce (some 0) (some 0))
    | .BalanceChanged => some (.Balance (some 0) (some 0))
    | .AccountDoesNotExist => some (.IsEmpty none)
    | .CodeHashExists => some (.CodeHash (some 0) (some 0))
    | .CodeSizeExists => some (.CodeSize (some 0) (some 0))
    | .StorageDoesNotExist => trace.stateKey.map fun k => .IsEmpty (some (u256FromHex k))
    | .PoseidonCodeHashExists => none
    | .StorageChanged => none
    | .AccountDestructed => none
  | (none, some new) =>
    if new.nonce ≠ 0 then
      if proofType = .NonceChanged then some (.Nonce none (some new.nonce)) else none
    else if new.balance ≠ 0 then
      if proofType = .BalanceChanged then
        (u256FromBiguint new.balance).map fun b => .Balance none (some b)
      else none
    else none
  | (some old, some new) =>
    match proofType with
    | .NonceChanged =>
      if old.balance = new.balance ∧ old.codeSize = new.codeSize ∧ old.codeHash = new.codeHash ∧
        old.poseidonCodeHash = new.poseidonCodeHash then
        some (.Nonce (some old.nonce) (some new.nonce))
      else none
    | .BalanceChanged =>
      if old.nonce = new.nonce ∧ old.codeSize = new.codeSize ∧ old.codeHash = new.codeHash ∧
        old.poseidonCodeHash = new.poseidonCodeHash then do
        let a ← u256FromBiguint old.balance
        let b ← u256FromBiguint new.balance
        pure (.Balance (some a) (some b))
      else none
    | .CodeHashExists =>
      if old.nonce = new.nonce ∧ old.balance = new.balance ∧ old.codeSize = new.codeSize ∧
        old.poseidonCodeHash = new.poseidonCodeHash then do
        let a ← u256FromBiguint old.codeHash
        let b ← u256FromBiguint new.codeHash
        pure (.CodeHash (some a) (some b))
      else none
    | .CodeSizeExists =>
      if old.nonce = new.nonce ∧ old.balance = new.balance ∧ old.codeHash = new.codeHash ∧
        old.poseidonCodeHash = new.poseidonCodeHash then
        some (.CodeSize (some old.codeSize) (some new.codeSize))
      else none
    | .PoseidonCodeHashExists =>
      if old.nonce = new.nonce ∧ old.balance = new.balance ∧ old.codeSize = new.codeSize ∧
        old.codeHash = new.codeHash then
        some (.PoseidonCodeHash (some (frFromBiguint old.poseidonCodeHash))
          (some (frFromBiguint new.poseidonCodeHash)))
      else none
    | .AccountDoesNotExist => none
    | .StorageChanged => none
    | .StorageDoesNotExist => none
    | .AccountDestructed => none
  | (some _, none) => none

/-- `ClaimKind::from`, /repo/src/types.rs:257-404. -/
def claimKindFrom (proofType : MPTProofType) (trace : SMTTrace) : Option ClaimKind :=
  match trace.stateUpdate with
  | some (some old, some new) => storageKind trace.accountUpdate.1 trace.accountUpdate.2 old new
  | some (none, some _) => none
  | some (some _, none) => none
  | some (none, none) => accountKind proofType trace
  | none => accountKind proofType trace

/-- `Claim::from`, /repo/src/types.rs:242-255. -/
def claimFrom (proofType : MPTProofType) (trace : SMTTrace) : Option Claim := do
  let oldRoot ← fr trace.accountPath.1.root
  let newRoot ← fr trace.accountPath.2.root
  let kind ← claimKindFrom proofType trace
  if kind.proofType = proofType then some ⟨oldRoot, newRoot, trace.address, kind⟩ else none

end Mpt.Types
