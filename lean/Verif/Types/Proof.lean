import Verif.Types.Storage

set_option autoImplicit false

/-!
# Model of `Proof` in /repo/src/types.rs

`none` is a panic. Fields that are only read by test code (`leafs`, the two padding flags) are kept
where non-test code reads them.
-/

namespace Mpt.Types
open Mpt Spec

/-- `LeafNode`, /repo/src/types.rs:157-161. -/
structure LeafNode where
  key : Fr
  valueHash : Fr

/-- `EthAccount`, /repo/src/types.rs:187-194. -/
structure EthAccount where
  nonce : ℕ
  codeSize : ℕ
  balance : Fr
  keccakCodehash : ℕ
  storageRoot : Fr

/-- `impl From<AccountData> for EthAccount`, /repo/src/types.rs:196-206, with the storage root filled
in afterwards as in lines 457-472. -/
def ethAccountFrom (a : AccountData) (storageRoot : Fr) : Option EthAccount := do
  let h ← u256FromBiguint a.codeHash
  pure ⟨a.nonce, a.codeSize, frFromBiguint a.balance, h, storageRoot⟩

/-- `Path`, /repo/src/types.rs:227-231. -/
structure Path where
  key : Fr
  leafDataHash : Option Fr

/-- `Path::hash`, /repo/src/types.rs:233-240. -/
def Path.hash (H : HashFn) (p : Path) : Fr :=
  match p.leafDataHash with
  | none => 0
  | some d => domainHash H p.key d .Leaf

/-- One entry of `address_hash_traces`, /repo/src/types.rs:166-167. -/
structure HashRow where
  direction : Bool
  domain : HashDomain
  open_ : Fr
  close : Fr
  sibling : Fr
  paddingOpen : Bool
  paddingClose : Bool

/-- A hash triple `[left, right, hash]`. /repo/src/types.rs:508. -/
abbrev Triple := Fr × Fr × Fr

/-- The `[[Fr; 3]; 6]` of `account_hash_traces`, by row. /repo/src/types.rs:508. -/
structure AccountTraces where
  t0 : Triple
  t1 : Triple
  t2 : Triple
  t3 : Triple
  t4 : Triple
  t5 : Triple

/-- `account_hash_traces`, /repo/src/types.rs:508-537. -/
def accountHashTraces (H : HashFn) (address : List ℕ) (account : AccountData) (storageRoot : Fr) :
    AccountTraces :=
  let c := hiLo account.codeHash
  let h1 := domainHash H c.1 c.2 .Pair
  let h2 := domainHash H storageRoot h1 .AccountFields
  let nonceAndCodesize : Fr := ((account.nonce : ℕ) : Fr) +
    ((account.codeSize : ℕ) : Fr) * (((2 ^ 32 : ℕ) : Fr) * ((2 ^ 32 : ℕ) : Fr))
  let balance := frFromBiguint account.balance
  let h3 := domainHash H nonceAndCodesize balance .AccountFields
  let h4 := domainHash H h3 h2 .AccountFields
  let key := accountKey H address
  let pch := frFromBiguint account.poseidonCodeHash
  let accountHash := domainHash H h4 pch .AccountFields
  ⟨(c.1, c.2, h1), (storageRoot, h1, h2), (nonceAndCodesize, balance, h3), (h3, h2, h4),
    (h4, pch, accountHash), (key, accountHash, domainHash H key accountHash .Leaf)⟩

/-- `empty_account_hash_traces`, /repo/src/types.rs:612-622. -/
def emptyAccountHashTraces (H : HashFn) (leaf : Option LeafNode) : AccountTraces :=
  ⟨(0, 0, 0), (0, 0, 0), (0, 0, 0), (0, 0, 0), (0, 0, 0),
    match leaf with
    | none => (0, 0, 0)
    | some l => (l.key, l.valueHash, domainHash H l.key l.valueHash .Leaf)⟩

/-- `get_leaf`, /repo/src/types.rs:493-498. -/
def getLeaf (path : SMTPath) : Option (Option LeafNode) :=
  match path.leaf with
  | none => some none
  | some l => do
    let k ← fr l.sibling
    let v ← fr l.value
    pure (some ⟨k, v⟩)

/-- `leaf_hash`, /repo/src/types.rs:500-506. -/
def pathLeafHash (H : HashFn) (path : SMTPath) : Option Fr :=
  match path.leaf with
  | none => some 0
  | some l => trieLeafHash H l

/-- The loop of `get_internal_hash_traces`, /repo/src/types.rs:545-608, from index `i` on; `lo`, `ln`
are the lengths of the two paths. -/
def internalFrom (key : Fr) (oldLeafHash newLeafHash : Fr) (lo ln : ℕ) :
    ℕ → List SMTNode → List SMTNode → Option (List HashRow)
  | _, [], [] => some []
  | i, old :: olds, new :: news => do
    let direction ← bit true key i
    let row ← if old.sibling = new.sibling then do
        let od ← HashDomain.ofNat? old.nodeType
        let nd ← HashDomain.ofNat? new.nodeType
        let d ← commonDomain lo ln i direction od nd
        let o ← fr old.value
        let n ← fr new.value
        let s ← fr old.sibling
        some (HashRow.mk direction d o n s false false)
      else none
    let rest ← internalFrom key oldLeafHash newLeafHash lo ln (i + 1) olds news
    pure (row :: rest)
  | i, old :: olds, [] => do
    let direction ← bit true key i
    let d ← HashDomain.ofNat? old.nodeType
    let o ← fr old.value
    let s ← fr old.sibling
    let rest ← internalFrom key oldLeafHash newLeafHash lo ln (i + 1) olds []
    pure (HashRow.mk direction d o newLeafHash s false true :: rest)
  | i, [], new :: news => do
    let direction ← bit true key i
    let d ← HashDomain.ofNat? new.nodeType
    let n ← fr new.value
    let s ← fr new.sibling
    let rest ← internalFrom key oldLeafHash newLeafHash lo ln (i + 1) [] news
    pure (HashRow.mk direction d oldLeafHash n s true false :: rest)

/-- `get_internal_hash_traces`, /repo/src/types.rs:539-610 (leaf to root). -/
def getInternalHashTraces (key : Fr) (oldLeafHash newLeafHash : Fr) (olds news : List SMTNode) :
    Option (List HashRow) :=
  (internalFrom key oldLeafHash newLeafHash olds.length news.length 0 olds news).map List.reverse

/-- Path type of a `HashRow`, /repo/src/types.rs:893-898. -/
def HashRow.pathType (r : HashRow) : Option PathType :=
  match r.paddingOpen, r.paddingClose with
  | false, false => some .Common
  | false, true => some .ExtensionOld
  | true, false => some .ExtensionNew
  | true, true => none

/-- The hash of a level, left and right ordered by the direction, /repo/src/types.rs:882-961. -/
def HashRow.hash (H : HashFn) (r : HashRow) (child : Fr) (d : HashDomain) : Fr :=
  if r.direction then domainHash H r.sibling child d else domainHash H child r.sibling d

/-- The body of the loop of `check_hash_traces_new`, /repo/src/types.rs:893-958: the path type of the
row, or `none` if an assertion fails. -/
def checkHashRow (H : HashFn) (prev : Option PathType) (r next : HashRow) : Option PathType := do
  let t ← r.pathType
  match t with
  | .Start => none
  | .Common => do
    let d ← match prev with
      | some .ExtensionOld => none
      | some .ExtensionNew => (nextDomain r.domain r.direction).map fun x => (r.domain, x)
      | _ => some (r.domain, r.domain)
    if r.hash H r.open_ d.1 = next.open_ ∧ r.hash H r.close d.2 = next.close then some t else none
  | .ExtensionOld =>
    if (prev = none ∨ prev = some .ExtensionOld) ∧ r.hash H r.open_ r.domain = next.open_ then some t
    else none
  | .ExtensionNew =>
    if (prev = none ∨ prev = some .ExtensionNew) ∧ r.hash H r.close r.domain = next.close then some t
    else none

/-- `check_hash_traces_new`, /repo/src/types.rs:882-961: every row but the last is compared with the
next one. -/
def checkHashTracesNew (H : HashFn) : Option PathType → List HashRow → Option Unit
  | prev, r :: next :: rest => do
    let t ← checkHashRow H prev r next
    checkHashTracesNew H (some t) (next :: rest)
  | _, _ => some ()

/-- `Proof`, /repo/src/types.rs:163-184. -/
structure Proof where
  claim : Claim
  addressHashTraces : List HashRow
  leafs : Option LeafNode × Option LeafNode
  oldTraces : AccountTraces
  newTraces : AccountTraces
  storage : StorageProof
  old : Path
  new : Path
  oldAccount : Option EthAccount
  newAccount : Option EthAccount
  accountTrieRows : List TrieRow

/-- The `Path` of one side, /repo/src/types.rs:440-455. -/
def pathFrom (H : HashFn) (address : List ℕ) (path : SMTPath) : Option Path :=
  match path.leaf with
  | none => some ⟨accountKey H address, none⟩
  | some l => do
    let k ← fr l.sibling
    let v ← fr l.value
    pure ⟨k, some v⟩

/-- The account hash traces of one side, /repo/src/types.rs:429-436. -/
def sideTraces (H : HashFn) (address : List ℕ) (account : Option AccountData) (leaf : Option LeafNode)
    (storageRoot : Fr) : AccountTraces :=
  match account with
  | none => emptyAccountHashTraces H leaf
  | some a => accountHashTraces H address a storageRoot

/-- The `EthAccount` of one side, /repo/src/types.rs:457-472. -/
def sideAccount (account : Option AccountData) (storageRoot : Fr) : Option (Option EthAccount) :=
  match account with
  | none => some none
  | some a => (ethAccountFrom a storageRoot).map some

/-- `impl From<(MPTProofType, SMTTrace)> for Proof`, /repo/src/types.rs:406-490. The storage roots are
always computed in the model, in the code only for an existing account; by `storageProofFrom` they
never panic for an accepted storage proof. -/
def proofFrom (H : HashFn) (proofType : MPTProofType) (trace : SMTTrace) : Option Proof := do
  let claim ← claimFrom proofType trace
  let storage ← storageProofFrom H trace
  let key := accountKey H claim.address
  let traceKey ← fr trace.accountKey
  if key = traceKey then do
    let rows ← trieRowsNew H key trace.accountPath.1.path trace.accountPath.2.path
      trace.accountPath.1.leaf trace.accountPath.2.leaf
    let leaf0 ← getLeaf trace.accountPath.1
    let leaf1 ← getLeaf trace.accountPath.2
    let lh0 ← pathLeafHash H trace.accountPath.1
    let lh1 ← pathLeafHash H trace.accountPath.2
    let traces ← getInternalHashTraces key lh0 lh1 trace.accountPath.1.path trace.accountPath.2.path
    let _ ← checkHashTracesNew H none traces
    let sr0 ← storage.oldRoot H
    let sr1 ← storage.newRoot H
    let t0 := sideTraces H claim.address trace.accountUpdate.1 leaf0 sr0
    let t1 := sideTraces H claim.address trace.accountUpdate.2 leaf1 sr1
    if t0.t5.2.2 = lh0 ∧ t1.t5.2.2 = lh1 then do
      let old ← pathFrom H claim.address trace.accountPath.1
      let new ← pathFrom H claim.address trace.accountPath.2
      let a0 ← sideAccount trace.accountUpdate.1 sr0
      let a1 ← sideAccount trace.accountUpdate.2 sr1
      pure ⟨claim, traces, (leaf0, leaf1), t0, t1, storage, old, new, a0, a1, rows⟩
    else none
  else none

/-- `Proof::n_rows`, /repo/src/types.rs:208-225. -/
def Proof.nRows (p : Proof) : ℕ :=
  if p.oldAccount.isNone && p.newAccount.isNone then 1 + p.addressHashTraces.length
  else 1 + p.addressHashTraces.length +
    (match p.claim.kind with
      | .Nonce _ _ => 4
      | .CodeSize _ _ => 4
      | .Balance _ _ => 4
      | .PoseidonCodeHash _ _ => 2
      | .CodeHash _ _ => 4
      | .Storage _ _ _ => 4
      | .IsEmpty (some _) => 4
      | .IsEmpty none => 0) + p.storage.nRows

/-- The leaf hashes of one side: `old_account_leaf_hashes` (with `old = true`),
/repo/src/types.rs:625-667, and `new_account_leaf_hashes`, /repo/src/types.rs:669-710. -/
def leafHashesOf (kind : ClaimKind) (t : AccountTraces) : List Fr :=
  match kind with
  | .Nonce _ _ => [t.t5.2.1, t.t4.1, t.t3.1, t.t2.1]
  | .CodeSize _ _ => [t.t5.2.1, t.t4.1, t.t3.1, t.t2.1]
  | .Balance _ _ => [t.t5.2.1, t.t4.1, t.t3.1, t.t2.2.1]
  | .PoseidonCodeHash _ _ => [t.t5.2.1, t.t4.2.1]
  | .CodeHash _ _ => [t.t5.2.1, t.t4.1, t.t1.2.2, t.t0.2.2]
  | .Storage _ _ _ => [t.t5.2.1, t.t4.1, t.t1.2.2, t.t1.1]
  | .IsEmpty (some _) => [t.t5.2.1, t.t4.1, t.t1.2.2, t.t1.1]
  | .IsEmpty none => [t.t5.2.1]

/-- `Proof::old_account_leaf_hashes`, /repo/src/types.rs:625-667. -/
def Proof.oldAccountLeafHashes (p : Proof) : Option (List Fr) :=
  let present := match p.claim.kind with
    | .Nonce old _ => old.isSome
    | .CodeSize old _ => old.isSome
    | .Balance old _ => old.isSome
    | .PoseidonCodeHash old _ => old.isSome
    | .CodeHash old _ => old.isSome
    | .Storage _ _ _ => p.oldAccount.isSome
    | .IsEmpty (some _) => p.oldAccount.isSome
    | .IsEmpty none => p.leafs.1.isSome
  if present then some (leafHashesOf p.claim.kind p.oldTraces) else none

/-- `Proof::new_account_leaf_hashes`, /repo/src/types.rs:669-710. -/
def Proof.newAccountLeafHashes (p : Proof) : Option (List Fr) :=
  let present := match p.claim.kind with
    | .Nonce _ new => new.isSome
    | .CodeSize _ new => new.isSome
    | .Balance _ new => new.isSome
    | .PoseidonCodeHash _ new => new.isSome
    | .CodeHash _ new => new.isSome
    | .Storage _ _ _ => true
    | .IsEmpty (some _) => true
    | .IsEmpty none => p.leafs.2.isSome
  if present then some (leafHashesOf p.claim.kind p.newTraces) else none

/-- Which side's traces supply the siblings, /repo/src/types.rs:716-720 and the same lines further
below. -/
def siblingTraces {α : Type} (old new : Option α) (p : Proof) : Option AccountTraces :=
  match old, new with
  | some _, _ => some p.oldTraces
  | none, some _ => some p.newTraces
  | none, none => none

/-- `Proof::account_leaf_siblings`, /repo/src/types.rs:712-781 (`none` = panic). -/
def Proof.accountLeafSiblings (H : HashFn) (p : Proof) : Option (List Fr) :=
  let key := accountKey H p.claim.address
  match p.claim.kind with
  | .Nonce old new => (siblingTraces old new p).map fun t => [key, t.t4.2.1, t.t3.2.1, t.t2.2.1]
  | .CodeSize old new => (siblingTraces old new p).map fun t => [key, t.t4.2.1, t.t3.2.1, t.t2.2.1]
  | .Balance old new => (siblingTraces old new p).map fun t => [key, t.t4.2.1, t.t3.2.1, t.t2.1]
  | .PoseidonCodeHash old new => (siblingTraces old new p).map fun t => [key, t.t4.1]
  | .CodeHash old new => (siblingTraces old new p).map fun t => [key, t.t4.2.1, t.t3.1, t.t1.1]
  | .IsEmpty none => some []
  | _ =>
    if p.oldTraces.t4.2.1 = p.newTraces.t4.2.1 ∧ p.oldTraces.t3.1 = p.newTraces.t3.1 ∧
      p.oldTraces.t1.2.1 = p.newTraces.t1.2.1 then
      some [key, p.oldTraces.t4.2.1, p.oldTraces.t3.1, p.oldTraces.t1.2.1]
    else none

end Mpt.Types
