import Verif.Types.Claim

set_option autoImplicit false

/-!
# Model of /repo/src/types/storage.rs

`none` is a panic.
-/

namespace Mpt.Types
open Mpt Spec

/-- `StorageLeaf`, /repo/src/types/storage.rs:23-28. -/
inductive StorageLeaf
  | Empty (mptKey : Fr)
  | Leaf (mptKey valueHash : Fr)
  | Entry (storageKey value : ℕ)

/-- `StorageProof`, /repo/src/types/storage.rs:11-21. -/
inductive StorageProof
  | Root (root : Fr)
  | Update (storageKey : ℕ) (key : Fr) (trieRows : List TrieRow) (oldLeaf newLeaf : StorageLeaf)

namespace StorageLeaf
variable (H : HashFn)

/-- `StorageLeaf::new`, /repo/src/types/storage.rs:172-193. -/
def new (mptKey : Fr) (node : Option SMTNode) (data : StateData) : Option StorageLeaf :=
  match node, decide (u256FromHex data.value = 0) with
  | none, true => some (.Empty mptKey)
  | some node, true =>
    if mptKey = storageKeyHash H (u256FromHex data.key) then do
      let k ← fr node.sibling
      let v ← fr node.value
      pure (.Leaf k v)
    else none
  | some _, false => some (.Entry (u256FromHex data.key) (u256FromHex data.value))
  | none, false => none

/-- `StorageLeaf::n_rows`, /repo/src/types/storage.rs:195-200. -/
def nRows : StorageLeaf → ℕ
  | .Empty _ => 0 | .Leaf _ _ => 0 | .Entry _ _ => 1

/-- `StorageLeaf::storage_key`, /repo/src/types/storage.rs:202-207. -/
def storageKey : StorageLeaf → Option ℕ
  | .Empty _ => none | .Leaf _ _ => none | .Entry k _ => some k

/-- `StorageLeaf::key`, /repo/src/types/storage.rs:209-214. -/
def key : StorageLeaf → Fr
  | .Empty k => k | .Leaf k _ => k | .Entry k _ => storageKeyHash H k

/-- `StorageLeaf::value`, /repo/src/types/storage.rs:217-222. -/
def value : StorageLeaf → ℕ
  | .Empty _ => 0 | .Leaf _ _ => 0 | .Entry _ v => v

/-- `StorageLeaf::value_high`, `value_low`, /repo/src/types/storage.rs:224-230. -/
def valueHigh (l : StorageLeaf) : Fr := (((u256HiLo l.value).1 : ℕ) : Fr)
/-- `value_low`, /repo/src/types/storage.rs:231-233. -/
def valueLow (l : StorageLeaf) : Fr := (((u256HiLo l.value).2 : ℕ) : Fr)

/-- `StorageLeaf::value_hash`, /repo/src/types/storage.rs:232-241. -/
def valueHash : StorageLeaf → Option Fr
  | .Empty _ => none
  | .Leaf _ h => some h
  | .Entry k v => some (domainHash H (Entry k v).valueHigh (Entry k v).valueLow .Pair)

/-- `StorageLeaf::hash`, /repo/src/types/storage.rs:243-249. -/
def hash (l : StorageLeaf) : Fr :=
  match l.valueHash H with
  | none => 0
  | some h => domainHash H (l.key H) h .Leaf

/-- `StorageLeaf::poseidon_lookups`, /repo/src/types/storage.rs:251-269. -/
def poseidonLookups (l : StorageLeaf) : List HashTrace :=
  match l with
  | .Empty _ => []
  | .Leaf _ h => [(l.key H, h, .Leaf, l.hash H)]
  | .Entry _ _ =>
    [(l.valueHigh, l.valueLow, .Pair, (l.valueHash H).getD 0),
     (l.key H, (l.valueHash H).getD 0, .Leaf, l.hash H)]

end StorageLeaf

namespace StorageProof
variable (H : HashFn)

/-- `StorageProof::n_rows`, /repo/src/types/storage.rs:31-41. -/
def nRows : StorageProof → ℕ
  | .Root _ => 0
  | .Update _ _ rows o n => rows.length + max o.nRows n.nRows

/-- `StorageProof::old_root`, /repo/src/types/storage.rs:43-52. -/
def oldRoot : StorageProof → Option Fr
  | .Root r => some r
  | .Update _ _ rows o _ => trieOldRoot H rows (some (o.hash H))

/-- `StorageProof::new_root`, /repo/src/types/storage.rs:54-63. -/
def newRoot : StorageProof → Option Fr
  | .Root r => some r
  | .Update _ _ rows _ n => trieNewRoot H rows (some (n.hash H))

/-- `StorageProof::poseidon_lookups`, /repo/src/types/storage.rs:65-90. -/
def poseidonLookups : StorageProof → Option (List HashTrace)
  | .Root _ => some []
  | .Update sk key rows o n => do
    let t ← triePoseidonLookups H rows
    pure ((((u256HiLo sk).1 : ℕ), ((u256HiLo sk).2 : ℕ), .Pair, key) ::
      (t ++ o.poseidonLookups H ++ n.poseidonLookups H))

/-- `StorageProof::key`, /repo/src/types/storage.rs:110-115. -/
def key : StorageProof → Option Fr
  | .Root _ => none
  | .Update _ key _ _ _ => some key

/-- `StorageProof::other_key`, /repo/src/types/storage.rs:117-135. -/
def otherKey : StorageProof → Option Fr
  | .Root _ => none
  | .Update _ key _ o n => some (if key = o.key H then n.key H else o.key H)

/-- `StorageProof::key_lookups`, /repo/src/types/storage.rs:92-99. -/
def keyLookups (p : StorageProof) : List Fr :=
  match p with
  | .Root _ => []
  | .Update _ key _ o n => [key, if key = o.key H then n.key H else o.key H]

/-- `StorageProof::key_bit_lookups`, /repo/src/types/storage.rs:101-108. -/
def keyBitLookups (p : StorageProof) : List (Fr × ℕ × Bool) :=
  match p with
  | .Root _ => []
  | .Update _ key rows o n => trieKeyBitLookups key (if key = o.key H then n.key H else o.key H) rows

end StorageProof

/-- `impl From<&SMTTrace> for StorageProof`, /repo/src/types/storage.rs:272-314. -/
def storageProofFrom (H : HashFn) (trace : SMTTrace) : Option StorageProof :=
  match trace.commonStateRoot with
  | some root => (fr root).map .Root
  | none => do
    let key ← trace.stateKey.bind fr
    let oldPath ← trace.statePath.1
    let newPath ← trace.statePath.2
    let rows ← trieRowsNew H key oldPath.path newPath.path oldPath.leaf newPath.leaf
    let upd ← trace.stateUpdate
    let oldEntry ← upd.1
    let newEntry ← upd.2
    if oldEntry.key = newEntry.key then do
      let oldLeaf ← StorageLeaf.new H key oldPath.leaf oldEntry
      let newLeaf ← StorageLeaf.new H key newPath.leaf newEntry
      let proof := StorageProof.Update (u256FromHex oldEntry.key) key rows oldLeaf newLeaf
      let r1 ← proof.oldRoot H
      let r2 ← proof.newRoot H
      let e1 ← fr oldPath.root
      let e2 ← fr newPath.root
      if r1 = e1 ∧ r2 = e2 then some proof else none
    else none

end Mpt.Types
