import Verif.Assign.Runs
import Verif.Types.Proof

set_option autoImplicit false

/-!
# Model of the assignment of one update, /repo/src/gadgets/mpt_update.rs:378-940

`assign_single_proof` writes cells of consecutive rows of a region. The model returns the rows as a
list of records. `none` is a panic. All cells that are not written keep their default (zero).
-/

namespace Mpt
open Spec MptUpdate Types

/-- Overwrite one of the ten intermediate values.
`self.intermediate_values[i].assign(..)`, /repo/src/gadgets/mpt_update.rs:380-615. -/
def setFn {n : ℕ} (f : Fin n → Fr) (i : Fin n) (x : Fr) : Fin n → Fr :=
  fun j => if j = i then x else f j

/-- `word_rlc::assign`, /repo/src/gadgets/mpt_update/word_rlc.rs:64-87, with high and low halves in
intermediate values `a` and `b` (and their RLCs in the second-phase ones). -/
def URow.withWord (u : URow) (ρ : Fr) (a b : Fin 10) (word : ℕ) : URow :=
  { u with
    iv := setFn (setFn u.iv a ((u256HiLo word).1 : ℕ)) b ((u256HiLo word).2 : ℕ)
    sp := setFn (setFn u.sp a (rlcFold (beBytes 16 (u256HiLo word).1) ρ)) b
      (rlcFold (beBytes 16 (u256HiLo word).2) ρ) }

/-- The three cells written by the nonexistence witness of the last row of a run,
/repo/src/gadgets/mpt_update.rs:475-479 and 800-818: `iz2 = key - other_key`, `iz3 = hash`,
`iv3 = data`. -/
def URow.withAbsence (u : URow) (iz2 iz3 data : Fr) : URow :=
  { u with iz := setFn (setFn u.iz 2 iz2) 3 iz3, iv := setFn u.iv 3 data }

/-- Apply `f` to the last row. Writes to the last row of a proof at /repo/src/gadgets/mpt_update.rs:480-615. -/
def modifyLast (f : URow → URow) : List URow → List URow
  | [] => []
  | [u] => [f u]
  | u :: v :: l => u :: modifyLast f (v :: l)

/-- The new domain written on a Common row that precedes an extension row,
/repo/src/gadgets/mpt_update.rs:708-718. -/
def trieNewDomain (row : TrieRow) (next : Option TrieRow) : Option Fr :=
  match next with
  | none => some 0
  | some nxt =>
    if ¬ (nxt.pathType = .Start ∨ nxt.pathType = .Common) ∧ row.pathType = .Common then
      (nextDomain row.domain row.direction).map HashDomain.toFr
    else some 0

/-- One row of `assign_trie_rows`, /repo/src/gadgets/mpt_update.rs:704-730, with the segment type of
lines 674-677 / 688-691 and the keys of lines 447-450 / 757-760. `i` is the index of the row. -/
def trieURow (s : SegmentType) (key otherKey : Fr) (i : ℕ) (row : TrieRow) (iv2 : Fr) : URow :=
  { seg := s
    path := row.pathType
    domain := row.domain.toFr
    oldHash := row.old
    newHash := row.new
    depth := ((i + 1 : ℕ) : Fr)
    key := key
    otherKey := otherKey
    direction := bitFr row.direction
    sibling := row.sibling
    iv := setFn (fun _ => 0) 2 iv2 }

/-- `assign_account_trie_rows` / `assign_storage_trie_rows`, /repo/src/gadgets/mpt_update.rs:667-732,
from row `i` on. -/
def trieURows (s : SegmentType) (key otherKey : Fr) : ℕ → List TrieRow → Option (List URow)
  | _, [] => some []
  | i, row :: rows => do
    let iv2 ← trieNewDomain row rows.head?
    let rest ← trieURows s key otherKey (i + 1) rows
    pure (trieURow s key otherKey i row iv2 :: rest)

/-- `key`, `other_key` and `other_leaf_data_hash`, /repo/src/gadgets/mpt_update.rs:399-412. -/
def otherLeaf (H : HashFn) (p : Proof) : Option (Fr × Fr) :=
  let key := accountKey H p.claim.address
  if p.old.key ≠ key then
    if p.new.key = key ∨ p.new.key = p.old.key then p.old.leafDataHash.map fun d => (p.old.key, d)
    else none
  else if p.new.key ≠ key then p.new.leafDataHash.map fun d => (p.new.key, d)
  else some (p.old.key, p.new.leafDataHash.getD 0)

/-- The start row, /repo/src/gadgets/mpt_update.rs:413-443. -/
def startURow (H : HashFn) (ρ : Fr) (p : Proof) (otherKey : Fr) : URow :=
  { seg := .Start
    path := .Start
    oldHash := p.claim.oldRoot
    newHash := p.claim.newRoot
    key := accountKey H p.claim.address
    otherKey := otherKey
    domain := HashDomain.Pair.toFr
    iv := setFn (setFn (fun _ => 0) 0 (addressHigh p.claim.address : ℕ)) 1
      (addressLow p.claim.address : ℕ)
    sp := setFn (setFn (fun _ => 0) 0 (rlcFold (frBytes p.claim.oldRoot) ρ)) 1
      (rlcFold (frBytes p.claim.newRoot) ρ) }

/-- `final_path_type`, /repo/src/gadgets/mpt_update.rs:454-466. -/
def finalPathType (p : Proof) : Option PathType :=
  match p.addressHashTraces.head? with
  | none => some .Common
  | some r => r.pathType

/-- `final_old_hash`, `final_new_hash`, /repo/src/gadgets/mpt_update.rs:467-470. -/
def finalHashes (H : HashFn) (p : Proof) : Fr × Fr :=
  match p.addressHashTraces.head? with
  | none => (p.old.hash H, p.new.hash H)
  | some r => (r.open_, r.close)

/-- `leaf_path_type`, /repo/src/gadgets/mpt_update.rs:490-506. -/
def leafPathType (t : PathType) (hashes : Fr × Fr) : Option PathType :=
  match t with
  | .Common =>
    if hashes.1 = 0 then (if hashes.2 = 0 then none else some .ExtensionNew)
    else (if hashes.2 = 0 then some .ExtensionOld else some .Common)
  | t => some t

/-- `directions`, /repo/src/gadgets/mpt_update.rs:508-520. -/
def leafDirections : MPTProofType → Option (List Bool)
  | .NonceChanged => some [true, false, false, false]
  | .CodeSizeExists => some [true, false, false, false]
  | .BalanceChanged => some [true, false, false, true]
  | .PoseidonCodeHashExists => some [true, true]
  | .CodeHashExists => some [true, false, true, true]
  | .StorageChanged => some [true, false, true, false]
  | .StorageDoesNotExist => some [true, false, true, false]
  | .AccountDoesNotExist => none
  | .AccountDestructed => none

/-- The cells of a leaf row that do not depend on its position,
/repo/src/gadgets/mpt_update.rs:541-549. -/
def leafURow (key otherKey : Fr) (pt : PathType) (s : SegmentType) (sibling old new : Fr) (dir : Bool) :
    URow :=
  { seg := s
    path := pt
    domain := HashDomain.AccountFields.toFr
    sibling := sibling
    oldHash := old
    newHash := new
    direction := bitFr dir
    key := key
    otherKey := otherKey }

/-- The `izip!` of /repo/src/gadgets/mpt_update.rs:531-533. -/
def leafRowsZip (key otherKey : Fr) (pt : PathType) :
    List SegmentType → List Fr → List Fr → List Fr → List Bool → List URow
  | s :: ss, x :: xs, o :: os, n :: ns, d :: ds =>
    leafURow key otherKey pt s x o n d :: leafRowsZip key otherKey pt ss xs os ns ds
  | _, _, _, _, _ => []

/-- The additional cells of row 0: domain, `is_zero_gadgets[2]`, `is_zero_gadgets[3]` and the last two
intermediate values, /repo/src/gadgets/mpt_update.rs:534-536, 551-556, 580-582. -/
def leafRow0 (key otherKey otherData : Fr) (u : URow) : URow :=
  { u with
    domain := HashDomain.Leaf.toFr
    iz := setFn (setFn u.iz 3 u.oldHash) 2 (key - otherKey)
    iv := setFn (setFn u.iv 8 otherKey) 9 otherData }

/-- The storage key of claims with one, /repo/src/gadgets/mpt_update.rs:558-561. -/
def kindSlot : ClaimKind → Option ℕ
  | .Storage key _ _ => some key
  | .IsEmpty key => key
  | _ => none

/-- The additional cells of an AccountLeaf3 row, /repo/src/gadgets/mpt_update.rs:557-577. -/
def leafRow3 (H : HashFn) (ρ : Fr) (p : Proof) (u : URow) : Option URow :=
  match kindSlot p.claim.kind with
  | none => some u
  | some word => do
    let k ← p.storage.key
    let o ← p.storage.otherKey H
    let v := { u with key := k, otherKey := o }.withWord ρ 0 1 word
    pure { v with iv := setFn v.iv 2 HashDomain.AccountFields.toFr }

/-- The code-hash words on row 3, /repo/src/gadgets/mpt_update.rs:583-608. -/
def leafCodeHash (ρ : Fr) (kind : ClaimKind) (u : URow) : URow :=
  match kind with
  | .CodeHash old new =>
    let v := match old with
      | some x => u.withWord ρ 0 1 x
      | none => u
    match new with
    | some x => v.withWord ρ 2 3 x
    | none => v
  | _ => u

/-- Position-dependent cells of the account leaf rows. /repo/src/gadgets/mpt_update.rs:430-530. -/
def decorateLeaf (H : HashFn) (ρ : Fr) (p : Proof) (key otherKey otherData : Fr) :
    List URow → Option (List URow)
  | [a, b, c, d] => do
    let d' ← leafRow3 H ρ p d
    pure [leafRow0 key otherKey otherData a, b, c, leafCodeHash ρ p.claim.kind d']
  | [a, b] => some [leafRow0 key otherKey otherData a, b]
  | _ => none

/-- The account leaf rows, /repo/src/gadgets/mpt_update.rs:482-608. The lists zipped always have four
entries, two for Poseidon code-hash claims (`leafRows_length`). -/
def leafURows (H : HashFn) (ρ : Fr) (p : Proof) (otherKey otherData : Fr) : Option (List URow) := do
  let key := accountKey H p.claim.address
  let fin ← finalPathType p
  let hashes := finalHashes H p
  let pt ← leafPathType fin hashes
  let dirs ← leafDirections p.claim.kind.proofType
  let siblings ← p.accountLeafSiblings H
  let olds := p.oldAccountLeafHashes.getD (List.replicate 4 hashes.1)
  let news := p.newAccountLeafHashes.getD (List.replicate 4 hashes.2)
  decorateLeaf H ρ p key otherKey otherData
    (leafRowsZip key otherKey pt [.AccountLeaf0, .AccountLeaf1, .AccountLeaf2, .AccountLeaf3]
      siblings olds news dirs)

/-- `path_type` in `assign_storage_leaf_row`, /repo/src/gadgets/mpt_update.rs:832-847; `none` when no
leaf row is assigned. -/
def storagePathType : StorageLeaf → StorageLeaf → Option PathType
  | .Entry _ _, .Entry _ _ => some .Common
  | .Entry _ _, _ => some .ExtensionOld
  | _, .Entry _ _ => some .ExtensionNew
  | _, _ => none

/-- `word_rlc::assign`, /repo/src/gadgets/mpt_update/word_rlc.rs:64-85, called at /repo/src/gadgets/mpt_update.rs:822-900. -/
def entryWord (ρ : Fr) (a b : Fin 10) (l : StorageLeaf) (u : URow) : URow :=
  match l with
  | .Entry _ v => u.withWord ρ a b v
  | _ => u

/-- The cells of the storage leaf row that do not depend on extension,
/repo/src/gadgets/mpt_update.rs:848-908. -/
def storageURow (H : HashFn) (ρ : Fr) (key otherKey : Fr) (pt : PathType) (sibling oldHash newHash : Fr)
    (old new : StorageLeaf) : URow :=
  let u : URow :=
    { seg := .StorageLeaf0
      path := pt
      direction := bitFr true
      domain := HashDomain.Leaf.toFr
      sibling := sibling
      oldHash := oldHash
      newHash := newHash
      key := key
      otherKey := otherKey
      iz := setFn (setFn (fun _ => 0) 0 (oldHash - zeroPairHash H)) 1 (newHash - zeroPairHash H) }
  entryWord ρ 2 3 new (entryWord ρ 0 1 old u)

/-- The nonexistence cells of an extension storage leaf row, /repo/src/gadgets/mpt_update.rs:909-938:
`other` is the leaf of the side that does not hold the entry, `self` the entry. -/
def storageExt (H : HashFn) (key hash : Fr) (self other : StorageLeaf) (u : URow) : Option URow :=
  let otherKey := if key ≠ other.key H then other.key H else self.key H
  let v := { u with iz := setFn (setFn u.iz 2 (key - otherKey)) 3 hash }
  if key ≠ otherKey then
    (other.valueHash H).map fun d => { v with iv := setFn v.iv 9 d }
  else some v

/-- `assign_storage_leaf_row` when there is a leaf row, /repo/src/gadgets/mpt_update.rs:822-940. -/
def storageLeafURow (H : HashFn) (ρ : Fr) (key otherKey : Fr) (old new : StorageLeaf) :
    PathType → Option URow
  | .Start => none
  | .Common => do
    let o ← old.valueHash H
    let n ← new.valueHash H
    pure (storageURow H ρ key otherKey .Common (old.key H) o n old new)
  | .ExtensionOld => do
    let o ← old.valueHash H
    storageExt H key (new.hash H) old new
      (storageURow H ρ key otherKey .ExtensionOld (old.key H) o (new.hash H) old new)
  | .ExtensionNew => do
    let n ← new.valueHash H
    storageExt H key (old.hash H) new old
      (storageURow H ρ key otherKey .ExtensionNew (new.key H) (old.hash H) n old new)

/-- `assign_empty_storage_proof`, /repo/src/gadgets/mpt_update.rs:768-820: what is written on the last
row. (For two empty leaves `is_zero_gadgets[3]` and `iv3` are not written.) -/
def emptyStorage (H : HashFn) (key otherKey : Fr) : StorageLeaf → StorageLeaf → Option (URow → URow)
  | .Leaf k v, .Leaf k' v' =>
    if key ≠ otherKey ∧ k' = k ∧ v = v' then
      some fun u => u.withAbsence (key - otherKey) ((StorageLeaf.Leaf k v).hash H) v
    else none
  | .Empty _, .Empty _ =>
    if key = otherKey then some fun u => { u with iz := setFn u.iz 2 (key - otherKey) } else none
  | .Leaf _ _, .Empty _ => none
  | .Empty _, .Leaf _ _ => none
  | .Entry _ _, _ => some id
  | _, .Entry _ _ => some id

/-- `assign_storage`, /repo/src/gadgets/mpt_update.rs:734-766, after the rows `pre`. -/
def storageURows (H : HashFn) (ρ : Fr) (storage : StorageProof) (pre : List URow) :
    Option (List URow) :=
  match storage with
  | .Root _ => some pre
  | .Update _ key rows old new => do
    let otherKey ← storage.otherKey H
    let trie ← trieURows .StorageTrie key otherKey 0 rows
    match storagePathType old new with
    | some pt => do
      let leaf ← storageLeafURow H ρ key otherKey old new pt
      pure (pre ++ trie ++ [leaf])
    | none => do
      let f ← emptyStorage H key otherKey old new
      pure (modifyLast f (pre ++ trie))

/-- The rows of `assign_single_proof` without the cells of lines 388-397. -/
def bodyURows (H : HashFn) (ρ : Fr) (p : Proof) : Option (List URow) := do
  let other ← otherLeaf H p
  let key := accountKey H p.claim.address
  let trie ← trieURows .AccountTrie key other.1 0 p.accountTrieRows
  let pre := startURow H ρ p other.1 :: trie
  let _ ← finalPathType p
  if p.oldAccount.isNone && p.newAccount.isNone then
    pure (modifyLast (fun u => u.withAbsence (key - other.1) (finalHashes H p).1 other.2) pre)
  else do
    let leaf ← leafURows H ρ p other.1 other.2
    storageURows H ρ p.storage (pre ++ leaf)

/-- Lines 388-397 for one row. -/
def URow.withBase (ρ : Fr) (c : Claim) (u : URow) : URow :=
  { u with
    proof := c.kind.proofType
    storageKeyRlc := rlcFold (u256ToBigEndian c.storageKey) ρ
    oldValue := c.oldValueAssignment ρ
    newValue := c.newValueAssignment ρ }

/-- Lines 388-397 on the first `n` rows, the others being given or blank. -/
def overlay (ρ : Fr) (c : Claim) : ℕ → List URow → List URow
  | 0, l => l
  | n + 1, [] => URow.blank.withBase ρ c :: overlay ρ c n []
  | n + 1, u :: l => u.withBase ρ c :: overlay ρ c n l

/-- `MptUpdateConfig::assign_single_proof`, /repo/src/gadgets/mpt_update.rs:378-613: the rows from
`offset` on. -/
def assignSingleProof (H : HashFn) (ρ : Fr) (p : Proof) : Option (List URow) :=
  (bodyURows H ρ p).map (overlay ρ p.claim p.nRows)

end Mpt
