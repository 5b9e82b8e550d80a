import Mathlib.Data.ZMod.Basic
import Verif.Field

set_option autoImplicit false

/-!
# Enumerations of the Rust code and the columns of the circuit
-/

namespace Mpt

/-- `MPTProofType`, /repo/src/mpt_table.rs:9-28 (declaration order is the discriminant). -/
inductive MPTProofType
  | NonceChanged | BalanceChanged | CodeHashExists | PoseidonCodeHashExists | CodeSizeExists
  | AccountDoesNotExist | StorageChanged | StorageDoesNotExist | AccountDestructed
  deriving DecidableEq, Repr

/-- `MPTProofType::iter()` (strum `EnumIter`, /repo/src/mpt_table.rs:7). -/
def MPTProofType.iter : List MPTProofType :=
  [.NonceChanged, .BalanceChanged, .CodeHashExists, .PoseidonCodeHashExists, .CodeSizeExists,
   .AccountDoesNotExist, .StorageChanged, .StorageDoesNotExist, .AccountDestructed]

/-- `proof_type as u64`, used in /repo/src/mpt.rs:82. -/
def MPTProofType.toNat : MPTProofType → ℕ
  | .NonceChanged => 0 | .BalanceChanged => 1 | .CodeHashExists => 2
  | .PoseidonCodeHashExists => 3 | .CodeSizeExists => 4 | .AccountDoesNotExist => 5
  | .StorageChanged => 6 | .StorageDoesNotExist => 7 | .AccountDestructed => 8

/-- `SegmentType`, /repo/src/gadgets/mpt_update/segment.rs:6-16. -/
inductive SegmentType
  | Start | AccountTrie | AccountLeaf0 | AccountLeaf1 | AccountLeaf2 | AccountLeaf3
  | StorageTrie | StorageLeaf0
  deriving DecidableEq, Repr

/-- `SegmentType::iter()`, /repo/src/gadgets/mpt_update/segment.rs:6. -/
def SegmentType.iter : List SegmentType :=
  [.Start, .AccountTrie, .AccountLeaf0, .AccountLeaf1, .AccountLeaf2, .AccountLeaf3,
   .StorageTrie, .StorageLeaf0]

/-- `PathType`, /repo/src/gadgets/mpt_update/path.rs:4-10. -/
inductive PathType
  | Start | Common | ExtensionOld | ExtensionNew
  deriving DecidableEq, Repr

/-- `PathType::iter()`, /repo/src/gadgets/mpt_update/path.rs:4. -/
def PathType.iter : List PathType := [.Start, .Common, .ExtensionOld, .ExtensionNew]

/-- `HashDomain`, /repo/src/types.rs:24-33. -/
inductive HashDomain
  | Leaf | Branch0 | Branch1 | Branch2 | Branch3 | Pair | AccountFields
  deriving DecidableEq, Repr

/-- `From<HashDomain> for u64`, /repo/src/types.rs:55-67. -/
def HashDomain.toNat : HashDomain → ℕ
  | .Leaf => 4 | .Branch0 => 6 | .Branch1 => 7 | .Branch2 => 8 | .Branch3 => 9
  | .Pair => 2 * 256 | .AccountFields => 5 * 256

/-- An arbitrary two-to-one hash with a domain: stands for `Hashable::hash_with_domain`,
/repo/src/util.rs:14-16. -/
abbrev HashFn := Fr → Fr → Fr → Fr

/-- `Fr::from(HashDomain)`, /repo/src/types.rs:49-53. -/
def HashDomain.toFr (d : HashDomain) : Fr := (d.toNat : Fr)

/-- `TryFrom<u64> for HashDomain`, /repo/src/types.rs:35-47 (`none` = `Err`). -/
def HashDomain.ofNat? : ℕ → Option HashDomain
  | 4 => some .Leaf | 6 => some .Branch0 | 7 => some .Branch1 | 8 => some .Branch2
  | 9 => some .Branch3 | _ => none

/-- The advice columns of the whole circuit. In Rust every column is a fresh index allocated by
`cs.advice_column()`; we give each allocation its own name.
* `proofType .. izInv`: `MptUpdateConfig`, /repo/src/gadgets/mpt_update.rs:50-78, 118-134
  (`proofType`, `segment`, `path` are the binary columns of the three `OneHot`s,
  `izVal i`/`izInv i` the two columns of `is_zero_gadgets[i]`);
* `br*`: `ByteRepresentationConfig`, /repo/src/gadgets/byte_representation.rs:24-34;
* `cr*`: `CanonicalRepresentationConfig`, /repo/src/gadgets/canonical_representation.rs:28-43;
* `kb*`: `KeyBitConfig`, /repo/src/gadgets/key_bit.rs:19-29;
* `pos*`: the six advice columns of the Poseidon table, /repo/src/gadgets/poseidon.rs:27-36. -/
inductive AdvCol
  | proofType (t : MPTProofType) | storageKeyRlc | oldValue | newValue
  | domain | oldHash | newHash | depth | key | otherKey | direction | sibling
  | iv (i : Fin 10) | sp (i : Fin 10) | izVal (i : Fin 4) | izInv (i : Fin 4)
  | segment (t : SegmentType) | path (t : PathType)
  | brValue | brIndex | brByte | brRlc | brIndexInv
  | crValue | crByte | crDifference | crRlc | crZeroSoFar | crDiffInv
  | kbValue | kbIndex | kbBit | kbDiv8 | kbMod8 | kbByte
  | posHash | posLeft | posRight | posControl | posDomain | posHead
  deriving DecidableEq

/-- The fixed columns of the whole circuit: `selector`, `is_final_row` (/repo/src/mpt.rs:29-30),
`is_first` (byte_representation.rs:31), the fixed columns of the canonical representation
(canonical_representation.rs:30-39), the byte-bit table (byte_bit.rs:6-10) and the Poseidon
table's `q_enable` (poseidon.rs:29). -/
inductive FixCol
  | selector | isFinalRow | brIsFirst
  | crIndex | crIndexIsZero | crIndexIs31 | crModulusByte
  | bbByte | bbIndex | bbBit | posEnable
  deriving DecidableEq

end Mpt
