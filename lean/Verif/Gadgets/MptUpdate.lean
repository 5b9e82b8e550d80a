import Verif.Gadgets.Tables
import Verif.Lagrange

set_option autoImplicit false

/-!
# Constraint program of the MPT update gadget and of the whole circuit

Models of `MptUpdateConfig::configure` and its helpers
(/repo/src/gadgets/mpt_update.rs:81-345, 943-2036, /repo/src/gadgets/mpt_update/*.rs) and of
`MptCircuitConfig::configure` (/repo/src/mpt.rs:39-112).

`domain_hash` (/repo/src/util.rs:14-16) is the parameter `H left right domain`.
-/

namespace Mpt

/-- `ZERO_PAIR_HASH`, mpt_update.rs:42. -/
def zeroPairHash (H : HashFn) : Fr := H 0 0 HashDomain.Pair.toFr
/-- `ZERO_STORAGE_ROOT_KECCAK_CODEHASH_HASH`, mpt_update.rs:43-44. -/
def zeroStorageRootKeccakCodehashHash (H : HashFn) : Fr :=
  H 0 (zeroPairHash H) HashDomain.AccountFields.toFr

namespace MptUpdate

/-! ## Configuration (mpt_update.rs:52-78) -/
/-- `proof_type`, mpt_update.rs:60. -/
def proofType : OneHot MPTProofType := ⟨.proofType⟩
/-- `segment_type`, mpt_update.rs:63. -/
def segmentType : OneHot SegmentType := ⟨.segment⟩
/-- `path_type`, mpt_update.rs:64. -/
def pathType : OneHot PathType := ⟨.path⟩
/-- `is_zero_gadgets[i]`, mpt_update.rs:78. -/
def isZero (i : Fin 4) : IsZeroGadget := ⟨.izVal i, .izInv i⟩
/-- `key_equals_other_key` in `[.., key_equals_other_key, hash_is_zero] = is_zero_gadgets`.
/repo/src/gadgets/mpt_update.rs:77, 126, 783. -/
def keyEqualsOtherKey : IsZeroGadget := isZero 2
/-- `hash_is_zero` in `[.., key_equals_other_key, hash_is_zero] = is_zero_gadgets`.
/repo/src/gadgets/mpt_update.rs:77, 126, 783. -/
def hashIsZero : IsZeroGadget := isZero 3
/-- `Query::from(u64::from(domain))`.
/repo/src/types.rs:55-67 with /repo/src/constraint_builder/query.rs:50-54. -/
def dom (d : HashDomain) : Query Fr := Query.ofNat d.toNat

/-- `segment_type.current_matches(&[..])`. /repo/src/gadgets/one_hot.rs:46-48. -/
def seg (l : List SegmentType) : Query Fr := segmentType.curMatches l
/-- `segment_type.next_matches(&[..])`. /repo/src/gadgets/one_hot.rs:50-52. -/
def segNext (l : List SegmentType) : Query Fr := segmentType.nextMatches l
/-- `path_type.current_matches(&[..])`. /repo/src/gadgets/one_hot.rs:46-48. -/
def pth (l : List PathType) : Query Fr := pathType.curMatches l
/-- `path_type.next_matches(&[..])`. /repo/src/gadgets/one_hot.rs:50-52. -/
def pthNext (l : List PathType) : Query Fr := pathType.nextMatches l
/-- `path_type.previous_matches(&[..])`. /repo/src/gadgets/one_hot.rs:42-44. -/
def pthPrev (l : List PathType) : Query Fr := pathType.prevMatches l
/-- `proof_type.current_matches(&[..])`. /repo/src/gadgets/one_hot.rs:46-48. -/
def prf (l : List MPTProofType) : Query Fr := proofType.curMatches l

/-! ## Transition tables -/

/-- `PATH_TRANSITIONS`, path.rs:12-29. -/
def pathTransitions : List (PathType × PathType) :=
  [ (.Start, .Start), (.Start, .Common), (.Start, .ExtensionOld), (.Start, .ExtensionNew),
    (.Common, .Common), (.Common, .ExtensionOld), (.Common, .ExtensionNew), (.Common, .Start),
    (.ExtensionOld, .ExtensionOld), (.ExtensionOld, .Start),
    (.ExtensionNew, .ExtensionNew), (.ExtensionNew, .Start) ]

/-- `forward_transitions().get(&variant).unwrap()`, path.rs:31-37: the second components of the
pairs with first component `p`, in order. -/
def forwardTransitions (p : PathType) : List PathType :=
  (pathTransitions.filter (fun t => t.1 = p)).map (·.2)

/-- `segment::transitions(proof).get(&segment)`, segment.rs:19-140. -/
def transitions : MPTProofType → SegmentType → Option (List SegmentType)
  | .NonceChanged, s | .BalanceChanged, s | .CodeSizeExists, s | .CodeHashExists, s =>
    match s with
    | .Start => some [.Start, .AccountTrie, .AccountLeaf0]
    | .AccountTrie => some [.AccountTrie, .AccountLeaf0, .Start]
    | .AccountLeaf0 => some [.AccountLeaf1]
    | .AccountLeaf1 => some [.AccountLeaf2]
    | .AccountLeaf2 => some [.AccountLeaf3]
    | .AccountLeaf3 => some [.Start]
    | _ => none
  | .PoseidonCodeHashExists, s =>
    match s with
    | .Start => some [.AccountTrie, .AccountLeaf0]
    | .AccountTrie => some [.AccountTrie, .AccountLeaf0]
    | .AccountLeaf0 => some [.AccountLeaf1]
    | .AccountLeaf1 => some [.Start]
    | _ => none
  | .StorageChanged, s =>
    match s with
    | .Start => some [.AccountTrie, .AccountLeaf0]
    | .AccountTrie => some [.AccountTrie, .AccountLeaf0]
    | .AccountLeaf0 => some [.AccountLeaf1]
    | .AccountLeaf1 => some [.AccountLeaf2]
    | .AccountLeaf2 => some [.AccountLeaf3]
    | .AccountLeaf3 => some [.StorageTrie, .StorageLeaf0]
    | .StorageTrie => some [.StorageTrie, .StorageLeaf0]
    | .StorageLeaf0 => some [.Start]
  | .AccountDoesNotExist, s =>
    match s with
    | .Start => some [.AccountTrie, .Start]
    | .AccountTrie => some [.AccountTrie, .Start]
    | _ => none
  | .StorageDoesNotExist, s =>
    match s with
    | .Start => some [.Start, .AccountTrie, .AccountLeaf0]
    | .AccountTrie => some [.Start, .AccountTrie, .AccountLeaf0]
    | .AccountLeaf0 => some [.AccountLeaf1]
    | .AccountLeaf1 => some [.AccountLeaf2]
    | .AccountLeaf2 => some [.AccountLeaf3]
    | .AccountLeaf3 => some [.StorageTrie, .Start]
    | .StorageTrie => some [.StorageTrie, .Start]
    | .StorageLeaf0 => none
  | .AccountDestructed, _ => none

/-- `segment::domains`, segment.rs:142-158. -/
def domains : SegmentType → List HashDomain
  | .Start => [.Pair]
  | .AccountTrie | .StorageTrie => [.Branch0, .Branch1, .Branch2, .Branch3]
  | .AccountLeaf0 | .StorageLeaf0 => [.Leaf]
  | .AccountLeaf1 | .AccountLeaf2 | .AccountLeaf3 => [.AccountFields]

/-! ## Helpers -/

/-- `old_left`, mpt_update.rs:943-946. -/
def oldLeft : Query Fr :=
  AdvCol.direction.cur * AdvCol.sibling.cur + (1 - AdvCol.direction.cur) * AdvCol.oldHash.cur
/-- `old_right`, mpt_update.rs:948-951. -/
def oldRight : Query Fr :=
  AdvCol.direction.cur * AdvCol.oldHash.cur + (1 - AdvCol.direction.cur) * AdvCol.sibling.cur
/-- `new_left`, mpt_update.rs:953-956. -/
def newLeft : Query Fr :=
  AdvCol.direction.cur * AdvCol.sibling.cur + (1 - AdvCol.direction.cur) * AdvCol.newHash.cur
/-- `new_right`, mpt_update.rs:958-961. -/
def newRight : Query Fr :=
  AdvCol.direction.cur * AdvCol.newHash.cur + (1 - AdvCol.direction.cur) * AdvCol.sibling.cur

/-- `nonexistence_proof::configure`, nonexistence_proof.rs:9-52. -/
def nonexistence (value hash otherLeafDataHash : AdvCol) : List (Cmd Fr) :=
  [ .assertZero "value is 0 for empty node" value.cur,
    .assertEqual "key_minus_other_key = key - other key" keyEqualsOtherKey.value.cur
      (AdvCol.key.cur - AdvCol.otherKey.cur),
    .assertEqual "hash_is_zero input == hash" hashIsZero.value.cur hash.cur,
    .assertEqual "Empty account is either type 1 xor type 2" 1
      (Query.bnot keyEqualsOtherKey.current + hashIsZero.current),
    .cond (Query.bnot keyEqualsOtherKey.current)
      [ .poseidonLookup "hash == h(other_key, other_leaf_data_hash)"
          AdvCol.otherKey.cur otherLeafDataHash.cur (dom .Leaf) hash.cur ] ]

/-- `word_rlc::configure`, word_rlc.rs:17-62. -/
def wordRlc (wordHash high low rlcWord rlcHigh rlcLow : AdvCol) : List (Cmd Fr) :=
  [ .lookup "old_high is 16 bytes" (List.zip [high.cur, 15] ByteRep.bytesLookup),
    .lookup "old_low is 16 bytes" (List.zip [low.cur, 15] ByteRep.bytesLookup),
    .poseidonLookup "word_hash = poseidon(high, low)" high.cur low.cur (dom .Pair) wordHash.cur,
    .lookup "rlc_high = rlc(high) and high is 16 bytes"
      (List.zip [high.cur, 15, rlcHigh.cur] ByteRep.rlcLookup),
    .lookup "rlc_low = rlc(low) and low is 16 bytes"
      (List.zip [low.cur, 15, rlcLow.cur] ByteRep.rlcLookup),
    .assertEqual "word_rlc = rlc(high) * randomness ^ 16 + rlc(low)" rlcWord.cur
      (rlcHigh.cur * Query.challenge.square.square.square.square + rlcLow.cur) ]

/-- `configure_segment_transitions`, mpt_update.rs:963-981. -/
def configureSegmentTransitions (proof : MPTProofType) : List (Cmd Fr) :=
  SegmentType.iter.map (fun variant => .cond (seg [variant])
    [ match transitions proof variant with
      | some next => .assert "transition for current segment -> next segment" (segNext next)
      | none => .assertUnreachable "unreachable segment for proof" ])

/-- The Lagrange points of mpt_update.rs:1042-1065 and 1127-1150. (The latter converts the domains
through `Fr` instead of `u64`; the y coordinates are then the same constants written as limb
folds. We use the `u64` form for both; `Query.eval_fromFr` shows the two forms denote the same
value.) -/
def newDomainPoints : List (Fr × Query Fr) :=
  [ (HashDomain.Branch0.toFr, Query.select AdvCol.direction.cur (dom .Branch1) (dom .Branch2)),
    (HashDomain.Branch1.toFr, dom .Branch3),
    (HashDomain.Branch2.toFr, dom .Branch3),
    (HashDomain.AccountFields.toFr, dom .AccountFields) ]

/-- `lagrange_polynomial(config.domain.current(), &points)`; the call does not panic
(`newDomain_isSome`). /repo/src/gadgets/mpt_update.rs:1044-1085, 1126-1167. -/
def newDomain : Query Fr := (lagrangePolynomial AdvCol.domain.cur newDomainPoints).getD 0

/-- The product of mpt_update.rs:1011-1017 and 1103-1109. -/
def domainNotBranch3 : Query Fr :=
  (AdvCol.domain.cur - dom .Branch0) * (AdvCol.domain.cur - dom .Branch1)
    * (AdvCol.domain.cur - dom .Branch2) * (AdvCol.domain.cur - dom .AccountFields)

/-- Poseidon lookup of the old node of the current row against `old_hash.previous()`.
/repo/src/gadgets/mpt_update.rs:983-1354. -/
def oldHashLookup (name : String) (domain : Query Fr) : Cmd Fr :=
  .poseidonLookup name oldLeft oldRight domain AdvCol.oldHash.prev
/-- Poseidon lookup of the new node of the current row against `new_hash.previous()`.
/repo/src/gadgets/mpt_update.rs:983-1354. -/
def newHashLookup (name : String) (domain : Query Fr) : Cmd Fr :=
  .poseidonLookup name newLeft newRight domain AdvCol.newHash.prev

/-- `configure_common_path`, mpt_update.rs:983-1180. -/
def configureCommonPath : List (Cmd Fr) :=
  [ .cond (pthNext [.Common, .Start])
      [ oldHashLookup "poseidon hash correct for old common path" AdvCol.domain.cur,
        newHashLookup "poseidon hash correct for new common path" AdvCol.domain.cur ],
    .cond (pthNext [.ExtensionNew])
      [ .assertZero "old domain is not HashDomain::Branch3" domainNotBranch3,
        oldHashLookup "poseidon hash correct for old common path" AdvCol.domain.cur,
        .cond (Query.bnot (segNext [.AccountLeaf0, .StorageLeaf0]))
          [ .assertEqual "new domain matches direction and domain after insertion"
              (AdvCol.iv 2).cur newDomain,
            newHashLookup "poseidon hash correct for new common path" (AdvCol.iv 2).cur ],
        .cond (segNext [.AccountLeaf0, .StorageLeaf0])
          [ .assertZero "old hash is zero for type 2 empty account" AdvCol.oldHash.cur,
            newHashLookup "poseidon hash correct for new common path" AdvCol.domain.cur ] ],
    .cond (pthNext [.ExtensionOld])
      [ .assertZero "new domain is not HashDomain::Branch3" domainNotBranch3,
        newHashLookup "poseidon hash correct for new common path" AdvCol.domain.cur,
        .cond (Query.bnot (segNext [.AccountLeaf0, .StorageLeaf0]))
          [ .assertEqual "new domain matches direction and domain before deletion"
              (AdvCol.iv 2).cur newDomain,
            oldHashLookup "poseidon hash correct for old common path" (AdvCol.iv 2).cur ],
        .cond (segNext [.AccountLeaf0, .StorageLeaf0])
          [ .assertZero "new hash is zero for type 2 empty account" AdvCol.newHash.cur,
            oldHashLookup "poseidon hash correct for old common path" AdvCol.domain.cur ] ] ]

/-- `configure_extension_old`, mpt_update.rs:1182-1267. -/
def configureExtensionOld : List (Cmd Fr) :=
  [ .assert "can only delete existing storage trie nodes for storage proofs"
      (Query.band (prf [.StorageChanged]) (seg [.StorageTrie, .StorageLeaf0])),
    .assertZero "new value is 0 when deleting node" AdvCol.newValue.cur,
    .assertEqual "new_hash unchanged for path_type=ExtensionOld"
      AdvCol.newHash.cur AdvCol.newHash.prev,
    oldHashLookup "poseidon hash correct for old path" AdvCol.domain.cur,
    .assert "common -> extension old switch only allowed in storage trie segments"
      (Query.bor (pthPrev [.ExtensionOld]) (seg [.StorageTrie, .StorageLeaf0])),
    .cond (seg [.StorageTrie])
      [ .cond (Query.bnot (segNext [.StorageLeaf0]))
          [ .assertZero "sibling is zero for non-final old extension path segments"
              AdvCol.sibling.cur ],
        .cond (segNext [.StorageLeaf0])
          [ .assertEqual "sibling is new leaf hash for final new extension path segments"
              AdvCol.sibling.cur AdvCol.newHash.prev ] ],
    .cond (seg [.StorageLeaf0]) (nonexistence .newValue .newHash (.iv 9)) ]

/-- `configure_extension_new`, mpt_update.rs:1269-1354. -/
def configureExtensionNew : List (Cmd Fr) :=
  [ .assert "can only add new nodes for nonce, balance and storage proofs"
      (prf [.NonceChanged, .BalanceChanged, .StorageChanged]),
    .assertZero "old value is 0 if old account is empty" AdvCol.oldValue.cur,
    .assertEqual "old_hash unchanged for path_type=New" AdvCol.oldHash.cur AdvCol.oldHash.prev,
    newHashLookup "poseidon hash correct for new extension path" AdvCol.domain.cur,
    .assert "common -> extension new switch only allowed in trie segments"
      (Query.bor (pthPrev [.ExtensionNew])
        (seg [.AccountTrie, .AccountLeaf0, .StorageTrie, .StorageLeaf0])),
    .cond (seg [.AccountTrie, .StorageTrie])
      [ .cond (Query.bnot (Query.bnot (segNext [.AccountTrie, .StorageTrie])))
          [ .assertZero "sibling is zero for non-final new extension path segments"
              AdvCol.sibling.cur ],
        .cond (Query.bnot (segNext [.AccountTrie, .StorageTrie]))
          [ .assertEqual "sibling is old leaf hash for final new extension path segments"
              AdvCol.sibling.cur AdvCol.oldHash.cur ] ],
    .cond (seg [.AccountLeaf0, .StorageLeaf0]) (nonexistence .oldValue .oldHash (.iv 9)) ]

/-- `for variant in SegmentType::iter() { cb.condition(current_matches(&[variant]), body) }`.
/repo/src/gadgets/mpt_update.rs:1356-2036. -/
def forSegments (body : SegmentType → List (Cmd Fr)) : List (Cmd Fr) :=
  SegmentType.iter.map (fun variant => .cond (seg [variant]) (body variant))

/-- The empty-account block shared literally by mpt_update.rs:1370-1398, 1497-1525, 1580-1608,
1741-1769. -/
def emptyAccountBlock : List (Cmd Fr) :=
  [ .cond (segNext [.Start])
      ([ .assertEqual "old hash = new hash for empty account proof"
          AdvCol.oldHash.cur AdvCol.newHash.cur,
         .assertEqual "old value = new value for empty account proof"
          AdvCol.oldValue.cur AdvCol.newValue.cur ] ++
       nonexistence .oldValue .oldHash (.iv 3)) ]

/-- `cb.assert_equal("direction is 1", ..)`. /repo/src/gadgets/mpt_update.rs:1356-2036. -/
def directionIs1 : Cmd Fr := .assertEqual "direction is 1" AdvCol.direction.cur 1
/-- `cb.assert_zero("direction is 0", ..)`. /repo/src/gadgets/mpt_update.rs:1356-2036. -/
def directionIs0 : Cmd Fr := .assertZero "direction is 0" AdvCol.direction.cur

/-- `Query::Constant(F::from(1 << 32).square().invert().unwrap())`, mpt_update.rs:1441. -/
def inv64 : Query Fr := .const (((2 ^ 32 : ℕ) : Fr) * ((2 ^ 32 : ℕ) : Fr))⁻¹
/-- `Query::Constant(F::from(1 << 32).square())`, mpt_update.rs:1540. -/
def shift64 : Query Fr := .const (((2 ^ 32 : ℕ) : Fr) * ((2 ^ 32 : ℕ) : Fr))

/-- `configure_nonce`, mpt_update.rs:1356-1484. -/
def configureNonce (H : HashFn) : List (Cmd Fr) :=
  [ .assert "account leafs cannot be deleted" (Query.bnot (pth [.ExtensionOld])) ] ++
  forSegments (fun
    | .Start | .AccountTrie => emptyAccountBlock
    | .AccountLeaf0 => [ directionIs1 ]
    | .AccountLeaf1 =>
      [ directionIs0,
        .cond (pth [.ExtensionNew])
          [ .assertZero "poseidon code hash is 0 for nonce extension new at AccountLeaf1"
              AdvCol.sibling.cur ] ]
    | .AccountLeaf2 =>
      [ directionIs0,
        .cond (pth [.ExtensionNew])
          [ .assertEqual "sibling is hash(0, hash(0, 0)) for nonce extension new at AccountLeaf2"
              AdvCol.sibling.cur (Query.fromFr (zeroStorageRootKeccakCodehashHash H)) ] ]
    | .AccountLeaf3 =>
      [ directionIs0,
        .lookup "new nonce is 8 bytes" (List.zip [AdvCol.newValue.cur, 7] ByteRep.bytesLookup),
        .cond (pth [.Common])
          [ .lookup "old nonce is 8 bytes" (List.zip [AdvCol.oldValue.cur, 7] ByteRep.bytesLookup),
            .assertEqual "old_code_size = new_code_size for nonce update"
              ((AdvCol.oldHash.cur - AdvCol.oldValue.cur) * inv64)
              ((AdvCol.newHash.cur - AdvCol.newValue.cur) * inv64),
            .lookup "existing code size is 8 bytes"
              (List.zip [(AdvCol.oldHash.cur - AdvCol.oldValue.cur) * inv64, 7]
                ByteRep.bytesLookup) ],
        .cond (pth [.ExtensionNew])
          [ .assertZero "old nonce is 0 for ExtensionNew nonce update" AdvCol.oldValue.cur,
            .assertZero "code size is 0 for ExtensionNew nonce update"
              ((AdvCol.newHash.cur - AdvCol.newValue.cur) * inv64),
            .assertZero "balance is 0 for ExtensionNew nonce update" AdvCol.sibling.cur ] ]
    | _ => [])

/-- `configure_code_size`, mpt_update.rs:1486-1568. -/
def configureCodeSize : List (Cmd Fr) :=
  forSegments (fun
    | .Start | .AccountTrie => emptyAccountBlock
    | .AccountLeaf0 => [ directionIs1 ]
    | .AccountLeaf1 => [ directionIs0 ]
    | .AccountLeaf2 => [ directionIs0 ]
    | .AccountLeaf3 =>
      [ directionIs0,
        .lookup "old code size is 8 bytes" (List.zip [AdvCol.oldValue.cur, 7] ByteRep.bytesLookup),
        .lookup "new code size is 8 bytes" (List.zip [AdvCol.newValue.cur, 7] ByteRep.bytesLookup),
        .assertEqual "old nonce = new nonce for code size update"
          (AdvCol.oldHash.cur - AdvCol.oldValue.cur * shift64)
          (AdvCol.newHash.cur - AdvCol.newValue.cur * shift64),
        .lookup "nonce is 8 bytes"
          (List.zip [AdvCol.oldHash.cur - AdvCol.oldValue.cur * shift64, 7] ByteRep.bytesLookup) ]
    | _ => [])

/-- `configure_balance`, mpt_update.rs:1570-1697. -/
def configureBalance (H : HashFn) : List (Cmd Fr) :=
  forSegments (fun
    | .Start | .AccountTrie => emptyAccountBlock
    | .AccountLeaf0 =>
      [ .assertEqual "balance AccountLeaf0 domain is Leaf" AdvCol.domain.cur (dom .Leaf),
        directionIs1 ]
    | .AccountLeaf1 =>
      [ .assertEqual "balance AccountLeaf1 domain is AccountFields" AdvCol.domain.cur
          (dom .AccountFields),
        directionIs0,
        .cond (pth [.ExtensionNew])
          [ .assertZero "poseidon code hash is 0 for balance extension new at AccountLeaf1"
              AdvCol.sibling.cur ] ]
    | .AccountLeaf2 =>
      [ directionIs0,
        .cond (pth [.ExtensionNew])
          [ .assertEqual "sibling is hash(0, hash(0, 0)) for balance extension new at AccountLeaf2"
              AdvCol.sibling.cur (Query.fromFr (zeroStorageRootKeccakCodehashHash H)) ] ]
    | .AccountLeaf3 =>
      [ directionIs1,
        .cond (pth [.Common])
          [ .lookup "old balance is rlc(old_hash) and fits into 31 bytes"
              (List.zip [AdvCol.oldHash.cur, 30, AdvCol.oldValue.cur] ByteRep.rlcLookup) ],
        .lookup "new balance is rlc(new_hash) and fits into 31 bytes"
          (List.zip [AdvCol.newHash.cur, 30, AdvCol.newValue.cur] ByteRep.rlcLookup),
        .cond (pth [.ExtensionNew])
          [ .assertZero "sibling (code_size + nonce << 64) is 0 for new account)"
              AdvCol.sibling.cur ],
        .cond (pth [.ExtensionNew])
          [ .assertZero "nonce and code size are 0 for new account" AdvCol.sibling.cur ] ]
    | _ => [])

/-- `configure_poseidon_code_hash`, mpt_update.rs:1699-1728. -/
def configurePoseidonCodeHash : List (Cmd Fr) :=
  forSegments (fun
    | .AccountLeaf0 => [ directionIs1 ]
    | .AccountLeaf1 =>
      [ directionIs1,
        .assertEqual "old_hash is old poseidon code hash" AdvCol.oldValue.cur AdvCol.oldHash.cur,
        .assertEqual "new_hash is new poseidon code hash" AdvCol.newValue.cur AdvCol.newHash.cur ]
    | _ => [])

/-- The two word gadgets for the old and new value: mpt_update.rs:1783-1803 and 1850-1868. -/
def oldNewWordRlc : List (Cmd Fr) :=
  wordRlc .oldHash (.iv 0) (.iv 1) .oldValue (.sp 0) (.sp 1) ++
  wordRlc .newHash (.iv 2) (.iv 3) .newValue (.sp 2) (.sp 3)

/-- `configure_keccak_code_hash`, mpt_update.rs:1730-1811. -/
def configureKeccakCodeHash : List (Cmd Fr) :=
  forSegments (fun
    | .Start | .AccountTrie => emptyAccountBlock
    | .AccountLeaf0 => [ directionIs1 ]
    | .AccountLeaf1 => [ directionIs0 ]
    | .AccountLeaf2 => [ directionIs1 ]
    | .AccountLeaf3 => [ directionIs1 ] ++ oldNewWordRlc
    | _ => [])

/-- The word gadget for the storage key: mpt_update.rs:1832-1842 and 1965-1974. -/
def keyWordRlc : List (Cmd Fr) :=
  wordRlc .key (.iv 0) (.iv 1) .storageKeyRlc (.sp 0) (.sp 1)

/-- `configure_storage`, mpt_update.rs:1813-1904. -/
def configureStorage (H : HashFn) : List (Cmd Fr) :=
  forSegments (fun
    | .AccountLeaf0 => [ directionIs1 ]
    | .AccountLeaf1 => [ directionIs0 ]
    | .AccountLeaf2 => [ directionIs1 ]
    | .AccountLeaf3 => [ directionIs0 ] ++ keyWordRlc
    | .StorageLeaf0 =>
      [ directionIs1,
        .cond (pth [.Common]) oldNewWordRlc,
        .assertEqual "old_hash_minus_zero_storage_hash = old_hash - hash(0, 0)"
          (isZero 0).value.cur (AdvCol.oldHash.cur - Query.fromFr (zeroPairHash H)),
        .assertEqual "new_hash_minus_zero_storage_hash = new_hash - hash(0, 0)"
          (isZero 1).value.cur (AdvCol.newHash.cur - Query.fromFr (zeroPairHash H)),
        .assert "old hash != hash(0, 0)" (Query.bnot (isZero 0).current),
        .assert "new hash != hash(0, 0)" (Query.bnot (isZero 1).current) ]
    | _ => [])

/-- `configure_empty_storage`, mpt_update.rs:1906-1985. -/
def configureEmptyStorage : List (Cmd Fr) :=
  [ .assertZero "old value is 0 for empty storage" AdvCol.oldValue.cur,
    .assertZero "new value is 0 for empty storage" AdvCol.newValue.cur,
    .assert "empty storage proof does not extend trie" (pth [.Start, .Common]),
    .assertEqual "hash doesn't change for empty account" AdvCol.oldHash.cur AdvCol.newHash.cur,
    .cond (segNext [.Start]) (nonexistence .oldValue .oldHash (.iv 3)) ] ++
  forSegments (fun
    | .AccountLeaf0 => [ directionIs1 ]
    | .AccountLeaf1 => [ directionIs0 ]
    | .AccountLeaf2 => [ directionIs1 ]
    | .AccountLeaf3 => [ directionIs0 ] ++ keyWordRlc
    | _ => [])

/-- `configure_empty_account`, mpt_update.rs:1987-2036. -/
def configureEmptyAccount : List (Cmd Fr) :=
  [ .assertZero "old value is 0" AdvCol.oldValue.cur,
    .assertZero "new value is 0" AdvCol.newValue.cur,
    .assertEqual "hash doesn't change for empty account" AdvCol.oldHash.cur AdvCol.newHash.cur ] ++
  forSegments (fun
    | .Start | .AccountTrie =>
      [ .cond (segNext [.Start])
          ([ .assertEqual "new_hash = old_hash" AdvCol.oldHash.cur AdvCol.newHash.cur,
             .assertEqual "old value = new value for empty account proof"
              AdvCol.oldValue.cur AdvCol.newValue.cur ] ++
           nonexistence .oldValue .newHash (.iv 3)) ]
    | _ => [])

/-- The per-proof-type dispatch, mpt_update.rs:293-331. -/
def configureProofType (H : HashFn) : MPTProofType → List (Cmd Fr)
  | .NonceChanged => configureNonce H
  | .BalanceChanged => configureBalance H
  | .CodeSizeExists => configureCodeSize
  | .PoseidonCodeHashExists => configurePoseidonCodeHash
  | .AccountDoesNotExist => configureEmptyAccount
  | .CodeHashExists => configureKeccakCodeHash
  | .StorageChanged => configureStorage H
  | .StorageDoesNotExist => configureEmptyStorage
  | .AccountDestructed => [ .assertUnreachable "unimplemented!" ]

/-- The per-path-type dispatch, mpt_update.rs:262-267. -/
def configurePathType : PathType → List (Cmd Fr)
  | .Start => []
  | .Common => configureCommonPath
  | .ExtensionOld => configureExtensionOld
  | .ExtensionNew => configureExtensionNew

/-- The constraints on Start rows, mpt_update.rs:147-181. -/
def configureStart : Cmd Fr :=
  .cond (Query.band (seg [.Start]) FixCol.selector.cur)
    [ .poseidonLookup "account mpt key = h(address_high, address_low << 96)"
        (AdvCol.iv 0).cur ((AdvCol.iv 1).cur * .const ((2 ^ 96 : ℕ) : Fr)) (dom .Pair)
        AdvCol.key.cur,
      .lookup "address_high is 16 bytes" (List.zip [(AdvCol.iv 0).cur, 15] ByteRep.bytesLookup),
      .lookup "address_low is 4 bytes" (List.zip [(AdvCol.iv 1).cur, 3] ByteRep.bytesLookup),
      .lookup "rlc_old_root = rlc(old_root)"
        (List.zip [AdvCol.oldHash.cur, (AdvCol.sp 0).cur] Canonical.frRlcLookup),
      .lookup "rlc_new_root = rlc(new_root)"
        (List.zip [AdvCol.newHash.cur, (AdvCol.sp 1).cur] Canonical.frRlcLookup) ]

/-- The constraints common to all updates, mpt_update.rs:182-244. -/
def configureCommon : List (Cmd Fr) :=
  [ .cond (Query.bnot (seg [.Start]))
      [ .assertEqual "proof type does not change" (proofType.index 0) (proofType.index (-1)),
        .assertEqual "storage_key_rlc does not change"
          AdvCol.storageKeyRlc.cur AdvCol.storageKeyRlc.prev,
        .assertEqual "old_value does not change" AdvCol.oldValue.cur AdvCol.oldValue.prev,
        .assertEqual "new_value does not change" AdvCol.newValue.cur AdvCol.newValue.prev ],
    .cond (Query.bnot (seg [.Start, .AccountLeaf3]))
      [ .assertEqual "key can only change on Start or AccountLeaf3 rows"
          AdvCol.key.cur AdvCol.key.prev,
        .assertEqual "other_key can only change on Start or AccountLeaf3 rows"
          AdvCol.otherKey.cur AdvCol.otherKey.prev ],
    .cond (seg [.AccountTrie, .StorageTrie])
      [ .lookup "direction is correct for key and depth"
          (List.zip [AdvCol.key.cur, AdvCol.depth.cur - 1, AdvCol.direction.cur] KeyBit.lookup),
        .assertEqual "depth increases by 1 in trie segments" AdvCol.depth.cur
          (AdvCol.depth.prev + 1),
        .cond (pth [.Common])
          [ .lookup "direction is correct for other_key and depth"
              (List.zip [AdvCol.otherKey.cur, AdvCol.depth.cur - 1, AdvCol.direction.cur]
                KeyBit.lookup) ] ],
    .cond (Query.bnot (seg [.AccountTrie, .StorageTrie]))
      [ .assertZero "depth is 0 in non-trie segments" AdvCol.depth.cur ] ]

/-- mpt_update.rs:260-279. -/
def configurePaths : List (Cmd Fr) :=
  PathType.iter.map (fun variant => .cond (pth [variant])
    (.assert "transition for path_type" (pthNext (forwardTransitions variant)) ::
      configurePathType variant))

/-- mpt_update.rs:281-297. -/
def configureDomains : List (Cmd Fr) :=
  SegmentType.iter.map (fun variant => .cond (seg [variant])
    [ .assertZero "domain in allowed set for segment type"
        ((domains variant).foldl (fun product d => product * (AdvCol.domain.cur - dom d)) 1) ])

/-- mpt_update.rs:299-341. -/
def configureProofTypes (H : HashFn) : List (Cmd Fr) :=
  MPTProofType.iter.map (fun proof => .cond (prf [proof])
    (configureSegmentTransitions proof ++ configureProofType H proof))

/-- `MptUpdateConfig::configure`, mpt_update.rs:108-345. -/
def configure (H : HashFn) : List (Cmd Fr) :=
  proofType.configure ++
  ((isZero 0).configure ++ (isZero 1).configure ++ (isZero 2).configure ++ (isZero 3).configure) ++
  segmentType.configure ++ pathType.configure ++
  [ .assertEqual "segment is Start iff path is Start" (seg [.Start]) (pth [.Start]),
    configureStart ] ++
  configureCommon ++ configurePaths ++ configureDomains ++ configureProofTypes H

/-- `MptUpdateLookup::lookup`, mpt_update.rs:81-104: address, storage key RLC, proof type,
new root RLC, old root RLC, new value, old value. -/
def lookup : List (Query Fr) :=
  [ ((AdvCol.iv 0).cur * .const ((2 ^ 32 : ℕ) : Fr) + (AdvCol.iv 1).cur) * seg [.Start],
    AdvCol.storageKeyRlc.cur * seg [.Start],
    proofType.index 0 * seg [.Start],
    (AdvCol.sp 1).cur * seg [.Start],
    (AdvCol.sp 0).cur * seg [.Start],
    AdvCol.newValue.cur * seg [.Start],
    AdvCol.oldValue.cur * seg [.Start] ]

end MptUpdate

/-- The padding claim, /repo/src/mpt.rs:79-87. -/
def paddingRow : List (Query Fr) :=
  [0, 0, Query.ofNat MPTProofType.AccountDoesNotExist.toNat, 0, 0, 0, 0]

/-- The final-row constraint, /repo/src/mpt.rs:75-100. -/
def finalRow : Cmd Fr :=
  .cond FixCol.isFinalRow.cur
    (List.zipWith (fun p l => .assertEqual "final mpt update is padding" p l)
      paddingRow MptUpdate.lookup)

/-- `MptCircuitConfig::configure`, /repo/src/mpt.rs:39-112: all builder calls in order. -/
def mptCircuit (H : HashFn) : List (Cmd Fr) :=
  ByteBit.configure ++ ByteRep.configure ++ Canonical.configure ++ KeyBit.configure ++
  MptUpdate.configure H ++ [finalRow]

/-- `MptCircuitConfig::lookup_exprs`, /repo/src/mpt.rs:254-264. -/
def lookupExprs : List (Query Fr) := FixCol.selector.cur :: MptUpdate.lookup

end Mpt
