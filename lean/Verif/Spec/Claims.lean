import Verif.Spec.Openings

set_option autoImplicit false

/-!
# Specification: what the claims exposed by the circuit mean

A claim relates two roots, an account key (and a storage key) and two values. Each predicate below
says which opening of the roots backs a claim of one proof type.

`R` is the hash relation; `ρ` is the RLC challenge. Two remarks on what is *not* said here, because
the circuit does not enforce it (see `Verif.Props.Negative*`): the key `k` stored in the opened leaf
is not related to the claimed key, and the domains of newly inserted levels are arbitrary.
-/

namespace Mpt.Spec

variable (R : HashRel) (ρ : Fr)

/-- Following the bits of `key` from `root` leads to an empty node or to a leaf of another key. -/
def EmptyPath (key root : Fr) : Prop :=
  ∃ path h, GoodPath path ∧ Opens R key 0 path h root ∧ Absent R key path.length h

/-- Nothing changes, nothing is there. -/
structure NothingThere (key oldRoot newRoot oldValue newValue : Fr) : Prop where
  old : oldValue = 0
  new : newValue = 0
  roots : oldRoot = newRoot
  empty : EmptyPath R key oldRoot

/-- One path along the bits of `key` opens `oldRoot` to `leafOld` and `newRoot` to `leafNew`. -/
def SamePath (key oldRoot newRoot leafOld leafNew : Fr) : Prop :=
  ∃ path, GoodPath path ∧ Opens R key 0 path leafOld oldRoot ∧ Opens R key 0 path leafNew newRoot

/-- `newRoot` is `oldRoot` with the leaf `leaf` inserted along the bits of `key`, at a place where
`oldRoot` has an empty node or a leaf of another key. -/
def InsertedLeaf (key oldRoot newRoot leaf : Fr) : Prop :=
  ∃ pre ext hOld, GoodPath pre ∧ GoodPath ext ∧ pre.length + ext.length ≤ 256 ∧
    Inserted R key ext hOld leaf pre oldRoot newRoot ∧ ExtSiblings ext hOld ∧
    Absent R key pre.length hOld

/-- As `InsertedLeaf`, and the new leaf never overwrites a leaf: without new levels it takes the
place of an empty node. -/
def InsertedLeafStrict (key oldRoot newRoot leaf : Fr) : Prop :=
  ∃ pre ext hOld, GoodPath pre ∧ GoodPath ext ∧ pre.length + ext.length ≤ 256 ∧
    Inserted R key ext hOld leaf pre oldRoot newRoot ∧ ExtSiblings ext hOld ∧
    Absent R key pre.length hOld ∧ (ext = [] → hOld = 0)

/-- The root is moved although nothing is inserted: an empty node or a leaf of another key is pushed
down below new levels `ext`, and appears twice at the bottom. -/
def PushedDown (key oldRoot newRoot : Fr) : Prop :=
  ∃ pre ext h, ext ≠ [] ∧ GoodPath pre ∧ GoodPath ext ∧ pre.length + ext.length ≤ 256 ∧
    Inserted R key ext h h pre oldRoot newRoot ∧ ExtSiblings ext h ∧ Absent R key pre.length h

/-- A nonce update of an existing account leaf: all other fields are shared. -/
inductive NonceUpdate (key oldRoot newRoot oldValue newValue : Fr) : Prop
  | intro (k right pch balance : Fr) (nonceOld nonceNew codeSize : ℕ) (lo ln leafOld leafNew : Fr) :
      nonceOld < 2 ^ 64 → nonceNew < 2 ^ 64 → codeSize < 2 ^ 64 →
      oldValue = nonceOld → newValue = nonceNew →
      IsLeft R (nonceCode nonceOld codeSize) balance lo →
      IsLeft R (nonceCode nonceNew codeSize) balance ln →
      IsAccount R k lo right pch leafOld → IsAccount R k ln right pch leafNew →
      SamePath R key oldRoot newRoot leafOld leafNew →
      NonceUpdate key oldRoot newRoot oldValue newValue

/-- A new account leaf with the given nonce; code size, balance, Poseidon code hash are 0 and
`right = h(0, h(0, 0))`, i.e. storage root 0 and a keccak code hash word equal to 0. -/
inductive NonceCreation (H : HashFn) (key oldRoot newRoot oldValue newValue : Fr) : Prop
  | intro (k : Fr) (nonce : ℕ) (left leaf : Fr) :
      nonce < 2 ^ 64 → oldValue = 0 → newValue = nonce →
      IsLeft R (nonceCode nonce 0) 0 left →
      IsAccount R k left (H 0 (H 0 0 HashDomain.Pair.toFr) HashDomain.AccountFields.toFr) 0 leaf →
      InsertedLeaf R key oldRoot newRoot leaf →
      NonceCreation H key oldRoot newRoot oldValue newValue

/-- A balance update of an existing account leaf. -/
inductive BalanceUpdate (key oldRoot newRoot oldValue newValue : Fr) : Prop
  | intro (k right pch nonceCodeSize : Fr) (balOld balNew : ℕ) (lo ln leafOld leafNew : Fr) :
      balOld < 2 ^ 248 → balNew < 2 ^ 248 →
      oldValue = rlc ρ (beBytes 31 balOld) → newValue = rlc ρ (beBytes 31 balNew) →
      IsLeft R nonceCodeSize balOld lo → IsLeft R nonceCodeSize balNew ln →
      IsAccount R k lo right pch leafOld → IsAccount R k ln right pch leafNew →
      SamePath R key oldRoot newRoot leafOld leafNew →
      BalanceUpdate key oldRoot newRoot oldValue newValue

/-- A new account leaf with the given balance and everything else 0. -/
inductive BalanceCreation (H : HashFn) (key oldRoot newRoot oldValue newValue : Fr) : Prop
  | intro (k : Fr) (bal : ℕ) (left leaf : Fr) :
      bal < 2 ^ 248 → oldValue = 0 → newValue = rlc ρ (beBytes 31 bal) →
      IsLeft R 0 bal left →
      IsAccount R k left (H 0 (H 0 0 HashDomain.Pair.toFr) HashDomain.AccountFields.toFr) 0 leaf →
      InsertedLeaf R key oldRoot newRoot leaf →
      BalanceCreation H key oldRoot newRoot oldValue newValue

/-- A code-size update of an existing account leaf. -/
inductive CodeSizeUpdate (key oldRoot newRoot oldValue newValue : Fr) : Prop
  | intro (k right pch balance : Fr) (nonce sizeOld sizeNew : ℕ) (lo ln leafOld leafNew : Fr) :
      nonce < 2 ^ 64 → sizeOld < 2 ^ 64 → sizeNew < 2 ^ 64 →
      oldValue = sizeOld → newValue = sizeNew →
      IsLeft R (nonceCode nonce sizeOld) balance lo →
      IsLeft R (nonceCode nonce sizeNew) balance ln →
      IsAccount R k lo right pch leafOld → IsAccount R k ln right pch leafNew →
      SamePath R key oldRoot newRoot leafOld leafNew →
      CodeSizeUpdate key oldRoot newRoot oldValue newValue

/-- A keccak code-hash update of an existing account leaf. -/
inductive CodeHashUpdate (key oldRoot newRoot oldValue newValue : Fr) : Prop
  | intro (k left pch storageRoot : Fr) (hashOld hashNew : ℕ) (ho hn ro rn leafOld leafNew : Fr) :
      oldValue = rlc ρ (beBytes 32 hashOld) → newValue = rlc ρ (beBytes 32 hashNew) →
      IsWord R hashOld ho → IsWord R hashNew hn →
      IsRight R storageRoot ho ro → IsRight R storageRoot hn rn →
      IsAccount R k left ro pch leafOld → IsAccount R k left rn pch leafNew →
      SamePath R key oldRoot newRoot leafOld leafNew →
      CodeHashUpdate key oldRoot newRoot oldValue newValue

/-- A Poseidon code-hash update of an existing account leaf: `fields` commits to all other fields. -/
inductive PoseidonCodeHashUpdate (key oldRoot newRoot oldValue newValue : Fr) : Prop
  | intro (k fields dataOld dataNew leafOld leafNew : Fr) :
      R fields oldValue HashDomain.AccountFields.toFr dataOld →
      R fields newValue HashDomain.AccountFields.toFr dataNew →
      IsLeaf R k dataOld leafOld → IsLeaf R k dataNew leafNew →
      SamePath R key oldRoot newRoot leafOld leafNew →
      PoseidonCodeHashUpdate key oldRoot newRoot oldValue newValue

/-- The storage root of an account leaf changes and nothing else does. -/
inductive StorageRootUpdate (key oldRoot newRoot storageOld storageNew : Fr) : Prop
  | intro (k left pch keccakHash ro rn leafOld leafNew : Fr) :
      IsRight R storageOld keccakHash ro → IsRight R storageNew keccakHash rn →
      IsAccount R k left ro pch leafOld → IsAccount R k left rn pch leafNew →
      SamePath R key oldRoot newRoot leafOld leafNew →
      StorageRootUpdate key oldRoot newRoot storageOld storageNew

/-- The storage key `slot` is the hash of a 256-bit word whose RLC is `slotRlc`. -/
def IsSlot (slot slotRlc : Fr) : Prop := ∃ x, IsWord R x slot ∧ slotRlc = rlc ρ (beBytes 32 x)

/-- An existing storage slot changes its value: both words are hashed in the leaf. -/
inductive SlotUpdate (slot storageOld storageNew oldValue newValue : Fr) : Prop
  | intro (k : Fr) (wordOld wordNew : ℕ) (ho hn leafOld leafNew : Fr) :
      oldValue = rlc ρ (beBytes 32 wordOld) → newValue = rlc ρ (beBytes 32 wordNew) →
      wordOld ≠ 0 → wordNew ≠ 0 →
      IsWord R wordOld ho → IsWord R wordNew hn →
      IsLeaf R k ho leafOld → IsLeaf R k hn leafNew →
      SamePath R slot storageOld storageNew leafOld leafNew →
      SlotUpdate slot storageOld storageNew oldValue newValue

/-- A slot is inserted: `hNew` is the hash stored in the new leaf. The exposed new value is *not*
related to `hNew` (the circuit does not relate them). -/
inductive SlotInsertion (zeroWordHash slot storageOld storageNew oldValue : Fr) : Prop
  | intro (k hNew leaf : Fr) :
      oldValue = 0 → hNew ≠ zeroWordHash → IsLeaf R k hNew leaf →
      InsertedLeafStrict R slot storageOld storageNew leaf →
      SlotInsertion zeroWordHash slot storageOld storageNew oldValue

/-- A slot is deleted: the insertion read backwards. The exposed old value is *not* related to the
hash `hOld` stored in the deleted leaf. -/
inductive SlotDeletion (zeroWordHash slot storageOld storageNew newValue : Fr) : Prop
  | intro (k hOld leaf : Fr) :
      newValue = 0 → hOld ≠ zeroWordHash → IsLeaf R k hOld leaf →
      InsertedLeafStrict R slot storageNew storageOld leaf →
      SlotDeletion zeroWordHash slot storageOld storageNew newValue

/-- An account leaf is inserted together with a storage trie containing one slot. All account fields
but the storage root are arbitrary, and the exposed new value is not related to the stored hash. -/
inductive AccountAndSlotCreation (zeroWordHash key slot oldRoot newRoot oldValue : Fr) : Prop
  | intro (k left right pch keccakHash storageRoot leaf k' hNew slotLeaf : Fr) (path : List Step) :
      oldValue = 0 → hNew ≠ zeroWordHash →
      IsRight R storageRoot keccakHash right → IsAccount R k left right pch leaf →
      InsertedLeaf R key oldRoot newRoot leaf →
      GoodPath path → Opens R slot 0 path slotLeaf storageRoot → IsLeaf R k' hNew slotLeaf →
      AccountAndSlotCreation zeroWordHash key slot oldRoot newRoot oldValue

/-- What a StorageChanged claim can mean; `z` is the hash of the zero word. -/
inductive StorageClaim (z key slot slotRlc oldRoot newRoot oldValue newValue : Fr) :
    Prop
  | update (storageOld storageNew : Fr) :
      IsSlot R ρ slot slotRlc → StorageRootUpdate R key oldRoot newRoot storageOld storageNew →
      SlotUpdate R ρ slot storageOld storageNew oldValue newValue →
      StorageClaim z key slot slotRlc oldRoot newRoot oldValue newValue
  | insertion (storageOld storageNew : Fr) :
      IsSlot R ρ slot slotRlc → StorageRootUpdate R key oldRoot newRoot storageOld storageNew →
      SlotInsertion R z slot storageOld storageNew oldValue →
      StorageClaim z key slot slotRlc oldRoot newRoot oldValue newValue
  | deletion (storageOld storageNew : Fr) :
      IsSlot R ρ slot slotRlc → StorageRootUpdate R key oldRoot newRoot storageOld storageNew →
      SlotDeletion R z slot storageOld storageNew newValue →
      StorageClaim z key slot slotRlc oldRoot newRoot oldValue newValue
  | creation :
      IsSlot R ρ slot slotRlc →
      AccountAndSlotCreation R z key slot oldRoot newRoot oldValue →
      StorageClaim z key slot slotRlc oldRoot newRoot oldValue newValue

/-- The account is there and its storage trie does not contain the slot. -/
inductive NoSlot (key slot root : Fr) : Prop
  | intro (k left right pch keccakHash storageRoot leaf : Fr) (path : List Step) :
      GoodPath path → Opens R key 0 path leaf root → IsAccount R k left right pch leaf →
      IsRight R storageRoot keccakHash right → EmptyPath R slot storageRoot →
      NoSlot key slot root

/-- The account key of a 160-bit address: the Pair hash of its high 16 bytes and of its low 4 bytes
shifted to the top of a 16-byte word. -/
def IsAddressKey (address : ℕ) (key : Fr) : Prop :=
  address < 2 ^ 160 ∧ R ((address / 2 ^ 32 : ℕ) : Fr) ((address % 2 ^ 32 * 2 ^ 96 : ℕ) : Fr)
    HashDomain.Pair.toFr key

/-- The RLC of the 32 canonical bytes of a root. -/
def rootRlc (root : Fr) : Fr := rlc ρ (frBytes root)

theorem isBranch_next {d d' : Fr} {b : Bool} (h : NextDomain d b d') : IsBranch d' := by
  rcases h with ⟨_, h⟩ | ⟨_, h⟩ <;> rw [h]
  · cases b <;> simp [IsBranch]
  · simp [IsBranch]

/-- The new root of an insertion opens to the inserted leaf. -/
theorem Inserted.opens_new {R : HashRel} {key hOld hNew old new : Fr} {pre ext : List Step}
    (h : Inserted R key ext hOld hNew pre old new) (h1 : ∀ s ∈ pre, IsBranch s.domain)
    (h2 : ∀ s ∈ ext, IsBranch s.domain) :
    ∃ path, path.length = pre.length + ext.length ∧ (∀ s ∈ path, IsBranch s.domain) ∧
      Opens R key 0 path hNew new := by
  cases h with
  | root h => exact ⟨ext, by simp, h2, h⟩
  | @below pre last domain' y xo xn _ _ o1 o2 n1 n2 o3 hd =>
    refine ⟨pre ++ [⟨last.sibling, domain'⟩] ++ ext, (by simp; omega), ?_, ?_⟩
    · intro s hs
      simp only [List.mem_append, List.mem_singleton] at hs
      rcases hs with (hs | hs) | hs
      · exact h1 s (by simp [hs])
      · subst hs
        split at hd
        · rw [show domain' = last.domain from hd.1]; exact h1 last (by simp)
        · exact isBranch_next hd
      · exact h2 s hs
    · rw [opens_append]
      refine ⟨y, opens_snoc _ _ _ _ _ _ _ _ o2 (by simpa using n2), by simpa using o3⟩

/-- The old root of an insertion opens to the displaced node. -/
theorem Inserted.opens_old {R : HashRel} {key hOld hNew old new : Fr} {pre ext : List Step}
    (h : Inserted R key ext hOld hNew pre old new) : Opens R key 0 pre hOld old := by
  cases h with
  | root h => rfl
  | below o1 o2 n1 n2 o3 hd => exact opens_snoc _ _ _ _ _ _ _ _ o1 (by simpa using n1)

end Mpt.Spec
