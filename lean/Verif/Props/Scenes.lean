import Verif.Props.Scene

set_option autoImplicit false

/-!
# One scene per missing constraint
-/

namespace Mpt
open Spec MptUpdate Types Props

namespace Scene

/-- The levels of an account leaf with the key `k` in a claim about the nonce. -/
def nonceLevels (p : PathType) (k : Fr) (a : Account) : List Level :=
  [⟨.AccountLeaf0, p, .Leaf, true, k, 0, .Leaf⟩,
    ⟨.AccountLeaf1, p, .AccountFields, false, a.poseidonCodeHash, 0, .AccountFields⟩,
    ⟨.AccountLeaf2, p, .AccountFields, false, a.right linHash, 0, .AccountFields⟩,
    ⟨.AccountLeaf3, p, .AccountFields, false, (a.balance : Fr), 0, .AccountFields⟩]

/-- The same in a claim about storage. -/
def accountLevels (p : PathType) (k : Fr) (a : Account) : List Level :=
  [⟨.AccountLeaf0, p, .Leaf, true, k, 0, .Leaf⟩,
    ⟨.AccountLeaf1, p, .AccountFields, false, a.poseidonCodeHash, 0, .AccountFields⟩,
    ⟨.AccountLeaf2, p, .AccountFields, true, a.left linHash, 0, .AccountFields⟩,
    ⟨.AccountLeaf3, p, .AccountFields, false, Account.wordHash linHash a.keccakCodeHash, 0, .AccountFields⟩]

def slotLevel (p : PathType) (k : Fr) : Level := ⟨.StorageLeaf0, p, .Leaf, true, k, 0, .Leaf⟩

/-- The account that the examples have in the state, and a new one. -/
def someData : AccountData := ⟨5, 1000, 2 ^ 255 + 3, 77, 11⟩
def someAccount : Account := (Op.fresh someData).account linHash
def newAccount (nonce : ℕ) : Account := (Op.fresh ⟨nonce, 0, 0, 0, 0⟩).account linHash

/-- The key of the address `demoAddress x`, the key of the slot `x`. -/
def keyAt (x : ℕ) : Fr := accountKey linHash (demoAddress x)
def slotAt (x : ℕ) : Fr := Account.wordHash linHash x
/-- The leaf of the account `someAccount` at the address `demoAddress x`. -/
def someLeaf (x : ℕ) : Fr := linHash (keyAt x) (someAccount.data linHash) HashDomain.Leaf.toFr
/-- A storage leaf. -/
def valueLeaf (slot value : ℕ) : Fr := linHash (slotAt slot) (slotAt value) HashDomain.Leaf.toFr

def byteStrings : List (List ℕ) := [beBytes 8 5, beBytes 8 9, beBytes 8 11]
def wordStrings (l : List ℕ) : List (List ℕ) := l.flatMap fun x => [beBytes 16 (x / 2 ^ 128), beBytes 16 (x % 2 ^ 128)]

/-- B3: the nonce of address 2 is shown as that of address 1, which does not exist. -/
def accountKeyScene : Scene where
  accounts := [(demoAddress 2, someData, [])]
  adr := demoAddress 1
  oldValue := 5
  newValue := 9
  levels := nonceLevels .Common (keyAt 2) someAccount
  oldEnd := nonceCode 5 11
  newEnd := nonceCode 9 11
  strings := byteStrings

/-- B3: the value of slot 2 is shown as that of slot 1. -/
def slotKeyScene : Scene where
  accounts := [(demoAddress 1, someData, [(2, 5)])]
  type := .StorageChanged
  adr := demoAddress 1
  slot := 1
  oldValue := 5
  newValue := 9
  levels := accountLevels .Common (keyAt 1) someAccount ++ [slotLevel .Common (slotAt 2)]
  oldEnd := slotAt 5
  newEnd := slotAt 9
  oldWord := 5
  newWord := 9
  strings := wordStrings [1, 5, 9]

/-- B4: the only account, that of address 2, is replaced by the new account of address 1. -/
def emptyRootScene : Scene where
  accounts := [(demoAddress 2, someData, [])]
  adr := demoAddress 1
  oldValue := 0
  newValue := 9
  otherKey := keyAt 2
  otherData := someAccount.data linHash
  levels := nonceLevels .ExtensionNew (keyAt 1) (newAccount 9)
  oldEnd := someLeaf 2
  newEnd := nonceCode 9 0
  strings := byteStrings

/-- An insertion of address 1 next to the leaf of address `x`, below the given levels. -/
def insertionScene (x : ℕ) (l : List Level) : Scene where
  accounts := [(demoAddress x, someData, [])]
  adr := demoAddress 1
  oldValue := 0
  newValue := 9
  otherKey := keyAt x
  otherData := someAccount.data linHash
  levels := l ++ nonceLevels .ExtensionNew (keyAt 1) (newAccount 9)
  oldEnd := someLeaf x
  newEnd := nonceCode 9 0
  strings := byteStrings

/-- B5: the keys of addresses 1 and 3 differ in bit 0 already, but the new leaf is put below bit 1. -/
def levelBitsScene : Scene := insertionScene 3
  [⟨.AccountTrie, .ExtensionNew, .Branch2, false, 0, 1, .Branch2⟩,
    ⟨.AccountTrie, .ExtensionNew, .Branch0, true, someLeaf 3, 2, .Branch0⟩]

/-- B5: the keys of addresses 0 and 1 agree in bit 0, but the leaves are put side by side there. -/
def lastLevelScene : Scene := insertionScene 0
  [⟨.AccountTrie, .ExtensionNew, .Branch0, false, someLeaf 0, 1, .Branch0⟩]

/-- B15: the level of bit 0, with an internal node on the left, gets the domain for one on the right. -/
def levelDomainScene : Scene := insertionScene 0
  [⟨.AccountTrie, .ExtensionNew, .Branch1, false, 0, 1, .Branch1⟩,
    ⟨.AccountTrie, .ExtensionNew, .Branch0, true, someLeaf 0, 2, .Branch0⟩]

/-- B15: a level with two leaves gets the domain for an internal node on the right. -/
def lastDomainScene : Scene := insertionScene 3
  [⟨.AccountTrie, .ExtensionNew, .Branch1, false, someLeaf 3, 1, .Branch1⟩]

/-- B6: a slot is written in an account that does not exist. -/
def storageAccountScene : Scene where
  type := .StorageChanged
  adr := demoAddress 1
  slot := 1
  oldValue := 0
  newValue := 9
  levels := accountLevels .ExtensionNew (keyAt 1) someAccount ++ [slotLevel .ExtensionNew (slotAt 1)]
  oldEnd := 0
  newEnd := slotAt 9
  newWord := 9
  strings := wordStrings [1]

/-- B8: 8 is stored, 9 claimed. -/
def newWordScene : Scene where
  accounts := [(demoAddress 1, someData, [])]
  type := .StorageChanged
  adr := demoAddress 1
  slot := 1
  oldValue := 0
  newValue := 9
  levels := accountLevels .Common (keyAt 1) someAccount ++ [slotLevel .ExtensionNew (slotAt 1)]
  oldEnd := 0
  newEnd := slotAt 8
  newWord := 8
  strings := wordStrings [1]

/-- B8: 5 was stored, 6 is claimed. -/
def oldWordScene : Scene where
  accounts := [(demoAddress 1, someData, [(1, 5)])]
  type := .StorageChanged
  adr := demoAddress 1
  slot := 1
  oldValue := 6
  newValue := 0
  levels := accountLevels .Common (keyAt 1) someAccount ++ [slotLevel .ExtensionOld (slotAt 1)]
  oldEnd := slotAt 5
  newEnd := 0
  oldWord := 5
  strings := wordStrings [1]

/-- B9: the nonce of an account that does not exist stays 0, but the only leaf is doubled. -/
def leafFollowsScene : Scene where
  accounts := [(demoAddress 3, someData, [])]
  adr := demoAddress 1
  oldValue := 0
  newValue := 0
  otherKey := keyAt 3
  otherData := someAccount.data linHash
  levels := [⟨.AccountTrie, .ExtensionNew, .Branch0, false, someLeaf 3, 1, .Branch0⟩]
  oldEnd := someLeaf 3
  newEnd := someLeaf 3

/-- B9: the nonce stays 0, but the account is created. -/
def newAccountScene : Scene where
  adr := demoAddress 1
  oldValue := 0
  newValue := 0
  levels := nonceLevels .ExtensionNew (keyAt 1) (newAccount 0)
  oldEnd := 0
  newEnd := 0
  strings := [beBytes 8 0]

/-- A removal of slot 1 from the storage of address 1. -/
def removalScene (slots : List (ℕ × ℕ)) (l : List Level) (newEnd : Fr) (otherSlot otherData : Fr) : Scene where
  accounts := [(demoAddress 1, someData, slots)]
  type := .StorageChanged
  adr := demoAddress 1
  slot := 1
  oldValue := 5
  newValue := 0
  otherSlot := otherSlot
  otherData := otherData
  levels := accountLevels .Common (keyAt 1) someAccount ++ l ++ [slotLevel .ExtensionOld (slotAt 1)]
  oldEnd := slotAt 5
  newEnd := newEnd
  oldWord := 5
  strings := wordStrings [1]

/-- B13: one of two leaves is removed, but the other one stays where it is. -/
def removalPairScene : Scene := removalScene [(1, 5), (2, 6)]
  [⟨.StorageTrie, .Common, .Branch0, true, valueLeaf 2 6, 1, .Branch0⟩] 0 (slotAt 1) 0

/-- B13: the other one moves up one level, but not two. -/
def removalSiblingScene : Scene := removalScene [(1, 5), (5, 6)]
  [⟨.StorageTrie, .Common, .Branch0, true, 0, 1, .Branch1⟩,
    ⟨.StorageTrie, .ExtensionOld, .Branch0, true, valueLeaf 5 6, 2, .Branch0⟩] (valueLeaf 5 6) (slotAt 5) (slotAt 6)

/-- B14: the level above, with an internal node on the left only, gets the domain for one on the right. -/
def removalDomainScene : Scene := removalScene [(1, 5), (5, 6), (2, 7), (3, 8)]
  [⟨.StorageTrie, .Common, .Branch1, true, linHash (valueLeaf 2 7) (valueLeaf 3 8) HashDomain.Branch0.toFr, 1, .Branch3⟩,
    ⟨.StorageTrie, .ExtensionOld, .Branch0, true, valueLeaf 5 6, 2, .Branch0⟩] (valueLeaf 5 6) (slotAt 5) (slotAt 6)

/-- The scene for each missing constraint. -/
def scene : Gap → Scene
  | .accountKey => accountKeyScene
  | .slotKey => slotKeyScene
  | .emptyRoot => emptyRootScene
  | .levelBits => levelBitsScene
  | .lastLevel => lastLevelScene
  | .levelDomain => levelDomainScene
  | .lastDomain => lastDomainScene
  | .storageAccount => storageAccountScene
  | .newWord => newWordScene
  | .oldWord => oldWordScene
  | .leafFollows => leafFollowsScene
  | .newAccount => newAccountScene
  | .removalPair => removalPairScene
  | .removalSibling => removalSiblingScene
  | .removalDomain => removalDomainScene

end Scene
end Mpt
