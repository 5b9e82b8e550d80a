import Verif.Props.GapCheck
import Verif.Assign.Force

set_option autoImplicit false

/-!
# Scenes: a state, a claim and a run for it

The examples of C66 are described by the levels their rows go through; the cells, the tables, the state and the
candidates for an operation are computed. `valid`, `accepts`, `free` and `untrue` check everything by evaluation,
`Scene.attack` (Props/Attacks) says what that means. Nothing here models code of its own.
-/

namespace Mpt
open Spec MptUpdate Types Props

/-- One row: its segment, path, domain, direction and sibling. `other` is the domain of the node on the side that
an extension turns into something else. -/
structure Level where
  seg : SegmentType
  path : PathType
  dom : HashDomain
  dir : Bool
  sib : Fr
  depth : ℕ := 0
  other : HashDomain := dom

/-- A state, a claim about it and the levels of a run. -/
structure Scene where
  /-- The accounts of the state: address, fields, values of slots. -/
  accounts : List (List ℕ × AccountData × List (ℕ × ℕ)) := []
  type : MPTProofType := .NonceChanged
  adr : List ℕ
  slot : ℕ := 0
  oldValue : ℕ
  newValue : ℕ
  /-- The other account key, the other slot key. -/
  otherKey : Fr := accountKey linHash adr
  otherSlot : Fr := Account.wordHash linHash slot
  /-- The data in the other leaf. -/
  otherData : Fr := 0
  levels : List Level
  /-- The hashes below the last level. -/
  oldEnd : Fr
  newEnd : Fr
  /-- The words in the storage leaf. -/
  oldWord : ℕ := 0
  newWord : ℕ := 0
  strings : List (List ℕ) := []

namespace Scene

def state (d : AccountData) (slots : List (ℕ × ℕ)) : AcctState :=
  slots.foldl (fun a s => Op.writeSlot linHash a s.1 s.2) (Op.fresh d)

def worldOf : List (List ℕ × AccountData × List (ℕ × ℕ)) → World
  | [] => World.initial
  | x :: l => (worldOf l).set linHash (accountKey linHash x.1) (state x.2.1 x.2.2)

variable (s : Scene)

def world : World := worldOf s.accounts
def num : ℕ := beVal s.adr
def key : Fr := accountKey linHash s.adr
def slotKey : Fr := Account.wordHash linHash s.slot

def input (v : Level) (h : Fr) (d : HashDomain) : Fr × Fr × Fr :=
  (lft (bitFr v.dir) v.sib h, rgt (bitFr v.dir) v.sib h, d.toFr)

/-- The domains of the old and of the new node of a level, given the path of the next one. -/
def oldDom (v : Level) (p : PathType) : HashDomain := if p = .ExtensionOld then v.other else v.dom
def newDom (v : Level) (p : PathType) : HashDomain := if p = .ExtensionNew then v.other else v.dom

def hash3 (x : Fr × Fr × Fr) : Fr := linHash x.1 x.2.1 x.2.2

def nextPath (l : List Level) : PathType := match l with | [] => .Start | v :: _ => v.path

/-- The hashes above the levels. -/
def oldTop : List Level → Fr
  | [] => s.oldEnd
  | v :: l => if v.path = .ExtensionNew then oldTop l else hash3 (input v (oldTop l) (oldDom v (nextPath l)))
def newTop : List Level → Fr
  | [] => s.newEnd
  | v :: l => if v.path = .ExtensionOld then newTop l else hash3 (input v (newTop l) (newDom v (nextPath l)))

/-- Everything that is hashed in the levels. -/
def levelPos : List Level → List (Fr × Fr × Fr)
  | [] => []
  | v :: l => (if v.path = .ExtensionNew then [] else [input v (s.oldTop l) (oldDom v (nextPath l))]) ++
      (if v.path = .ExtensionOld then [] else [input v (s.newTop l) (newDom v (nextPath l))]) ++ levelPos l

def inStorage (t : SegmentType) : Bool :=
  decide (t = .StorageTrie) || decide (t = .StorageLeaf0) || decide (t = .AccountLeaf3)

/-- The key cells of a row: those of the slot from the last account row on. -/
def keyOf (t : SegmentType) : Fr := if s.type = .StorageChanged ∧ inStorage t then s.slotKey else s.key
def otherOf (t : SegmentType) : Fr := if s.type = .StorageChanged ∧ inStorage t then s.otherSlot else s.otherKey

def high (x : ℕ) : Fr := ((x / 2 ^ 128 : ℕ) : Fr)
def low (x : ℕ) : Fr := ((x % 2 ^ 128 : ℕ) : Fr)

/-- The values in the intermediate cells. -/
def words (v : Level) : Fin 10 → Fr :=
  if v.seg = .StorageLeaf0 then
    ![high s.oldWord, low s.oldWord, high s.newWord, low s.newWord, 0, 0, 0, 0, 0, s.otherData]
  else if v.seg = .AccountLeaf3 ∧ s.type = .StorageChanged then
    ![high s.slot, low s.slot, newDomVal v.dom.toFr (bitFr v.dir), 0, 0, 0, 0, 0, 0, s.otherData]
  else ![0, 0, newDomVal v.dom.toFr (bitFr v.dir), s.otherData, 0, 0, 0, 0, 0, s.otherData]

def row (v : Level) (oldHash newHash : Fr) : URow where
  seg := v.seg
  path := v.path
  proof := s.type
  storageKeyRlc := (s.slot : Fr)
  oldValue := (s.oldValue : Fr)
  newValue := (s.newValue : Fr)
  domain := v.dom.toFr
  oldHash := oldHash
  newHash := newHash
  depth := (v.depth : Fr)
  key := s.keyOf v.seg
  otherKey := s.otherOf v.seg
  direction := bitFr v.dir
  sibling := v.sib
  iv := s.words v
  sp := s.words v
  iz := ![oldHash - zeroPairHash linHash, newHash - zeroPairHash linHash, s.keyOf v.seg - s.otherOf v.seg,
    if v.path = .ExtensionOld then newHash else oldHash]

def levelRows : List Level → List URow
  | [] => []
  | v :: l => s.row v (s.oldTop l) (s.newTop l) :: levelRows l

def rows : List URow :=
  startRow linHash 256 s.type s.num s.otherKey (s.slot : Fr) (s.oldTop s.levels) (s.newTop s.levels)
    (s.oldValue : Fr) (s.newValue : Fr) :: s.levelRows s.levels

def reqs : List KeyBit.Req :=
  s.levels.flatMap fun v => if v.depth = 0 then [] else
    [(s.keyOf v.seg, v.depth - 1, keyBit (s.keyOf v.seg) (v.depth - 1)),
      (s.otherOf v.seg, v.depth - 1, keyBit (s.otherOf v.seg) (v.depth - 1))]

def tab : Tab where
  H := linHash
  ρ := 256
  strings := startStrings s.num ++ s.strings
  keys := [s.oldTop s.levels, s.newTop s.levels, s.key, s.otherKey, s.slotKey, s.otherSlot]
  reqs := s.reqs
  pos := [startPos s.num, wordInput s.slot .Pair, wordInput s.oldWord .Pair, wordInput s.newWord .Pair] ++
    (if s.otherData = 0 then [] else
      [(if s.otherKey = s.key then s.otherSlot else s.otherKey, s.otherData, HashDomain.Leaf.toFr)]) ++
    s.levelPos s.levels

def stateInputs (a : AcctState) : List (Fr × Fr × Fr) :=
  accountInputs linHash (a.account linHash) ++ trieInputs linHash a.trie.trie

def inputs : List (Fr × Fr × Fr) :=
  (0, 0, HashDomain.Pair.toFr) :: s.tab.pos ++ trieInputs linHash s.world.trie.trie ++
    s.accounts.flatMap (fun x => stateInputs (state x.2.1 x.2.2) ++ x.2.2.map fun y => wordInput y.2 .Pair)

/-- The numbers below `2 ^ 256` with the same residue as `x`. -/
def lifts (x : ℕ) : List ℕ := (List.range 6).map fun k => x + k * frModulus

/-- All operations that the claim could be about. -/
def candidates : List Op :=
  if s.type = .NonceChanged then [.absent s.adr .NonceChanged, .setNonce s.adr s.newValue]
  else (lifts s.slot).flatMap fun x => (lifts s.newValue).map fun y => .setSlot s.adr x y

/-- The claim is true of this operation. -/
def trueOf (top : Fr) (op : Op) : Bool :=
  match op.apply linHash s.world with
  | none => false
  | some W' => decide ((s.oldValue : Fr) = valueCode 256 s.type (opValue linHash op s.world)) &&
      decide (top = W'.trie.hash linHash)

def dataOK (d : AccountData) : Bool :=
  decide (d.nonce < 2 ^ 64) && decide (d.codeSize < 2 ^ 64) && decide (d.balance < 2 ^ 248) &&
    decide (d.codeHash < 2 ^ 256)

/-- The state, the claim and the addresses are in range. -/
def valid : Bool :=
  s.adr.all (· < 256) && decide (s.adr.length = 20) && decide (s.slot < frModulus) && decide (s.newValue < frModulus) &&
  decide (s.type = .NonceChanged ∨ s.type = .StorageChanged) &&
  s.accounts.all (fun x => dataOK x.2.1 && x.2.2.all fun y => decide (y.2 < 2 ^ 256)) &&
  decide (s.oldTop s.levels = s.world.trie.hash linHash)

def gapWords : List ℕ := [s.oldWord, s.newWord]

def gaps : List Gap := [.accountKey, .slotKey, .emptyRoot, .levelBits, .lastLevel, .levelDomain, .lastDomain,
  .storageAccount, .newWord, .oldWord, .leafFollows, .newAccount, .removalPair, .removalSibling, .removalDomain]

/-- Nothing collides. -/
def free : Bool :=
  Force.list Force.triple s.inputs fun l => Force.list Force.nat (l.map fun x => (hash3 x).val) fun hs =>
    hs.all (fun x => !Nat.beq x 0) &&
    (l.zip hs).all fun x => (l.zip hs).all fun y => !Nat.beq x.2 y.2 || decide (x.1 = y.1)

/-- The run is accepted and leaves only the gap `g` open. -/
def accepts (g : Gap) : Bool :=
  s.tab.force fun T => Force.list Force.row s.rows fun l =>
    T.fits l && T.run l && gaps.all (fun g' => decide (g' = g) || T.gapRows s.gapWords g' l)

/-- No operation makes the claim true. -/
def untrue : Bool := Force.fr (s.newTop s.levels) fun top => s.candidates.all (fun op => !s.trueOf top op)

end Scene
end Mpt
