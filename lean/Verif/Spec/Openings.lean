import Verif.Spec.Bytes
import Verif.Enums

set_option autoImplicit false

/-!
# Specification: Merkle openings of the sparse binary trie

Independent of the circuit: what it means for a hash to commit, along the bits of a key, to a leaf,
to an empty node or to a leaf of another key. Everything is stated for a hash *relation* `R l r d h`,
"`h` is the hash of `(l, r)` in domain `d`"; `hashRel H S` is the relation "`h = H l r d` and
`(l, r, d)` is one of the inputs `S`", which records that the preimage is one of a known, finite set
of hash inputs.
-/

namespace Mpt.Spec
open Mpt (Fr HashFn HashDomain)

abbrev HashRel := Fr → Fr → Fr → Fr → Prop

/-- The graph of `H` on the inputs in `S`. -/
def hashRel (H : HashFn) (S : Fr → Fr → Fr → Prop) : HashRel :=
  fun l r d h => h = H l r d ∧ S l r d

/-- Bit `i` (0 = least significant) of the canonical integer of a key. -/
def keyBit (key : Fr) (i : ℕ) : Bool := key.val.testBit i

/-- One level of a Merkle path: the sibling's hash and the domain of the node. -/
structure Step where
  sibling : Fr
  domain : Fr

/-- The four domains of internal trie nodes. -/
def IsBranch (d : Fr) : Prop :=
  d = HashDomain.Branch0.toFr ∨ d = HashDomain.Branch1.toFr ∨ d = HashDomain.Branch2.toFr ∨
    d = HashDomain.Branch3.toFr

/-- `top` is the hash of a node whose child in direction `bit` is `h` and whose other child is the
sibling. -/
def Node (R : HashRel) (bit : Bool) (s : Step) (h top : Fr) : Prop :=
  if bit then R s.sibling h s.domain top else R h s.sibling s.domain top

/-- `top` is the hash of a subtree at depth `i` in which following the bits `i, i+1, ..` of `key`
through the given levels leads to a subtree with hash `h`. -/
def Opens (R : HashRel) (key : Fr) : ℕ → List Step → Fr → Fr → Prop
  | _, [], h, top => top = h
  | i, s :: rest, h, top => ∃ h', Node R (keyBit key i) s h' top ∧ Opens R key (i + 1) rest h h'

/-- All levels have branch domains, and there are at most 256 of them. -/
def GoodPath (path : List Step) : Prop :=
  path.length ≤ 256 ∧ ∀ s ∈ path, IsBranch s.domain

/-- Two keys have the same first `n` bits. -/
def SharesPrefix (k key : Fr) (n : ℕ) : Prop := ∀ i < n, keyBit k i = keyBit key i

/-- Hash of a leaf with key `k` and data hash `d`. -/
def IsLeaf (R : HashRel) (k d h : Fr) : Prop := R k d HashDomain.Leaf.toFr h

/-- The subtree `h` reached at depth `n` on the path of `key` does not contain `key`: it is empty,
or it is a leaf with another key on the same path. -/
def Absent (R : HashRel) (key : Fr) (n : ℕ) (h : Fr) : Prop :=
  h = 0 ∨ ∃ k d, k ≠ key ∧ SharesPrefix k key n ∧ h ≠ 0 ∧ IsLeaf R k d h

/-- As `Absent`, but without any statement about the other leaf's position. -/
def Absent' (R : HashRel) (key : Fr) (h : Fr) : Prop :=
  h = 0 ∨ ∃ k d, k ≠ key ∧ h ≠ 0 ∧ IsLeaf R k d h

/-- Hashes inside an account leaf: `left = h(nonce + 2^64 * code size, balance)`,
`right = h(storage root, keccak code hash)`, `data = h(h(left, right), poseidon code hash)`, and the
leaf is `h(key, data)`. -/
def IsLeft (R : HashRel) (nonceCodeSize balance h : Fr) : Prop :=
  R nonceCodeSize balance HashDomain.AccountFields.toFr h
def IsRight (R : HashRel) (storageRoot keccakHash h : Fr) : Prop :=
  R storageRoot keccakHash HashDomain.AccountFields.toFr h
/-- `h` is an account leaf with key `k`, whose field hashes are `left`, `right` and whose Poseidon
code hash is `pch`. -/
def IsAccount (R : HashRel) (k left right pch h : Fr) : Prop :=
  ∃ fields data, R left right HashDomain.AccountFields.toFr fields ∧
    R fields pch HashDomain.AccountFields.toFr data ∧ IsLeaf R k data h

/-- The nonce and the code size share one field element. -/
def nonceCode (nonce codeSize : ℕ) : Fr := ((nonce + 2 ^ 64 * codeSize : ℕ) : Fr)

/-- `h` is the (Pair) hash of the two 16-byte halves of the 256-bit word `x`. -/
def IsWord (R : HashRel) (x : ℕ) (h : Fr) : Prop :=
  x < 2 ^ 256 ∧ R ((x / 2 ^ 128 : ℕ) : Fr) ((x % 2 ^ 128 : ℕ) : Fr) HashDomain.Pair.toFr h

/-- Domain of a node after its child in direction `bit` has turned from a terminal node into a
branch node. `AccountFields` stands for the account leaf above a storage root. -/
def NextDomain (d : Fr) (bit : Bool) (d' : Fr) : Prop :=
  (d = HashDomain.Branch0.toFr ∧
    d' = if bit then HashDomain.Branch1.toFr else HashDomain.Branch2.toFr) ∨
  ((d = HashDomain.Branch1.toFr ∨ d = HashDomain.Branch2.toFr) ∧ d' = HashDomain.Branch3.toFr)

/-- Siblings of the new levels of an inserted leaf: empty, except the deepest, which is the subtree
`h` displaced by the insertion. -/
def ExtSiblings (ext : List Step) (h : Fr) : Prop :=
  ext = [] ∨ ∃ e, ext.map (·.sibling) = List.replicate e 0 ++ [h]

/-- Along the bits of `key`, `old` opens to a terminal node `hOld`, and `new` is the same tree in
which the new levels `ext` and the leaf `hNew` take the place of `hOld`. -/
inductive Inserted (R : HashRel) (key : Fr) (ext : List Step) (hOld hNew : Fr) :
    List Step → Fr → Fr → Prop
  /-- the whole tree is a terminal node -/
  | root {new} : Opens R key 0 ext hNew new → Inserted R key ext hOld hNew [] hOld new
  /-- the terminal node is below `pre` and the level `last` -/
  | below {pre last domain' y xo xn old new} :
      Opens R key 0 pre xo old → Opens R key 0 pre xn new →
      Node R (keyBit key pre.length) last hOld xo →
      Node R (keyBit key pre.length) ⟨last.sibling, domain'⟩ y xn →
      Opens R key (pre.length + 1) ext hNew y →
      (if ext = [] then domain' = last.domain ∧ hOld = 0
        else NextDomain last.domain (keyBit key pre.length) domain') →
      Inserted R key ext hOld hNew (pre ++ [last]) old new

theorem opens_append (R : HashRel) (key : Fr) (i : ℕ) (a b : List Step) (h top : Fr) :
    Opens R key i (a ++ b) h top ↔
      ∃ m, Opens R key i a m top ∧ Opens R key (i + a.length) b h m := by
  induction a generalizing i top with
  | nil => simp [Opens]
  | cons s a ih =>
    simp only [List.cons_append, Opens, ih, List.length_cons]
    constructor
    · rintro ⟨h', h1, m, h2, h3⟩
      exact ⟨m, ⟨h', h1, h2⟩, by rwa [show i + (a.length + 1) = i + 1 + a.length by omega]⟩
    · rintro ⟨m, ⟨h', h1, h2⟩, h3⟩
      exact ⟨h', h1, m, h2, by rwa [show i + (a.length + 1) = i + 1 + a.length by omega] at h3⟩

theorem opens_snoc (R : HashRel) (key : Fr) (i : ℕ) (a : List Step) (s : Step) (h m top : Fr)
    (h1 : Opens R key i a m top) (h2 : Node R (keyBit key (i + a.length)) s h m) :
    Opens R key i (a ++ [s]) h top := by
  rw [opens_append]
  exact ⟨m, h1, h, h2, rfl⟩

/-- With a functional hash relation the top is determined by the bottom. -/
theorem opens_functional {H : HashFn} {S : Fr → Fr → Fr → Prop} (key : Fr) (i : ℕ)
    (path : List Step) (h t1 t2 : Fr) (h1 : Opens (hashRel H S) key i path h t1)
    (h2 : Opens (hashRel H S) key i path h t2) : t1 = t2 := by
  induction path generalizing i t1 t2 with
  | nil => exact h1.trans h2.symm
  | cons s path ih =>
    obtain ⟨a, ha, ha'⟩ := h1
    obtain ⟨b, hb, hb'⟩ := h2
    have := ih _ _ _ ha' hb'
    subst this
    simp only [Node] at ha hb
    split at ha
    · rw [if_pos ‹_›] at hb; exact ha.1.trans hb.1.symm
    · rw [if_neg ‹_›] at hb; exact ha.1.trans hb.1.symm

end Mpt.Spec
