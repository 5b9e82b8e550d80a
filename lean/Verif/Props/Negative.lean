import Verif.Props.Content
import Verif.Assign.DemoRuns2

set_option autoImplicit false

/-!
# Properties that the circuit does not have

Counterexamples to C26, C29, C30, C31, C32: witnesses that the circuit accepts, with sound lookup tables
and a sound Poseidon table, whose exposed claims contradict the property. They hold for *every* hash
function (with the stated non-degeneracy), so they are defects of the constraint system and do not
depend on collisions.
-/

namespace Mpt.Props
open Mpt Spec MptUpdate

theorem addrKey_eq (H : HashFn) (a : ℕ) : addrKey H a = addressKey H a := by
  rw [addrKey, addressKey, Nat.cast_mul]

/-- The account with another nonce. -/
def withNonce (acc : Account) (n : ℕ) : Account := { acc with nonce := n }
/-- The account with another storage root. -/
def withStorage (acc : Account) (root : Fr) : Account := { acc with storageRoot := root }

/-- The demo leaf of an account. -/
def leafOf (H : HashFn) (k : Fr) (acc : Account) : Leaf :=
  ⟨k, acc.poseidonCodeHash, acc.right H, (acc.balance : Fr), acc.codeSize⟩

theorem leafOf_hash (H : HashFn) (k : Fr) (acc : Account) (n : ℕ) :
    (leafOf H k acc).hash H n = (Trie.leaf k ((withNonce acc n).data H)).hash H := rfl

/-- **C31 is false.** Take any account (in range) stored under any key `k` that is *not* the key of
address `a`, as the only leaf of a trie, so that the trie stores nothing for `a`. The circuit accepts
the claim "the nonce of `a` changes from the stored nonce to `m`": the key inside the opened leaf is not
compared with the address's key. -/
theorem c31_false (H : HashFn) (ρ : Fr) {a m : ℕ} (ha : a < 2 ^ 160) (hm : m < 2 ^ 64) (acc : Account)
    (hacc : acc.InRange) {k : Fr} (hk : k ≠ addressKey H a) :
    ∃ w, w.chal = ρ ∧ Accepted H 2049 2049 w ∧ TablesOK w 2049 ∧
      Exposes w 2049 .NonceChanged (a : Fr) 0
        (rootRlc ρ ((Trie.leaf k (acc.data H)).hash H))
        (rootRlc ρ ((Trie.leaf k ((withNonce acc m).data H)).hash H)) (acc.nonce : Fr) (m : Fr) ∧
      (Trie.leaf k (acc.data H)).get (addressKey H a) = none ∧
      (Trie.leaf k ((withNonce acc m).data H)).get (addressKey H a) = none := by
  obtain ⟨h1, h2, h3⟩ := nonceDemo_accepted H ρ ha (leafOf H k acc) hacc.nonce hm hacc.codeSize
  exact ⟨_, rfl, h1, h2, h3, by simp [Trie.get, Trie.getFrom, hk], by simp [Trie.get, Trie.getFrom, hk]⟩

/-- The hypotheses of `c31_false` can be met: some key differs from the address's. -/
example (H : HashFn) : ∃ (a m : ℕ) (acc : Account) (k : Fr), a < 2 ^ 160 ∧ m < 2 ^ 64 ∧ acc.InRange ∧
    k ≠ addressKey H a :=
  ⟨1, 6, ⟨5, 0, 0, 0, 0, 0⟩, addressKey H 1 + 1, by norm_num, by norm_num,
    ⟨by norm_num, by norm_num, by norm_num, by norm_num⟩, by simp⟩

/-- **C55 is false.** The storage key RLC of a claim that is not about storage is not constrained: for every
account stored under the key of its address as the only leaf of a trie, and for *every* field element `v`, the
circuit accepts the (true) claim "the nonce of `a` changes" with `v` in the place of the storage key. -/
theorem c55_false (H : HashFn) (ρ : Fr) {a m : ℕ} (ha : a < 2 ^ 160) (hm : m < 2 ^ 64) (acc : Account)
    (hacc : acc.InRange) (v : Fr) :
    ∃ w, w.chal = ρ ∧ Accepted H 2049 2049 w ∧ TablesOK w 2049 ∧
      Exposes w 2049 .NonceChanged (a : Fr) v
        (rootRlc ρ ((Trie.leaf (addressKey H a) (acc.data H)).hash H))
        (rootRlc ρ ((Trie.leaf (addressKey H a) ((withNonce acc m).data H)).hash H)) (acc.nonce : Fr) (m : Fr) := by
  obtain ⟨h1, h2, h3⟩ := nonceDemo_accepted H ρ ha (leafOf H (addressKey H a) acc) hacc.nonce hm hacc.codeSize v
  exact ⟨_, rfl, h1, h2, h3⟩

/-- **C29 and C20 (0 → 0) are false.** For every address the circuit accepts the claim "the nonce of `a`
changes from 0 to 0" from the empty trie (root 0) to the branch node with two empty children. -/
theorem c29_false (H : HashFn) (ρ : Fr) {a : ℕ} (ha : a < 2 ^ 160)
    (hH : H 0 0 HashDomain.Branch0.toFr ≠ 0) :
    ∃ w oldRoot newRoot, w.chal = ρ ∧ Accepted H 2049 2049 w ∧ TablesOK w 2049 ∧ oldRoot ≠ newRoot ∧
      oldRoot = Trie.empty.hash H ∧
      newRoot = (Trie.node HashDomain.Branch0.toFr .empty .empty).hash H ∧
      Exposes w 2049 .NonceChanged (a : Fr) 0 (rootRlc ρ oldRoot) (rootRlc ρ newRoot) 0 0 := by
  obtain ⟨h1, h2, h3⟩ := pushDemo_accepted H ρ ha (.inl rfl)
  exact ⟨_, 0, pushRoot H, rfl, h1, h2, fun h => hH h.symm, rfl, rfl, h3⟩

/-- **C21 (0 → 0) is false** in the same way: "the balance of `a` changes from 0 to 0" moves the root. -/
theorem c21_false (H : HashFn) (ρ : Fr) {a : ℕ} (ha : a < 2 ^ 160)
    (hH : H 0 0 HashDomain.Branch0.toFr ≠ 0) :
    ∃ w oldRoot newRoot, w.chal = ρ ∧ Accepted H 2049 2049 w ∧ TablesOK w 2049 ∧ oldRoot ≠ newRoot ∧
      oldRoot = Trie.empty.hash H ∧
      newRoot = (Trie.node HashDomain.Branch0.toFr .empty .empty).hash H ∧
      Exposes w 2049 .BalanceChanged (a : Fr) 0 (rootRlc ρ oldRoot) (rootRlc ρ newRoot) 0 0 := by
  obtain ⟨h1, h2, h3⟩ := pushDemo_accepted H ρ ha (.inr rfl)
  exact ⟨_, 0, pushRoot H, rfl, h1, h2, fun h => hH h.symm, rfl, rfl, h3⟩

/-- With the challenge 256 (where the RLC of the bytes of a root is the root) even the exposed root
RLCs differ. -/
theorem c29_false_exposed (H : HashFn) {a : ℕ} (ha : a < 2 ^ 160)
    (hH : H 0 0 HashDomain.Branch0.toFr ≠ 0) :
    ∃ w oldRootRlc newRootRlc, Accepted H 2049 2049 w ∧ TablesOK w 2049 ∧ oldRootRlc ≠ newRootRlc ∧
      Exposes w 2049 .NonceChanged (a : Fr) 0 oldRootRlc newRootRlc 0 0 := by
  obtain ⟨w, o, nn, -, h1, h2, h3, -, -, h4⟩ := c29_false H 256 ha hH
  have rl : ∀ x : Fr, rootRlc 256 x = x := by
    intro x
    have h : ∀ l : List ℕ, Spec.rlc (256 : Fr) l = ((beVal l : ℕ) : Fr) := by
      intro l
      induction l using List.reverseRecOn with
      | nil => simp [Spec.rlc, beVal]
      | append_singleton l b ih => rw [rlc_concat, beVal_concat, ih]; push_cast; ring
    rw [rootRlc, h, beVal_frBytes, ZMod.natCast_zmod_val]
  exact ⟨w, _, _, h1, h2, by rw [rl, rl]; exact h3, h4⟩

/-- **C32 is false for insertions.** A trie consists of one leaf, of any key `k₀` other than the key of
address `a`. The circuit accepts the claim "the nonce of `a` changes from 0 to `m`" from this trie to
the trie that consists of the new leaf of `a` only: the other account is gone. -/
theorem c32_false (H : HashFn) (ρ : Fr) {a m : ℕ} (ha : a < 2 ^ 160) (hm : m < 2 ^ 64) {k₀ d₀ : Fr}
    (hk : k₀ ≠ addressKey H a) (h0 : (Trie.leaf k₀ d₀).hash H ≠ 0) :
    ∃ w d, w.chal = ρ ∧ Accepted H 2049 2049 w ∧ TablesOK w 2049 ∧
      Exposes w 2049 .NonceChanged (a : Fr) 0
        (rootRlc ρ ((Trie.leaf k₀ d₀).hash H))
        (rootRlc ρ ((Trie.leaf (addressKey H a) d).hash H)) 0 (m : Fr) ∧
      d = (⟨m, 0, 0, 0, 0, 0⟩ : Account).data H ∧
      (Trie.leaf k₀ d₀).get k₀ = some d₀ ∧ (Trie.leaf (addressKey H a) d).get k₀ = none := by
  obtain ⟨h1, h2, h3⟩ := overwriteDemo_accepted H ρ ha hm (d₀ := d₀)
    (fun h => hk (h.symm.trans (addrKey_eq H a))) h0
  refine ⟨_, (⟨m, 0, 0, 0, 0, 0⟩ : Account).data H, rfl, h1, h2, ?_, rfl,
    by simp [Trie.get, Trie.getFrom], by simp [Trie.get, Trie.getFrom, Ne.symm hk]⟩
  rw [← addrKey_eq]
  have e : (freshLeaf H a).hash H m =
      (Trie.leaf (addrKey H a) ((⟨m, 0, 0, 0, 0, 0⟩ : Account).data H)).hash H := by
    simp [freshLeaf, Leaf.hash, Leaf.data, Leaf.fields, Leaf.left, Trie.hash, Account.data,
      Account.fields, Account.left, Account.right, Account.wordHash, zeroStorageRootKeccakCodehashHash,
      zeroPairHash]
  rw [← e]
  exact h3

/-- The insertion of a word into the empty storage trie of an account. -/
def insertionOf (H : HashFn) (a : ℕ) (acc : Account) (slot x : ℕ) : Insertion where
  k := addressKey H a
  left := acc.left H
  pch := acc.poseidonCodeHash
  keccak := Account.wordHash H acc.keccakCodeHash
  slot := slot
  k' := Account.wordHash H slot
  value := Account.wordHash H x

/-- **C26 (and C30 for storage) is false.** The account of `a` is the only leaf of a trie and has an
empty storage trie; the word `x` is inserted under the storage key `slot`. The circuit accepts this
update with *any* exposed new value `v`. -/
theorem c26_false (H : HashFn) (ρ : Fr) {a slot x : ℕ} (ha : a < 2 ^ 160) (hs : slot < 2 ^ 256)
    (acc : Account) (h0 : Account.wordHash H 0 ≠ 0)
    (hx : Account.wordHash H x ≠ Account.wordHash H 0) (v : Fr) :
    ∃ w, w.chal = ρ ∧ Accepted H 2049 2049 w ∧ TablesOK w 2049 ∧
      Exposes w 2049 .StorageChanged (a : Fr) (Spec.rlc ρ (beBytes 32 slot))
        (rootRlc ρ ((Trie.leaf (addressKey H a) ((withStorage acc (Trie.empty.hash H)).data H)).hash H))
        (rootRlc ρ ((Trie.leaf (addressKey H a) ((withStorage acc
          ((Trie.leaf (Account.wordHash H slot) (Account.wordHash H x)).hash H)).data H)).hash H))
        0 v := by
  have z : zeroPairHash H = Account.wordHash H 0 := by simp [zeroPairHash, Account.wordHash]
  obtain ⟨h1, h2, h3⟩ := insertion_accepted H ρ ha (insertionOf H a acc slot x) hs (by rw [z]; exact h0)
    (by rw [z]; exact hx) v
  exact ⟨_, rfl, h1, h2, h3⟩

end Mpt.Props
