import Verif.Props.PatchedRun
import Verif.Props.PatchedHistory

set_option autoImplicit false

/-!
# The missing constraints one by one

`Patched` (C63), taken apart into conditions of which each one is needed (C66).
-/

namespace Mpt
open Spec MptUpdate

/-- The missing constraints of /repo/src/gadgets/mpt_update.rs, one by one. -/
inductive Gap
  /-- B3: the key hashed into an account leaf. -/
  | accountKey
  /-- B3: the key hashed into a storage leaf. -/
  | slotKey
  /-- B4 -/
  | emptyRoot
  /-- B5: the levels added by an insertion follow the other key. -/
  | levelBits
  /-- B5: and end where the keys differ. -/
  | lastLevel
  /-- B15: the domain of an added level that is not the last. -/
  | levelDomain
  /-- B15: the domain of the last added level. -/
  | lastDomain
  /-- B6 -/
  | storageAccount
  /-- B8, insertions -/
  | newWord
  /-- B8, deletions -/
  | oldWord
  /-- B9: an insertion ends with a leaf. -/
  | leafFollows
  /-- B9: a new account is not empty. -/
  | newAccount
  /-- B13: a node with two leaves is not left with one. -/
  | removalPair
  /-- B13: the node above a collapsed one does not have an empty sibling. -/
  | removalSibling
  /-- B14 -/
  | removalDomain
  deriving DecidableEq

/-- The gap is closed: the witness satisfies the missing constraint. -/
def Gap.Closed (H : HashFn) (n U : ℕ) (w : Witness Fr) : Gap → Prop
  | .accountKey => ∀ r, Enabled n r → segAt w r = .AccountLeaf0 → w.adv .sibling r = w.adv .key r
  | .slotKey => ∀ r, Enabled n r → segAt w r = .StorageLeaf0 → w.adv .sibling r = w.adv .key r
  | .emptyRoot => ∀ r, Enabled n r → Enabled n (r + 1) → segAt w r = .Start → segAt w (r + 1) = .AccountLeaf0 →
      pathAt w (r + 1) = .ExtensionNew → w.adv .oldHash r = 0
  | .levelBits => ∀ r, Enabled n r → IsTrieRow w r → pathAt w r = .ExtensionNew → IsTrieRow w (r + 1) →
      ∀ i : ℕ, i < 256 → w.adv .depth r = ((i + 1 : ℕ) : Fr) →
        w.adv .direction r = bitFr (keyBit (w.adv .otherKey r) i)
  | .lastLevel => ∀ r, Enabled n r → IsTrieRow w r → pathAt w r = .ExtensionNew → ¬ IsTrieRow w (r + 1) →
      ∀ i : ℕ, i < 256 → w.adv .depth r = ((i + 1 : ℕ) : Fr) →
        w.adv .direction r ≠ bitFr (keyBit (w.adv .otherKey r) i)
  | .levelDomain => ∀ r, Enabled n r → IsTrieRow w r → pathAt w r = .ExtensionNew → IsTrieRow w (r + 1) →
      ∀ i : ℕ, i < 256 → w.adv .depth r = ((i + 1 : ℕ) : Fr) →
        w.adv .domain r = if w.adv .direction r = 1 then HashDomain.Branch1.toFr else HashDomain.Branch2.toFr
  | .lastDomain => ∀ r, Enabled n r → IsTrieRow w r → pathAt w r = .ExtensionNew → ¬ IsTrieRow w (r + 1) →
      ∀ i : ℕ, i < 256 → w.adv .depth r = ((i + 1 : ℕ) : Fr) →
        w.adv .domain r = HashDomain.Branch0.toFr
  | .storageAccount => ∀ r, Enabled n r → segAt w r = .AccountLeaf0 → proofAt w r = .StorageChanged →
      pathAt w r = .Common
  | .newWord => ∀ r, Enabled n r → segAt w r = .StorageLeaf0 → pathAt w r = .ExtensionNew →
      ∃ x, IsWord (PR H w U) x (w.adv .newHash r) ∧ w.adv .newValue r = Spec.rlc w.chal (beBytes 32 x)
  | .oldWord => ∀ r, Enabled n r → segAt w r = .StorageLeaf0 → pathAt w r = .ExtensionOld →
      ∃ x, IsWord (PR H w U) x (w.adv .oldHash r) ∧ w.adv .oldValue r = Spec.rlc w.chal (beBytes 32 x)
  | .leafFollows => ∀ r, Enabled n r → Enabled n (r + 1) → segAt w r = .AccountTrie → pathAt w r = .ExtensionNew →
      segAt w (r + 1) ≠ .Start
  | .newAccount => ∀ r, Enabled n r → segAt w r = .AccountLeaf3 → pathAt w r = .ExtensionNew →
      proofAt w r = .NonceChanged ∨ proofAt w r = .BalanceChanged → w.adv .newHash r ≠ 0
  | .removalPair => ∀ r, Enabled n r → segAt w r = .StorageTrie → pathAt w r = .Common →
      pathAt w (r + 1) = .ExtensionOld → segAt w (r + 1) = .StorageLeaf0 → w.adv .domain r ≠ HashDomain.Branch0.toFr
  | .removalSibling => ∀ r, Enabled n r → segAt w r = .StorageTrie → pathAt w r = .Common →
      pathAt w (r + 1) = .ExtensionOld → segAt w (r + 1) ≠ .StorageLeaf0 → w.adv .sibling r ≠ 0
  | .removalDomain => ∀ r, Enabled n r → segAt w r = .StorageTrie → pathAt w r = .Common →
      pathAt w (r + 1) = .ExtensionOld → segAt w (r + 1) ≠ .StorageLeaf0 →
      (w.adv .domain r = HashDomain.Branch1.toFr → w.adv .direction r = 0) ∧
      (w.adv .domain r = HashDomain.Branch2.toFr → w.adv .direction r = 1)

/-- The missing constraints are the gaps. -/
theorem patched_iff_gaps {H : HashFn} {n U : ℕ} {w : Witness Fr} :
    Patched H n U w ↔ ∀ g : Gap, g.Closed H n U w := by
  constructor
  · intro h g
    cases g with
    | accountKey => exact fun r hr hs => h.leafKey r hr (.inl hs)
    | slotKey => exact fun r hr hs => h.leafKey r hr (.inr hs)
    | emptyRoot => exact h.emptyRoot
    | levelBits =>
      intro r hr h1 h2 h3 i hi hd
      have := h.levels r hr h1 h2 i hi hd
      rw [if_pos h3] at this
      exact this.1
    | lastLevel =>
      intro r hr h1 h2 h3 i hi hd
      have := h.levels r hr h1 h2 i hi hd
      rw [if_neg h3] at this
      exact this.1
    | levelDomain =>
      intro r hr h1 h2 h3 i hi hd
      have := h.levels r hr h1 h2 i hi hd
      rw [if_pos h3] at this
      exact this.2
    | lastDomain =>
      intro r hr h1 h2 h3 i hi hd
      have := h.levels r hr h1 h2 i hi hd
      rw [if_neg h3] at this
      exact this.2
    | storageAccount => exact h.storageAccount
    | newWord => exact h.newWord
    | oldWord => exact h.oldWord
    | leafFollows => exact h.leafFollows
    | newAccount => exact h.newAccount
    | removalPair =>
      intro r hr h1 h2 h3 h4
      have := h.removal r hr h1 h2 h3
      rwa [if_pos h4] at this
    | removalSibling =>
      intro r hr h1 h2 h3 h4
      have := h.removal r hr h1 h2 h3
      rw [if_neg h4] at this
      exact this.1
    | removalDomain =>
      intro r hr h1 h2 h3 h4
      have := h.removal r hr h1 h2 h3
      rw [if_neg h4] at this
      exact this.2
  · intro h
    refine ⟨fun r hr hs => hs.elim (h .accountKey r hr) (h .slotKey r hr), h .emptyRoot, ?_, h .storageAccount,
      h .newWord, h .oldWord, h .leafFollows, h .newAccount, ?_⟩
    · intro r hr h1 h2 i hi hd
      by_cases h3 : IsTrieRow w (r + 1)
      · rw [if_pos h3]
        exact ⟨h .levelBits r hr h1 h2 h3 i hi hd, h .levelDomain r hr h1 h2 h3 i hi hd⟩
      · rw [if_neg h3]
        exact ⟨h .lastLevel r hr h1 h2 h3 i hi hd, h .lastDomain r hr h1 h2 h3 i hi hd⟩
    · intro r hr h1 h2 h3
      by_cases h4 : segAt w (r + 1) = .StorageLeaf0
      · rw [if_pos h4]; exact h .removalPair r hr h1 h2 h3 h4
      · rw [if_neg h4]; exact ⟨h .removalSibling r hr h1 h2 h3 h4, h .removalDomain r hr h1 h2 h3 h4⟩

end Mpt
