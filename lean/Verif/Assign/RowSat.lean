import Verif.Assign.Runs

set_option autoImplicit false

/-!
# Row relations of given rows

Helpers to establish the row relations when the cells of a row and of the row before are known.
-/

namespace Mpt
open Spec MptUpdate

variable {H : HashFn} {w : Witness Fr} {U : ℕ} {r : ℤ} {u prev : URow}

theorem AtRow.shift (h : AtRow w r u) : AtRow w (r + 1 - 1) u := by
  rwa [add_sub_cancel_right]

/-- The children of a node, by direction. -/
def leftOf (dir : Bool) (sib h : Fr) : Fr := if dir then sib else h
def rightOf (dir : Bool) (sib h : Fr) : Fr := if dir then h else sib

theorem lft_bit (dir : Bool) (sib h : Fr) : lft (bitFr dir) sib h = leftOf dir sib h := by
  cases dir <;> simp [lft, leftOf, bitFr]
theorem rgt_bit (dir : Bool) (sib h : Fr) : rgt (bitFr dir) sib h = rightOf dir sib h := by
  cases dir <;> simp [rgt, rightOf, bitFr]

theorem oldNode_iff (hu : AtRow w r u) (hp : AtRow w (r - 1) prev) {dir : Bool}
    (hd : u.direction = bitFr dir) (d : Fr) : OldNode w U r d ↔
      P1 w U (leftOf dir u.sibling u.oldHash) (rightOf dir u.sibling u.oldHash) d prev.oldHash := by
  rw [OldNode, hu.direction, hu.sibling, hu.oldHash, hp.oldHash, hd, lft_bit, rgt_bit]
theorem newNode_iff (hu : AtRow w r u) (hp : AtRow w (r - 1) prev) {dir : Bool}
    (hd : u.direction = bitFr dir) (d : Fr) : NewNode w U r d ↔
      P1 w U (leftOf dir u.sibling u.newHash) (rightOf dir u.sibling u.newHash) d prev.newHash := by
  rw [NewNode, hu.direction, hu.sibling, hu.newHash, hp.newHash, hd, lft_bit, rgt_bit]

/-- The absence witness holds of given cells: the key is another one and the hash is that of a leaf, or
it is the same and the hash is 0. -/
theorem nonexist_old (hu : AtRow w r u) {i : Fin 10} (h0 : u.oldValue = 0)
    (h2 : u.iz 2 = u.key - u.otherKey) (h3 : u.iz 3 = u.oldHash)
    (h : (u.key ≠ u.otherKey ∧ u.oldHash ≠ 0 ∧
        P1 w U u.otherKey (u.iv i) HashDomain.Leaf.toFr u.oldHash) ∨
      (u.key = u.otherKey ∧ u.oldHash = 0)) : Nonexist w U r .oldValue .oldHash (.iv i) := by
  unfold Nonexist
  rw [hu.oldValue, hu.iz, hu.iz, hu.key, hu.otherKey, hu.oldHash, hu.iv]
  exact ⟨h0, h2, h3, h⟩
theorem nonexist_oldNew (hu : AtRow w r u) {i : Fin 10} (h0 : u.oldValue = 0)
    (h2 : u.iz 2 = u.key - u.otherKey) (h3 : u.iz 3 = u.newHash)
    (h : (u.key ≠ u.otherKey ∧ u.newHash ≠ 0 ∧
        P1 w U u.otherKey (u.iv i) HashDomain.Leaf.toFr u.newHash) ∨
      (u.key = u.otherKey ∧ u.newHash = 0)) : Nonexist w U r .oldValue .newHash (.iv i) := by
  unfold Nonexist
  rw [hu.oldValue, hu.iz, hu.iz, hu.key, hu.otherKey, hu.newHash, hu.iv]
  exact ⟨h0, h2, h3, h⟩
theorem nonexist_new (hu : AtRow w r u) {i : Fin 10} (h0 : u.newValue = 0)
    (h2 : u.iz 2 = u.key - u.otherKey) (h3 : u.iz 3 = u.newHash)
    (h : (u.key ≠ u.otherKey ∧ u.newHash ≠ 0 ∧
        P1 w U u.otherKey (u.iv i) HashDomain.Leaf.toFr u.newHash) ∨
      (u.key = u.otherKey ∧ u.newHash = 0)) : Nonexist w U r .newValue .newHash (.iv i) := by
  unfold Nonexist
  rw [hu.newValue, hu.iz, hu.iz, hu.key, hu.otherKey, hu.newHash, hu.iv]
  exact ⟨h0, h2, h3, h⟩

/-- Two consecutive rows belong to the same claim. -/
structure SameClaim (prev u : URow) : Prop where
  proof : u.proof = prev.proof
  slot : u.storageKeyRlc = prev.storageKeyRlc
  old : u.oldValue = prev.oldValue
  new : u.newValue = prev.newValue

/-- Common part of the relations of a row that is neither a Start row nor a trie row. -/
theorem commonRel_leaf (hu : AtRow w r u) (hp : AtRow w (r - 1) prev) {σ : SegmentType}
    {p : PathType} {tp t : MPTProofType} (ht : t = u.proof) (htp : tp = prev.proof)
    (h1 : σ ≠ .AccountTrie) (h2 : σ ≠ .StorageTrie)
    (hc : SameClaim prev u)
    (hk : σ ≠ .AccountLeaf3 → u.key = prev.key ∧ u.otherKey = prev.otherKey)
    (hd : u.depth = 0) : CommonRowRel w U r σ p tp t := by
  refine ⟨fun _ => ?_, fun _ h3 => ?_, fun h => ?_, fun _ _ => ?_⟩
  · rw [hu.storageKeyRlc, hu.oldValue, hu.newValue, hp.storageKeyRlc, hp.oldValue, hp.newValue, ht, htp]
    exact ⟨hc.proof, hc.slot, hc.old, hc.new⟩
  · rw [hu.key, hu.otherKey, hp.key, hp.otherKey]; exact hk h3
  · rcases h with h | h
    · exact absurd h h1
    · exact absurd h h2
  · rw [hu.depth, hd]

/-- Common part of the relations of a trie row. -/
theorem commonRel_trie (hu : AtRow w r u) (hp : AtRow w (r - 1) prev) {σ : SegmentType}
    {p : PathType} {tp t : MPTProofType} (ht : t = u.proof) (htp : tp = prev.proof)
    (hσ : σ = .AccountTrie ∨ σ = .StorageTrie) (hc : SameClaim prev u)
    (hk : u.key = prev.key ∧ u.otherKey = prev.otherKey) {i : ℕ} {dir : Bool}
    (hd : u.depth = ((i + 1 : ℕ) : Fr)) (hd' : prev.depth = (i : Fr)) (hdir : u.direction = bitFr dir)
    (hb : InKeyBit w U u.key (i : Fr) (bitFr dir))
    (hb' : p = .Common → InKeyBit w U u.otherKey (i : Fr) (bitFr dir)) :
    CommonRowRel w U r σ p tp t := by
  have e : ((i + 1 : ℕ) : Fr) - 1 = (i : Fr) := by push_cast; ring
  refine ⟨fun _ => ?_, fun _ _ => ?_, fun _ => ?_, fun h3 h4 => ?_⟩
  · rw [hu.storageKeyRlc, hu.oldValue, hu.newValue, hp.storageKeyRlc, hp.oldValue, hp.newValue, ht, htp]
    exact ⟨hc.proof, hc.slot, hc.old, hc.new⟩
  · rw [hu.key, hu.otherKey, hp.key, hp.otherKey]; exact hk
  · rw [hu.key, hu.otherKey, hu.depth, hu.direction, hp.depth, hd, hd', hdir, e]
    exact ⟨hb, by push_cast; ring, hb'⟩
  · rcases hσ with h | h
    · exact absurd h h3
    · exact absurd h h4


variable {σ' : SegmentType} {p' : PathType}

/-- The two hashes of a Common row: child `old` under the sibling hashes to the previous row's hash. -/
def CommonHashes (w : Witness Fr) (U : ℕ) (prev u : URow) (dir : Bool) (dOld dNew : Fr) : Prop :=
  P1 w U (leftOf dir u.sibling u.oldHash) (rightOf dir u.sibling u.oldHash) dOld prev.oldHash ∧
  P1 w U (leftOf dir u.sibling u.newHash) (rightOf dir u.sibling u.newHash) dNew prev.newHash

/-- A leaf row on the common part of the path, followed by the common part or the next update. -/
theorem rowRel_leaf_common (hu : AtRow w r u) (hp : AtRow w (r - 1) prev)
    (hσ : u.seg ≠ .Start ∧ u.seg ≠ .AccountTrie ∧ u.seg ≠ .StorageTrie) (hpt : u.path = .Common)
    (hp' : p' = .Common ∨ p' = .Start) (hc : SameClaim prev u)
    (hk : u.seg ≠ .AccountLeaf3 → u.key = prev.key ∧ u.otherKey = prev.otherKey) (hd : u.depth = 0)
    {dir : Bool} (hdir : u.direction = bitFr dir) {d : HashDomain} (hdom : d ∈ domains u.seg)
    (hdu : u.domain = d.toFr) (hh : CommonHashes w U prev u dir d.toFr d.toFr)
    (hseg : ∃ l, transitions u.proof u.seg = some l ∧ σ' ∈ l)
    (hproof : ProofRel H w U r u.seg σ' .Common u.proof) :
    RowRel H w U r u.seg σ' prev.path u.path p' prev.proof u.proof := by
  rw [hpt]
  refine ⟨by simp [hσ.1], fun h => absurd h hσ.1, commonRel_leaf hu hp rfl rfl hσ.2.1 hσ.2.2 hc hk hd,
    ?_, ?_, ⟨d, hdom, by rw [hu.domain, hdu]⟩, hseg, hproof⟩
  · rcases hp' with rfl | rfl
    · show PathType.Common ∈ forwardTransitions PathType.Common; decide
    · show PathType.Start ∈ forwardTransitions PathType.Common; decide
  · have : CommonRel w U r σ' p' := by
      have hb : OldNode w U r (w.adv .domain r) ∧ NewNode w U r (w.adv .domain r) := by
        rw [oldNode_iff hu hp hdir, newNode_iff hu hp hdir, hu.domain, hdu]; exact hh
      rcases hp' with rfl | rfl <;> exact hb
    exact this

/-- The last common row before an inserted leaf that takes the place of an empty node. -/
theorem rowRel_leaf_common_insert (hu : AtRow w r u) (hp : AtRow w (r - 1) prev)
    (hσ : u.seg ≠ .Start ∧ u.seg ≠ .AccountTrie ∧ u.seg ≠ .StorageTrie) (hpt : u.path = .Common)
    (hσ' : σ' = .AccountLeaf0 ∨ σ' = .StorageLeaf0) (hc : SameClaim prev u)
    (hk : u.seg ≠ .AccountLeaf3 → u.key = prev.key ∧ u.otherKey = prev.otherKey) (hd : u.depth = 0)
    {dir : Bool} (hdir : u.direction = bitFr dir) {d : HashDomain} (hdom : d ∈ domains u.seg)
    (hdu : u.domain = d.toFr) (hext : Extendable d.toFr)
    (hh : CommonHashes w U prev u dir d.toFr d.toFr) (ho : u.oldHash = 0)
    (hseg : ∃ l, transitions u.proof u.seg = some l ∧ σ' ∈ l)
    (hproof : ProofRel H w U r u.seg σ' .Common u.proof) :
    RowRel H w U r u.seg σ' prev.path u.path .ExtensionNew prev.proof u.proof := by
  rw [hpt]
  refine ⟨by simp [hσ.1], fun h => absurd h hσ.1, commonRel_leaf hu hp rfl rfl hσ.2.1 hσ.2.2 hc hk hd,
    ?_, ?_, ⟨d, hdom, by rw [hu.domain, hdu]⟩, hseg, hproof⟩
  · show PathType.ExtensionNew ∈ forwardTransitions PathType.Common; decide
  · have : CommonRel w U r σ' .ExtensionNew := by
      simp only [CommonRel]
      rw [if_pos (by rcases hσ' with rfl | rfl <;> simp), oldNode_iff hu hp hdir,
        newNode_iff hu hp hdir, hu.domain, hdu, hu.oldHash]
      exact ⟨hext, hh.1, ho, hh.2⟩
    exact this

/-- The last common row before a deleted leaf that leaves an empty node. -/
theorem rowRel_leaf_common_delete (hu : AtRow w r u) (hp : AtRow w (r - 1) prev)
    (hσ : u.seg ≠ .Start ∧ u.seg ≠ .AccountTrie ∧ u.seg ≠ .StorageTrie) (hpt : u.path = .Common)
    (hσ' : σ' = .AccountLeaf0 ∨ σ' = .StorageLeaf0) (hc : SameClaim prev u)
    (hk : u.seg ≠ .AccountLeaf3 → u.key = prev.key ∧ u.otherKey = prev.otherKey) (hd : u.depth = 0)
    {dir : Bool} (hdir : u.direction = bitFr dir) {d : HashDomain} (hdom : d ∈ domains u.seg)
    (hdu : u.domain = d.toFr) (hext : Extendable d.toFr)
    (hh : CommonHashes w U prev u dir d.toFr d.toFr) (ho : u.newHash = 0)
    (hseg : ∃ l, transitions u.proof u.seg = some l ∧ σ' ∈ l)
    (hproof : ProofRel H w U r u.seg σ' .Common u.proof) :
    RowRel H w U r u.seg σ' prev.path u.path .ExtensionOld prev.proof u.proof := by
  rw [hpt]
  refine ⟨by simp [hσ.1], fun h => absurd h hσ.1, commonRel_leaf hu hp rfl rfl hσ.2.1 hσ.2.2 hc hk hd,
    ?_, ?_, ⟨d, hdom, by rw [hu.domain, hdu]⟩, hseg, hproof⟩
  · show PathType.ExtensionOld ∈ forwardTransitions PathType.Common; decide
  · have : CommonRel w U r σ' .ExtensionOld := by
      simp only [CommonRel]
      rw [if_pos (by rcases hσ' with rfl | rfl <;> simp), oldNode_iff hu hp hdir,
        newNode_iff hu hp hdir, hu.domain, hdu, hu.newHash]
      exact ⟨hext, hh.2, ho, hh.1⟩
    exact this

/-- The last common row before inserted trie levels, on a leaf row (storage trie of an account). -/
theorem rowRel_leaf_common_extend (hu : AtRow w r u) (hp : AtRow w (r - 1) prev)
    (hσ : u.seg ≠ .Start ∧ u.seg ≠ .AccountTrie ∧ u.seg ≠ .StorageTrie) (hpt : u.path = .Common)
    (hσ' : σ' = .AccountTrie ∨ σ' = .StorageTrie) (hp' : p' = .ExtensionNew ∨ p' = .ExtensionOld)
    (hc : SameClaim prev u)
    (hk : u.seg ≠ .AccountLeaf3 → u.key = prev.key ∧ u.otherKey = prev.otherKey) (hd : u.depth = 0)
    {dir : Bool} (hdir : u.direction = bitFr dir)
    (hdom : HashDomain.AccountFields ∈ domains u.seg)
    (hdu : u.domain = HashDomain.AccountFields.toFr)
    (hiv : u.iv 2 = HashDomain.AccountFields.toFr)
    (hh : CommonHashes w U prev u dir HashDomain.AccountFields.toFr HashDomain.AccountFields.toFr)
    (hseg : ∃ l, transitions u.proof u.seg = some l ∧ σ' ∈ l)
    (hproof : ProofRel H w U r u.seg σ' .Common u.proof) :
    RowRel H w U r u.seg σ' prev.path u.path p' prev.proof u.proof := by
  have hdv : newDomVal HashDomain.AccountFields.toFr u.direction = HashDomain.AccountFields.toFr := by
    unfold newDomVal
    rw [if_neg (by rw [toFr_eq_iff]; decide), if_pos rfl]
  have hext : Extendable HashDomain.AccountFields.toFr := .inr (.inr (.inr rfl))
  have hnot : ¬ σ' ∈ [SegmentType.AccountLeaf0, .StorageLeaf0] := by
    rcases hσ' with rfl | rfl <;> simp
  rw [hpt]
  refine ⟨by simp [hσ.1], fun h => absurd h hσ.1, commonRel_leaf hu hp rfl rfl hσ.2.1 hσ.2.2 hc hk hd,
    ?_, ?_, ⟨.AccountFields, hdom, by rw [hu.domain, hdu]⟩, hseg, hproof⟩
  · rcases hp' with rfl | rfl
    · show PathType.ExtensionNew ∈ forwardTransitions PathType.Common; decide
    · show PathType.ExtensionOld ∈ forwardTransitions PathType.Common; decide
  · have : CommonRel w U r σ' p' := by
      rcases hp' with rfl | rfl
      · simp only [CommonRel]
        rw [if_neg hnot, oldNode_iff hu hp hdir, newNode_iff hu hp hdir, hu.domain, hdu, hu.iv, hiv,
          hu.direction, hdv]
        exact ⟨hext, hh.1, rfl, hh.2⟩
      · simp only [CommonRel]
        rw [if_neg hnot, oldNode_iff hu hp hdir, newNode_iff hu hp hdir, hu.domain, hdu, hu.iv, hiv,
          hu.direction, hdv]
        exact ⟨hext, hh.2, rfl, hh.1⟩
    exact this

/-- A leaf row of an inserted leaf. -/
theorem rowRel_leaf_extNew (hu : AtRow w r u) (hp : AtRow w (r - 1) prev)
    (hσ : u.seg ≠ .Start ∧ u.seg ≠ .AccountTrie ∧ u.seg ≠ .StorageTrie) (hpt : u.path = .ExtensionNew)
    (hp' : p' = .ExtensionNew ∨ p' = .Start) (hc : SameClaim prev u)
    (hk : u.seg ≠ .AccountLeaf3 → u.key = prev.key ∧ u.otherKey = prev.otherKey) (hd : u.depth = 0)
    {dir : Bool} (hdir : u.direction = bitFr dir) {d : HashDomain} (hdom : d ∈ domains u.seg)
    (hdu : u.domain = d.toFr)
    (ht : u.proof ∈ [MPTProofType.NonceChanged, .BalanceChanged, .StorageChanged])
    (ho : u.oldValue = 0) (hoh : u.oldHash = prev.oldHash)
    (hh : P1 w U (leftOf dir u.sibling u.newHash) (rightOf dir u.sibling u.newHash) d.toFr prev.newHash)
    (hpp : prev.path = .ExtensionNew ∨
      u.seg ∈ [SegmentType.AccountTrie, .AccountLeaf0, .StorageTrie, .StorageLeaf0])
    (hne : u.seg ∈ [SegmentType.AccountLeaf0, .StorageLeaf0] → Nonexist w U r .oldValue .oldHash (.iv 9))
    (hseg : ∃ l, transitions u.proof u.seg = some l ∧ σ' ∈ l)
    (hproof : ProofRel H w U r u.seg σ' .ExtensionNew u.proof) :
    RowRel H w U r u.seg σ' prev.path u.path p' prev.proof u.proof := by
  rw [hpt]
  refine ⟨by simp [hσ.1], fun h => absurd h hσ.1, commonRel_leaf hu hp rfl rfl hσ.2.1 hσ.2.2 hc hk hd,
    ?_, ?_, ⟨d, hdom, by rw [hu.domain, hdu]⟩, hseg, hproof⟩
  · rcases hp' with rfl | rfl
    · show PathType.ExtensionNew ∈ forwardTransitions PathType.ExtensionNew; decide
    · show PathType.Start ∈ forwardTransitions PathType.ExtensionNew; decide
  · have : ExtNewRel w U r u.seg σ' prev.path u.proof := by
      refine ⟨ht, by rw [hu.oldValue, ho], by rw [hu.oldHash, hp.oldHash, hoh], ?_, ?_, ?_, hne⟩
      · rw [newNode_iff hu hp hdir, hu.domain, hdu]; exact hh
      · rw [List.mem_singleton]; exact hpp
      · intro h
        simp only [List.mem_cons, List.not_mem_nil, or_false] at h
        rcases h with h | h
        · exact absurd h hσ.2.1
        · exact absurd h hσ.2.2
    exact this

/-- The storage leaf row of a deleted leaf. -/
theorem rowRel_leaf_extOld (hu : AtRow w r u) (hp : AtRow w (r - 1) prev)
    (hσ : u.seg = .StorageLeaf0) (hpt : u.path = .ExtensionOld) (hc : SameClaim prev u)
    (hk : u.key = prev.key ∧ u.otherKey = prev.otherKey) (hd : u.depth = 0)
    {dir : Bool} (hdir : u.direction = bitFr dir) (hdu : u.domain = HashDomain.Leaf.toFr)
    (ht : u.proof = .StorageChanged) (ho : u.newValue = 0) (hoh : u.newHash = prev.newHash)
    (hh : P1 w U (leftOf dir u.sibling u.oldHash) (rightOf dir u.sibling u.oldHash)
      HashDomain.Leaf.toFr prev.oldHash)
    (hne : Nonexist w U r .newValue .newHash (.iv 9))
    (hproof : ProofRel H w U r .StorageLeaf0 .Start .ExtensionOld .StorageChanged) :
    RowRel H w U r u.seg .Start prev.path u.path .Start prev.proof u.proof := by
  have e : prev.proof = .StorageChanged := by rw [← hc.proof, ht]
  rw [hpt, hσ, ht, e]
  refine ⟨by simp, fun h => by simp at h, commonRel_leaf hu hp ht.symm e.symm (by simp) (by simp) hc
    (fun _ => hk) hd, ?_, ?_, ⟨.Leaf, by simp [domains], by rw [hu.domain, hdu]⟩, ⟨_, rfl, by simp⟩,
    hproof⟩
  · show PathType.Start ∈ forwardTransitions PathType.ExtensionOld; decide
  · have : ExtOldRel w U r .StorageLeaf0 .Start .StorageChanged := by
      refine ⟨rfl, .inr rfl, by rw [hu.newValue, ho], by rw [hu.newHash, hp.newHash, hoh], ?_,
        fun h => by simp at h, fun _ => hne⟩
      rw [oldNode_iff hu hp hdir, hu.domain, hdu]; exact hh
    exact this

/-! ## Trie rows -/

/-- A trie row is at depth `i + 1` in direction `dir`, after a row at depth `i`; the key bits are
served. -/
structure TrieBits (w : Witness Fr) (U : ℕ) (prev u : URow) (i : ℕ) (dir : Bool) : Prop where
  keys : u.key = prev.key ∧ u.otherKey = prev.otherKey
  depth : u.depth = ((i + 1 : ℕ) : Fr)
  prevDepth : prev.depth = (i : Fr)
  direction : u.direction = bitFr dir
  bit : InKeyBit w U u.key (i : Fr) (bitFr dir)
  otherBit : u.path = .Common → InKeyBit w U u.otherKey (i : Fr) (bitFr dir)

theorem branch_domain {d : HashDomain} {σ : SegmentType} (hσ : σ = .AccountTrie ∨ σ = .StorageTrie)
    (hd : d ∈ [HashDomain.Branch0, .Branch1, .Branch2, .Branch3]) : d ∈ domains σ := by
  rcases hσ with rfl | rfl <;> simpa [domains] using hd

/-- A trie row on the common part of the path. -/
theorem rowRel_trie_common (hu : AtRow w r u) (hp : AtRow w (r - 1) prev)
    (hσ : u.seg = .AccountTrie ∨ u.seg = .StorageTrie) (hpt : u.path = .Common)
    (hc : SameClaim prev u) {i : ℕ} {dir : Bool} (hb : TrieBits w U prev u i dir)
    {d : HashDomain} (hdom : d ∈ [HashDomain.Branch0, .Branch1, .Branch2, .Branch3])
    (hdu : u.domain = d.toFr) (hp' : p' ∈ forwardTransitions .Common) (hrel : CommonRel w U r σ' p')
    (hseg : ∃ l, transitions u.proof u.seg = some l ∧ σ' ∈ l)
    (hproof : ProofRel H w U r u.seg σ' .Common u.proof) :
    RowRel H w U r u.seg σ' prev.path u.path p' prev.proof u.proof := by
  have hS : u.seg ≠ .Start := by rcases hσ with h | h <;> simp [h]
  have hob := hb.otherBit
  rw [hpt] at hob ⊢
  exact ⟨by simp [hS], fun h => absurd h hS, commonRel_trie hu hp rfl rfl hσ hc hb.keys hb.depth
    hb.prevDepth hb.direction hb.bit hob, hp', hrel,
    ⟨d, branch_domain hσ hdom, by rw [hu.domain, hdu]⟩, hseg, hproof⟩

/-- A trie row of a new level. -/
theorem rowRel_trie_extNew (hu : AtRow w r u) (hp : AtRow w (r - 1) prev)
    (hσ : u.seg = .AccountTrie ∨ u.seg = .StorageTrie) (hpt : u.path = .ExtensionNew)
    (hp' : p' = .ExtensionNew ∨ p' = .Start)
    (hc : SameClaim prev u) {i : ℕ} {dir : Bool} (hb : TrieBits w U prev u i dir)
    {d : HashDomain} (hdom : d ∈ [HashDomain.Branch0, .Branch1, .Branch2, .Branch3])
    (hdu : u.domain = d.toFr)
    (ht : u.proof ∈ [MPTProofType.NonceChanged, .BalanceChanged, .StorageChanged])
    (ho : u.oldValue = 0) (hoh : u.oldHash = prev.oldHash)
    (hh : P1 w U (leftOf dir u.sibling u.newHash) (rightOf dir u.sibling u.newHash) d.toFr prev.newHash)
    (hsib : u.sibling = if σ' ∈ [SegmentType.AccountTrie, .StorageTrie] then 0 else u.oldHash)
    (hseg : ∃ l, transitions u.proof u.seg = some l ∧ σ' ∈ l)
    (hproof : ProofRel H w U r u.seg σ' .ExtensionNew u.proof) :
    RowRel H w U r u.seg σ' prev.path u.path p' prev.proof u.proof := by
  have hS : u.seg ≠ .Start := by rcases hσ with h | h <;> simp [h]
  have hob := hb.otherBit
  rw [hpt] at hob ⊢
  refine ⟨by simp [hS], fun h => absurd h hS, commonRel_trie hu hp rfl rfl hσ hc hb.keys hb.depth
    hb.prevDepth hb.direction hb.bit hob, ?_, ?_,
    ⟨d, branch_domain hσ hdom, by rw [hu.domain, hdu]⟩, hseg, hproof⟩
  · rcases hp' with rfl | rfl
    · show PathType.ExtensionNew ∈ forwardTransitions PathType.ExtensionNew; decide
    · show PathType.Start ∈ forwardTransitions PathType.ExtensionNew; decide
  · have : ExtNewRel w U r u.seg σ' prev.path u.proof := by
      refine ⟨ht, by rw [hu.oldValue, ho], by rw [hu.oldHash, hp.oldHash, hoh], ?_, ?_, ?_, ?_⟩
      · rw [newNode_iff hu hp hb.direction, hu.domain, hdu]; exact hh
      · right; rcases hσ with h | h <;> simp [h]
      · intro _; rw [hu.sibling, hu.oldHash]; exact hsib
      · intro h; rcases hσ with h' | h' <;> simp [h'] at h
    exact this

/-- A trie row of a removed level. -/
theorem rowRel_trie_extOld (hu : AtRow w r u) (hp : AtRow w (r - 1) prev)
    (hσ : u.seg = .StorageTrie) (hpt : u.path = .ExtensionOld)
    (hc : SameClaim prev u) {i : ℕ} {dir : Bool} (hb : TrieBits w U prev u i dir)
    {d : HashDomain} (hdom : d ∈ [HashDomain.Branch0, .Branch1, .Branch2, .Branch3])
    (hdu : u.domain = d.toFr) (ht : u.proof = .StorageChanged)
    (ho : u.newValue = 0) (hoh : u.newHash = prev.newHash)
    (hh : P1 w U (leftOf dir u.sibling u.oldHash) (rightOf dir u.sibling u.oldHash) d.toFr prev.oldHash)
    (hsib : u.sibling = if σ' = .StorageLeaf0 then u.newHash else 0)
    (hσ' : σ' = .StorageTrie ∨ σ' = .StorageLeaf0) :
    RowRel H w U r u.seg σ' prev.path u.path .ExtensionOld prev.proof u.proof := by
  have e : prev.proof = .StorageChanged := by rw [← hc.proof, ht]
  have hob := hb.otherBit
  rw [hpt] at hob
  rw [hpt, hσ, ht, e]
  refine ⟨by simp, fun h => by simp at h, commonRel_trie hu hp ht.symm e.symm (.inr rfl) hc
    hb.keys hb.depth hb.prevDepth hb.direction hb.bit hob, ?_, ?_,
    ⟨d, branch_domain (.inr rfl) hdom, by rw [hu.domain, hdu]⟩, ⟨_, rfl, ?_⟩, ?_⟩
  · show PathType.ExtensionOld ∈ forwardTransitions PathType.ExtensionOld; decide
  · have : ExtOldRel w U r .StorageTrie σ' .StorageChanged := by
      refine ⟨rfl, .inl rfl, by rw [hu.newValue, ho], by rw [hu.newHash, hp.newHash, hoh], ?_, fun _ => ?_,
        fun h => by simp at h⟩
      · rw [oldNode_iff hu hp hb.direction, hu.domain, hdu]; exact hh
      · rw [hu.sibling, hp.newHash, ← hoh]; exact hsib
    exact this
  · rcases hσ' with rfl | rfl <;> simp
  · simp [ProofRel, StorageRel]

end Mpt
