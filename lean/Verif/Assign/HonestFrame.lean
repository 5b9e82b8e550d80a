import Verif.Assign.HonestNew

set_option autoImplicit false

/-!
# Completeness (C35): runs with account leaf rows
-/

namespace Mpt
open Spec MptUpdate Types Requests Props

variable {H : HashFn} {w : Witness Fr} {U : ℕ}

/-- Rows in front of the leaf, for claims that do not say that something is empty. -/
theorem proofRel_open {r : ℤ} {σ σ' : SegmentType} {pt : PathType} {t : MPTProofType}
    (hσ : σ = .Start ∨ σ = .AccountTrie) (hσ' : σ' ≠ .Start) (hp : pt ≠ .ExtensionOld)
    (ht : t ∈ [MPTProofType.NonceChanged, .BalanceChanged, .CodeSizeExists, .PoseidonCodeHashExists,
      .CodeHashExists, .StorageChanged]) : ProofRel H w U r σ σ' pt t := by
  have hE : EmptyEnd w U r σ' := fun h => absurd h hσ'
  simp only [List.mem_cons, List.not_mem_nil, or_false] at ht
  rcases ht with rfl | rfl | rfl | rfl | rfl | rfl <;> rcases hσ with h | h <;> rw [h]
  · exact ⟨hp, hE⟩
  · exact ⟨hp, hE⟩
  · exact hE
  · exact hE
  · exact hE
  · exact hE
  · trivial
  · trivial
  · exact hE
  · exact hE
  · trivial
  · trivial

theorem atRows_last (r : ℤ) (u : URow) (us : List URow) (h : AtRows w r (u :: us)) :
    AtRow w (r + 1 + us.length - 1) (us.getLastD u) := by
  induction us generalizing r u with
  | nil =>
    have : r + 1 + (([] : List URow).length : ℤ) - 1 = r := by simp
    rw [this]; exact h.1
  | cons v us ih =>
    have := ih (r + 1) v h.2
    have e : r + 1 + ((v :: us).length : ℤ) - 1 = r + 1 + 1 + us.length - 1 := by
      rw [List.length_cons]; push_cast; ring
    rw [e, List.getLastD_cons]
    exact this

/-- **A run is in order if its leaf rows are.** -/
theorem runSat_frame {ρ : Fr} {p : Proof} {leafP : PathType} (hS : Serves H w U ρ p)
    (hR : AccountReady H leafP p) {ok : Fr} {trie : List URow}
    (h2 : trieURows .AccountTrie (accountKey H p.claim.address) ok 0 p.accountTrieRows = some trie)
    (hok : ok = p.old.key ∨ ok = p.new.key) {tail : List URow}
    (hseg : (tail.headD .blank).seg = .AccountLeaf0) (hpath : (tail.headD .blank).path = leafP)
    (hLP : leafP = .Common ∨ (leafP = .ExtensionNew ∧ p.claim.kind.proofType ∈
      [MPTProofType.NonceChanged, .BalanceChanged] ∧ p.claim.oldValueAssignment ρ = 0 ∧
      p.new.key = accountKey H p.claim.address))
    (ht : p.claim.kind.proofType ∈ [MPTProofType.NonceChanged, .BalanceChanged, .CodeSizeExists,
        .PoseidonCodeHashExists, .CodeHashExists, .StorageChanged] ∨
      (p.claim.kind.proofType = .StorageDoesNotExist ∧ leafP = .Common ∧
        p.claim.oldRoot = p.claim.newRoot ∧ (∀ row ∈ p.accountTrieRows, row.old = row.new) ∧
        p.claim.oldValueAssignment ρ = 0 ∧ p.claim.newValueAssignment ρ = 0))
    (htail : ∀ (r : ℤ) (prev : URow), AtRow w (r - 1) prev → prev.oldHash = p.old.hash H →
      prev.newHash = p.new.hash H → prev.key = accountKey H p.claim.address → prev.otherKey = ok →
      Claims p.claim.kind.proofType (rlcFold (u256ToBigEndian p.claim.storageKey) ρ)
        (p.claim.oldValueAssignment ρ) (p.claim.newValueAssignment ρ) prev →
      AtRows w r tail → RowsOK H w U r prev tail) :
    RunSat H w U ((startURow H ρ p ok :: trie).map (URow.withBase ρ p.claim) ++ tail) := by
  set u0 := (startURow H ρ p ok).withBase ρ p.claim with hu0
  set us := trie.map (URow.withBase ρ p.claim) with hus
  have hst : IsStart H ρ p ok u0 := (isStart_row ρ p ok).base _
  have hI : IsTries .AccountTrie (accountKey H p.claim.address) ok 0 p.accountTrieRows us :=
    (inert_base ρ p.claim).tries _ _ _ (isTries_of _ _ _ h2)
  have e0 : (startURow H ρ p ok :: trie).map (URow.withBase ρ p.claim) ++ tail = u0 :: (us ++ tail) := rfl
  rw [e0]
  have hcl : ∀ u ∈ u0 :: us, Claims p.claim.kind.proofType
      (rlcFold (u256ToBigEndian p.claim.storageKey) ρ) (p.claim.oldValueAssignment ρ)
      (p.claim.newValueAssignment ρ) u := by
    intro u hu
    rcases List.mem_cons.1 hu with rfl | hu
    · exact claims_base ρ p.claim _
    · rw [hus] at hu
      obtain ⟨v, -, rfl⟩ := List.mem_map.1 hu
      exact claims_base ρ p.claim v
  have hpaths := rowsHonest_path _ _ hR.rows
  have hno : leafP ≠ .ExtensionOld := by rcases hLP with h | h <;> [rw [h]; rw [h.1]] <;> simp
  have hrow : ∀ u ∈ u0 :: us, (u.seg = .Start ∨ u.seg = .AccountTrie) ∧ u.path ≠ .ExtensionOld ∧
      (leafP = .Common → u.path = .Start ∨ u.path = .Common) ∧
      (p.claim.oldRoot = p.claim.newRoot → (∀ row ∈ p.accountTrieRows, row.old = row.new) →
        u.oldHash = u.newHash) := by
    intro u hu
    rcases List.mem_cons.1 hu with rfl | hu
    · exact ⟨.inl hst.seg, by rw [hst.path]; simp, fun _ => .inl hst.path,
        fun h _ => by rw [hst.oldHash, hst.newHash, h]⟩
    · obtain ⟨row, hm, e1, e2, e3, e4⟩ := isTries_mem _ _ _ u hI hu
      obtain ⟨q1, q2, q3⟩ := hpaths row hm
      refine ⟨.inr e1, fun h => hno (q3 (by rw [← e2]; exact h)), fun hc => .inr ?_,
        fun _ h => by rw [e3, e4, h row hm]⟩
      rw [e2]
      cases hq : row.pathType with
      | Start => exact absurd hq q1
      | Common => rfl
      | ExtensionNew => exact absurd (q2 hq) (by rw [hc]; simp)
      | ExtensionOld => exact absurd (q3 hq) (by rw [hc]; simp)
  have hopen : ∀ r' u (σ' : SegmentType), AtRow w r' u → u ∈ u0 :: us → σ' ≠ .Start →
      ProofRel H w U r' u.seg σ' u.path p.claim.kind.proofType := by
    intro r' u σ' hu hm hσ
    obtain ⟨a1, a2, a3, a4⟩ := hrow u hm
    rcases ht with ht | ⟨t1, t2, t3, t4, t5, t6⟩
    · exact proofRel_open a1 hσ a2 ht
    · have hc := hcl u hm
      rw [t1]
      refine ⟨by rw [hu.oldValue, hc.old, t5], by rw [hu.newValue, hc.new, t6], a3 t2,
        by rw [hu.oldHash, hu.newHash, a4 t3 t4], fun h => absurd h hσ, ?_⟩
      rcases a1 with h | h <;> rw [h] <;> trivial
  have hlm : us.getLastD u0 ∈ u0 :: us := by
    rw [List.getLastD_eq_getLast?]
    cases hg : us.getLast? with
    | none => simp
    | some v => exact List.mem_cons_of_mem _ (List.mem_of_getLast? hg)
  have htr : ∀ s : SegmentType, s = .Start ∨ s = .AccountTrie →
      ∃ l, transitions p.claim.kind.proofType s = some l ∧ SegmentType.AccountTrie ∈ l ∧
      (tail.headD .blank).seg ∈ l := by
    intro s hs
    rw [hseg]
    rcases ht with ht | ht
    · simp only [List.mem_cons, List.not_mem_nil, or_false] at ht
      rcases ht with e | e | e | e | e | e <;> rcases hs with rfl | rfl <;> rw [e] <;>
        exact ⟨_, rfl, by simp, by simp⟩
    · rcases hs with rfl | rfl <;> rw [ht.1] <;> exact ⟨_, rfl, by simp, by simp⟩
  refine ⟨by simp, ⟨hst.seg, hst.path⟩, ?_⟩
  intro r prev hp ha
  refine rowsOK_frame hS (t := p.claim.kind.proofType) (leafP := leafP) hst hI hR.rows
    (rowsServed_account hS hR.traces hok
      (fun row hm hq => by
        rcases hLP with h | h
        · exact absurd ((hpaths row hm).2.1 hq) (by rw [h]; simp)
        · exact h.2.2.2)
      (fun row hm hq => absurd ((hpaths row hm).2.2 hq) hno)
      (fun row hm => (hpaths row hm).1)) hpath ?_ hno (htr _ (.inl rfl)) (htr _ (.inr rfl)) hcl
      (fun r' u hu hm => hopen r' u _ hu hm (by simp)) ?_ ha ?_
  · intro h
    rcases hLP with h' | h'
    · rw [h] at h'; cases h'
    · refine ⟨hseg, ?_, h'.2.2.1⟩
      have := h'.2.1
      simp only [List.mem_cons, List.not_mem_nil, or_false] at this ⊢
      tauto
  · intro r' u hu hl
    subst hl
    exact hopen r' _ _ hu hlm (by rw [hseg]; simp)
  · have hend : (us.getLastD u0).oldHash = p.old.hash H ∧ (us.getLastD u0).newHash = p.new.hash H ∧
        (us.getLastD u0).key = accountKey H p.claim.address ∧ (us.getLastD u0).otherKey = ok := by
      have hl := hR.last
      rw [List.getLastD_eq_getLast?]
      cases hg : us.getLast? with
      | none =>
        have : us = [] := List.getLast?_eq_none_iff.1 hg
        have hlen := isTries_length _ _ _ hI
        rw [this] at hlen
        have hnil : p.accountTrieRows = [] := List.length_eq_zero_iff.1 (by simpa using hlen.symm)
        rw [hnil] at hl
        simp only [Option.getD_none]
        exact ⟨by rw [hst.oldHash]; exact (Prod.mk.inj hl).1,
          by rw [hst.newHash]; exact (Prod.mk.inj hl).2, hst.key, hst.otherKey⟩
      | some v =>
        obtain ⟨row, f1, -, -, f3, f4, f5, f6⟩ := isTries_last _ _ _ v hI hg
        unfold endHashes at hl
        rw [f1] at hl
        simp only [Option.getD_some]
        exact ⟨by rw [f3]; exact (Prod.mk.inj hl).1, by rw [f4]; exact (Prod.mk.inj hl).2, f5, f6⟩
    obtain ⟨g1, g2, g3, g4⟩ := hend
    have haw : AtRow w (r + 1 + us.length - 1) (us.getLastD u0) := by
      have h1 : AtRows w r (u0 :: us) := by
        have : u0 :: (us ++ tail) = (u0 :: us) ++ tail := rfl
        rw [this, atRows_append] at ha
        exact ha.1
      exact atRows_last r u0 us h1
    have hta : AtRows w (r + 1 + us.length) tail := by
      have : u0 :: (us ++ tail) = (u0 :: us) ++ tail := rfl
      rw [this, atRows_append] at ha
      have e : r + 1 + (us.length : ℤ) = r + ((u0 :: us).length : ℤ) := by
        rw [List.length_cons]; push_cast; ring
      rw [e]; exact ha.2
    exact htail _ _ haw g1 g2 g3 g4 (hcl _ hlm) hta

end Mpt
