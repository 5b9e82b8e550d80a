import Verif.Props.WorldTraces
import Verif.Props.Requests

set_option autoImplicit false

/-!
# What the parser lets through
-/

namespace Mpt.Props
open Mpt Spec Types MptUpdate Requests

/-- A trace that says: the slot of the account at `address`, which is absent from the empty trie, is empty
because a storage trie has nothing under the key `vb`. (`zb` and `kb` are the bytes of 0 and of the account
key, `d` is the slot with value 0.) -/
def wrongKeyTrace (address zb kb vb : List ℕ) (d : StateData) : SMTTrace where
  address := address
  accountKey := kb
  accountPath := (⟨zb, none, []⟩, ⟨zb, none, []⟩)
  accountUpdate := (none, none)
  statePath := (some ⟨zb, none, []⟩, some ⟨zb, none, []⟩)
  commonStateRoot := none
  stateKey := some vb
  stateUpdate := some (some d, some d)

theorem wrongKey_parsed {H : HashFn} {address zb kb vb : List ℕ} {d : StateData} {slot : ℕ} {v : Fr}
    (hz : fr zb = some 0) (hkb : fr kb = some (accountKey H address)) (hvb : fr vb = some v)
    (hv : u256FromHex d.value = 0) (hk : u256FromHex d.key = slot) :
    ∃ p, proofFrom H .StorageDoesNotExist (wrongKeyTrace address zb kb vb d) = some p ∧
      p.storage = .Update slot v [] (.Empty v) (.Empty v) ∧ p.accountTrieRows = [] := by
  have hc : ∃ c, claimFrom .StorageDoesNotExist (wrongKeyTrace address zb kb vb d) = some c ∧
      c.address = address := by
    simp [claimFrom, claimKindFrom, wrongKeyTrace, storageKind, hz, hv, ClaimKind.proofType]
  obtain ⟨c, hc, ha⟩ := hc
  have hst : storageProofFrom H (wrongKeyTrace address zb kb vb d) =
      some (.Update slot v [] (.Empty v) (.Empty v)) := by
    simp [storageProofFrom, wrongKeyTrace, hvb, hz, trieRowsNew, bottomHash, trieRowsFrom,
      StorageLeaf.new, hv, hk, StorageProof.oldRoot, StorageProof.newRoot, trieOldRoot, trieNewRoot,
      StorageLeaf.hash, StorageLeaf.valueHash]
  refine ⟨⟨c, [], (none, none), emptyAccountHashTraces H none, emptyAccountHashTraces H none,
    .Update slot v [] (.Empty v) (.Empty v), ⟨accountKey H address, none⟩, ⟨accountKey H address, none⟩, none, none,
    []⟩, ?_, rfl, rfl⟩
  rw [proofFrom, hc, hst]
  simp [ha, wrongKeyTrace, hkb, trieRowsNew, bottomHash, trieRowsFrom, getLeaf, pathLeafHash,
    getInternalHashTraces, internalFrom, checkHashTracesNew, StorageProof.oldRoot, StorageProof.newRoot, trieOldRoot,
    trieNewRoot, StorageLeaf.hash, StorageLeaf.valueHash, sideTraces, emptyAccountHashTraces, pathFrom, sideAccount]

/-- **C36 is false** without the condition that the state key of a trace is the hash of its storage key. For
every hash function, every slot and every *other* field element `v` there is a trace that parses and for which
`hash_traces` contains a triple that is not a Poseidon evaluation. -/
theorem c36_false (H : HashFn) (address : List ℕ) {slot : ℕ} (hs : slot < 2 ^ 256) {v : Fr}
    (hv : v ≠ H ((slot / 2 ^ 128 : ℕ) : Fr) ((slot % 2 ^ 128 : ℕ) : Fr) HashDomain.Pair.toFr) :
    ∃ trace p l, proofFrom H .StorageDoesNotExist trace = some p ∧ hashTraces H [p] = some l ∧
      ∃ e ∈ l, e.2.2 ≠ H e.1.1 e.1.2 e.2.1 := by
  obtain ⟨p, h1, h2, h3⟩ := wrongKey_parsed (address := address) (d := slotData slot 0) (fr_frHash 0)
    (fr_frHash (accountKey H address)) (fr_frHash v) (beVal_beBytes 32 0 (by norm_num))
    (beVal_beBytes 32 slot (by norm_num at hs ⊢; exact hs))
  have hsto : p.storage.poseidonLookups H =
      some [((((u256HiLo slot).1 : ℕ) : Fr), (((u256HiLo slot).2 : ℕ) : Fr), HashDomain.Pair, v)] := by
    rw [h2]; simp [StorageProof.poseidonLookups, triePoseidonLookups, StorageLeaf.poseidonLookups]
  have htr : triePoseidonLookups H p.accountTrieRows = some [] := by rw [h3]; rfl
  obtain ⟨es, he, hm⟩ : ∃ es, proofEntries H p = some es ∧
      ((((((u256HiLo slot).1 : ℕ) : Fr), (((u256HiLo slot).2 : ℕ) : Fr)), HashDomain.Pair.toFr, v) : Entry) ∈ es := by
    refine ⟨_, by rw [proofEntries, htr, hsto]; rfl, ?_⟩
    iterate 5 refine List.mem_append_left _ ?_
    exact List.mem_append_right _ (List.mem_singleton.2 rfl)
  refine ⟨_, p, _, h1, by rw [hashTraces, allEntries, List.mapM_cons, he]; rfl,
    (((((u256HiLo slot).1 : ℕ) : Fr), (((u256HiLo slot).2 : ℕ) : Fr)), HashDomain.Pair.toFr, v), ?_, ?_⟩
  · rw [mem_sortDedup]
    exact List.mem_cons_of_mem _ (by simpa using hm)
  · intro hx
    apply hv
    rw [(c45_split slot hs).1] at hx
    exact hx

/-- Every hash function has such a `v`: here for slot 5 and the sum of the true key and 1. -/
example (H : HashFn) : ∃ trace p l, proofFrom H .StorageDoesNotExist trace = some p ∧ hashTraces H [p] = some l ∧
    ∃ e ∈ l, e.2.2 ≠ H e.1.1 e.1.2 e.2.1 :=
  c36_false H [1, 2, 3] (slot := 5) (by norm_num)
    (v := H ((5 / 2 ^ 128 : ℕ) : Fr) ((5 % 2 ^ 128 : ℕ) : Fr) HashDomain.Pair.toFr + 1) (by simp)

end Mpt.Props
