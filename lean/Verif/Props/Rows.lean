import Mathlib.Data.Finset.Card
import Verif.Assign.Circuit
import Verif.Props.Util

set_option autoImplicit false

/-!
# C33 (row counts) and C15 for the whole circuit
-/

namespace Mpt.Props
open Mpt Spec MptUpdate Types Requests

variable {H : HashFn} {ρ : Fr}

/-- **C33 (sharper).** One row less than `n_rows_required` is enough, provided the updates and one row of
padding fit: the "+1" of `n_rows_required` is needed for the updates only. -/
theorem c33_tight (ps : List Proof) (hp : ∀ p ∈ ps, ∃ t tr, proofFrom H t tr = some p) (n m : ℕ)
    (hm : nRowsRequired H ps = some m) (hn : m ≤ n + 1) (hr : 2 + totalRows ps ≤ n)
    (hk : 32 * ((updateKeys H ps).length + 1) ≤ n) :
    ((∃ s, serialAssign H ρ n ps = some s) ↔ ∃ n' s, serialAssign H ρ n' ps = some s) ∧
    (∀ threads, 0 < threads →
      ((∃ s, parAssign H ρ n threads ps = some s) ↔
        ∃ n' s, parAssign H ρ n' threads ps = some s)) ∧
    (∀ bits, keyBitLookups H ps = some bits → 1 + bits.length ≤ n) ∧
    (∀ a b c d strings, byteRepresentations ps = some (a, b, c, d) →
      ByteRep.byteStrings a b c d = some strings → 1 + (strings.map List.length).sum ≤ n) ∧
    2049 ≤ n := by
  obtain ⟨br, h1, hm⟩ := Option.bind_eq_some_iff.1 hm
  obtain ⟨bits, h2, hm⟩ := Option.bind_eq_some_iff.1 hm
  have hm' := Option.some.inj hm
  simp only [updateRowsRequired, Canonical.nRowsRequired, KeyBit.nRowsRequired,
    ByteBit.nRowsRequired] at hm'
  have hka : keysAssertion n (updateKeys H ps).length := by
    unfold keysAssertion; omega
  refine ⟨?_, ?_, ?_, ?_, by omega⟩
  · constructor
    · exact fun h => ⟨n, h⟩
    · rintro ⟨n', h⟩
      have := (serialAssign_isSome hp).1 h
      exact (serialAssign_isSome hp).2 ⟨this.1, by omega, hka⟩
  · intro threads ht
    constructor
    · exact fun h => ⟨n, h⟩
    · rintro ⟨n', h⟩
      have := (parAssign_isSome ht).1 h
      exact (parAssign_isSome ht).2 ⟨this.1, by omega, hka⟩
  · intro bits' hb
    cases h2.symm.trans hb
    omega
  · intro a b c d strings hb hs
    cases h1.symm.trans hb
    have := ((ByteRep.byteStrings_spec a b c d).1 strings hs).1
    simp only [ByteRep.total] at this
    dsimp only at hm'
    omega

/-- **C33 (partial).** With at least `n_rows_required` rows and room for one more key than requested
(`32 * (keys + 1) ≤ n`), the number of rows is never the reason for a panic: the serial assignment
succeeds if it succeeds for any number of rows whatsoever, and so does the parallel one; and byte
strings and key bits fit into the enabled rows. Missing from C33: the extra condition on the keys, which
`n_rows_required` alone does not give (`c33_false`). -/
theorem c33_partial (ps : List Proof) (hp : ∀ p ∈ ps, ∃ t tr, proofFrom H t tr = some p) (n m : ℕ)
    (hm : nRowsRequired H ps = some m) (hn : m ≤ n)
    (hk : 32 * ((updateKeys H ps).length + 1) ≤ n) :
    ((∃ s, serialAssign H ρ n ps = some s) ↔ ∃ n' s, serialAssign H ρ n' ps = some s) ∧
    (∀ threads, 0 < threads →
      ((∃ s, parAssign H ρ n threads ps = some s) ↔
        ∃ n' s, parAssign H ρ n' threads ps = some s)) ∧
    (∀ bits, keyBitLookups H ps = some bits → 1 + bits.length ≤ n) ∧
    (∀ a b c d strings, byteRepresentations ps = some (a, b, c, d) →
      ByteRep.byteStrings a b c d = some strings → 1 + (strings.map List.length).sum ≤ n) ∧
    2049 ≤ n := by
  have hr : 2 + totalRows ps ≤ n := by
    obtain ⟨br, h1, hm⟩ := Option.bind_eq_some_iff.1 hm
    obtain ⟨bits, h2, hm⟩ := Option.bind_eq_some_iff.1 hm
    have hm' := Option.some.inj hm
    simp only [updateRowsRequired] at hm'
    omega
  exact c33_tight ps hp n m hm (by omega) hr hk

/-- **C33, where it fails.** Whenever the canonical representation of the keys is what determines
`n_rows_required`, the assignment with exactly that many rows panics in both modes. -/
theorem c33_panics (ps : List Proof) (hp : ∀ p ∈ ps, ∃ t tr, proofFrom H t tr = some p)
    (h : nRowsRequired H ps = some (32 * (updateKeys H ps).length + 2)) :
    serialAssign H ρ (32 * (updateKeys H ps).length + 2) ps = none ∧
    ∀ threads, 0 < threads → parAssign H ρ (32 * (updateKeys H ps).length + 2) threads ps = none := by
  have hk : ¬ keysAssertion (32 * (updateKeys H ps).length + 2) (updateKeys H ps).length := by
    unfold keysAssertion; omega
  constructor
  · rw [Option.eq_none_iff_forall_ne_some]
    intro s hs
    exact hk ((serialAssign_isSome hp).1 ⟨s, hs⟩).2.2
  · intro threads ht
    rw [Option.eq_none_iff_forall_ne_some]
    intro s hs
    exact hk ((parAssign_isSome ht).1 ⟨s, hs⟩).2.2

/-! ## A list of traces for which `n_rows_required` is not enough -/

/-- A field element as a 32-byte little-endian hash of a trace. -/
def frHash (x : Fr) : List ℕ := (frBytes x).reverse

theorem fr_frHash (x : Fr) : fr (frHash x) = some x := by
  have : leVal (frHash x) = x.val := by rw [leVal, frHash, List.reverse_reverse, beVal_frBytes]
  rw [fr, this, if_pos (ZMod.val_lt x), ZMod.natCast_zmod_val]

/-- The trace of an account that is absent from the empty trie. -/
def absentTrace (H : HashFn) (a : List ℕ) : SMTTrace :=
  { address := a
    accountKey := frHash (accountKey H a)
    accountPath := (⟨frHash 0, none, []⟩, ⟨frHash 0, none, []⟩)
    accountUpdate := (none, none)
    statePath := (none, none)
    commonStateRoot := some (frHash 0)
    stateKey := none
    stateUpdate := none }

/-- The proof built from it. -/
def absentProof (H : HashFn) (a : List ℕ) : Proof :=
  { claim := ⟨0, 0, a, .IsEmpty none⟩
    addressHashTraces := []
    leafs := (none, none)
    oldTraces := emptyAccountHashTraces H none
    newTraces := emptyAccountHashTraces H none
    storage := .Root 0
    old := ⟨accountKey H a, none⟩
    new := ⟨accountKey H a, none⟩
    oldAccount := none
    newAccount := none
    accountTrieRows := [] }

theorem absentProof_eq (a : List ℕ) :
    proofFrom H .AccountDoesNotExist (absentTrace H a) = some (absentProof H a) := by
  have hc : claimFrom .AccountDoesNotExist (absentTrace H a) = some ⟨0, 0, a, .IsEmpty none⟩ := by
    simp [claimFrom, absentTrace, fr_frHash, claimKindFrom, accountKind, ClaimKind.proofType]
  have hs : storageProofFrom H (absentTrace H a) = some (.Root 0) := by
    simp [storageProofFrom, absentTrace, fr_frHash]
  have e1 : fr (absentTrace H a).accountKey = some (accountKey H a) := fr_frHash _
  have e2 : trieRowsNew H (accountKey H a) (absentTrace H a).accountPath.1.path
      (absentTrace H a).accountPath.2.path (absentTrace H a).accountPath.1.leaf
      (absentTrace H a).accountPath.2.leaf = some [] := by
    simp [absentTrace, trieRowsNew, bottomHash, trieRowsFrom]
  have e3 : getInternalHashTraces (accountKey H a) 0 0 (absentTrace H a).accountPath.1.path
      (absentTrace H a).accountPath.2.path = some [] := by
    simp [absentTrace, getInternalHashTraces, internalFrom]
  have e4 : getLeaf (absentTrace H a).accountPath.1 = some none := rfl
  have e5 : getLeaf (absentTrace H a).accountPath.2 = some none := rfl
  have e6 : pathLeafHash H (absentTrace H a).accountPath.1 = some 0 := rfl
  have e7 : pathLeafHash H (absentTrace H a).accountPath.2 = some 0 := rfl
  have e8 : checkHashTracesNew H none [] = some () := by simp [checkHashTracesNew]
  have e9 : (StorageProof.Root 0).oldRoot H = some 0 := rfl
  have e10 : (StorageProof.Root 0).newRoot H = some 0 := rfl
  have e11 : sideTraces H a (absentTrace H a).accountUpdate.1 none 0 = emptyAccountHashTraces H none :=
    rfl
  have e12 : sideTraces H a (absentTrace H a).accountUpdate.2 none 0 = emptyAccountHashTraces H none :=
    rfl
  have e13 : (emptyAccountHashTraces H none).t5.2.2 = 0 := rfl
  have e14 : pathFrom H a (absentTrace H a).accountPath.1 = some ⟨accountKey H a, none⟩ := rfl
  have e15 : pathFrom H a (absentTrace H a).accountPath.2 = some ⟨accountKey H a, none⟩ := rfl
  have e16 : sideAccount (absentTrace H a).accountUpdate.1 0 = some none := rfl
  have e17 : sideAccount (absentTrace H a).accountUpdate.2 0 = some none := rfl
  simp only [proofFrom, hc, hs, Option.bind_eq_bind, Option.bind_some, e1, if_true, e2, e3, e4, e5, e6,
    e7, e8, e9, e10, e11, e12, e13, e14, e15, e16, e17, and_self, Option.pure_def]
  rfl

theorem nodup_of_sorted {α : Type} [DecidableEq α] (code : α → List ℕ) (hc : Function.Injective code)
    (l : List α) : (sortDedup code l).Nodup := by
  refine (sortDedup_sorted code hc l).imp ?_
  intro a b h e
  subst e
  exact lt_irrefl _ h

theorem sortDedup_length_le {α : Type} [DecidableEq α] (code : α → List ℕ)
    (hc : Function.Injective code) (l : List α) : (sortDedup code l).length ≤ l.length := by
  have h1 := List.toFinset_card_of_nodup (nodup_of_sorted code hc l)
  have h2 : (sortDedup code l).toFinset = l.toFinset := by
    ext x; simp [mem_sortDedup]
  rw [← h1, h2]
  exact List.toFinset_card_le l

/-- The 20-byte address with number `i`. -/
def smallAddress (i : ℕ) : List ℕ := beBytes 20 i

/-- **C33 is false.** For every hash function without collisions among the keys of the addresses
0 to 66: the 67 valid proofs that these accounts are absent from the empty trie make the assignment
panic when it is given exactly the number of rows that `n_rows_required` announces. -/
theorem c33_false (hH : ∀ i j, i < 67 → j < 67 →
      accountKey H (smallAddress i) = accountKey H (smallAddress j) → i = j) :
    let ps := (List.range 67).map fun i : ℕ => absentProof H (smallAddress i)
    (∀ p ∈ ps, ∃ t tr, proofFrom H t tr = some p) ∧
    ∃ n, nRowsRequired H ps = some n ∧ serialAssign H ρ n ps = none ∧
      ∀ threads, 0 < threads → parAssign H ρ n threads ps = none := by
  intro ps
  have hp : ∀ p ∈ ps, ∃ t tr, proofFrom H t tr = some p := by
    intro p hp
    obtain ⟨i, -, rfl⟩ := List.mem_map.1 hp
    exact ⟨_, _, absentProof_eq _⟩
  refine ⟨hp, ?_⟩
  have hu : ps.mapM proofU128s = some (ps.map fun p => [addressHigh p.claim.address]) := by
    apply mapM_eq_some_map
    intro p hp
    obtain ⟨i, -, rfl⟩ := List.mem_map.1 hp
    rfl
  have hbits : ps.mapM (proofBits H) = some (ps.map fun _ => []) := by
    apply mapM_eq_some_map
    intro p hp
    obtain ⟨i, -, rfl⟩ := List.mem_map.1 hp
    rfl
  have hlen : ps.length = 67 := by simp [ps]
  have hk : 67 ≤ (updateKeys H ps).length := by
    have h1 := List.toFinset_card_of_nodup
      (nodup_of_sorted frCode frCode_inj (0 :: 1 :: ps.flatMap (proofKeys H)))
    rw [updateKeys, ← h1]
    have h2 : (Finset.range 67).image (fun i : ℕ => accountKey H (smallAddress i)) ⊆
        (sortDedup frCode (0 :: 1 :: ps.flatMap (proofKeys H))).toFinset := by
      intro x hx
      obtain ⟨i, hi, rfl⟩ := Finset.mem_image.1 hx
      rw [List.mem_toFinset, mem_sortDedup]
      refine List.mem_cons_of_mem _ (List.mem_cons_of_mem _ (List.mem_flatMap.2
        ⟨absentProof H (smallAddress i), List.mem_map.2 ⟨i, by simpa using hi, rfl⟩, ?_⟩))
      simp [proofKeys, absentProof]
    have h3 := Finset.card_le_card h2
    rwa [Finset.card_image_of_injOn, Finset.card_range] at h3
    intro i hi j hj he
    exact hH i j (by simpa using hi) (by simpa using hj) he
  have h64 : (ps.flatMap proofU64s) = [] := by
    rw [List.flatMap_eq_nil_iff]
    intro p hp
    obtain ⟨i, -, rfl⟩ := List.mem_map.1 hp
    rfl
  have hfr : (ps.flatMap proofFrs) = [] := by
    rw [List.flatMap_eq_nil_iff]
    intro p hp
    obtain ⟨i, -, rfl⟩ := List.mem_map.1 hp
    rfl
  have htot : totalRows ps = 67 := by
    have : ∀ p ∈ ps, p.nRows = 1 := by
      intro p hp
      obtain ⟨i, -, rfl⟩ := List.mem_map.1 hp
      rfl
    rw [totalRows, List.map_congr_left this]
    simp [hlen]
  have hreq : nRowsRequired H ps = some (32 * (updateKeys H ps).length + 2) := by
    have hu' : allU128s ps = some (0 :: (ps.map fun p => [addressHigh p.claim.address]).flatten) := by
      simp only [allU128s, hu]; rfl
    have hb' : keyBitLookups H ps = some (sortDedup bitCode
        ((0, 0, false) :: (1, 0, true) :: (ps.map fun _ => ([] : List (Fr × ℕ × Bool))).flatten)) := by
      simp only [keyBitLookups, allBits, hbits]; rfl
    simp only [nRowsRequired, byteRepresentations, hu', hb', Option.bind_eq_bind, Option.bind_some,
      Option.pure_def, h64, hfr]
    have l1 := sortDedup_length_le natCode natCode_inj (ps.map fun p => addressLow p.claim.address)
    have l2 := sortDedup_length_le natCode natCode_inj
      (0 :: (ps.map fun p => [addressHigh p.claim.address]).flatten)
    have l3 := sortDedup_length_le bitCode bitCode_inj
      ((0, 0, false) :: (1, 0, true) :: (ps.map fun _ => ([] : List (Fr × ℕ × Bool))).flatten)
    have l4 := sortDedup_length_le natCode natCode_inj []
    have l5 := sortDedup_length_le frCode frCode_inj []
    rw [List.length_map, hlen] at l1
    have l2' : ((ps.map fun p => [addressHigh p.claim.address]).flatten).length = 67 := by
      simp [List.length_flatten, Function.comp_def, hlen]
    have l3' : ((ps.map fun _ => ([] : List (Fr × ℕ × Bool))).flatten).length = 0 := by
      simp
    rw [List.length_cons, l2'] at l2
    rw [List.length_cons, List.length_cons, l3'] at l3
    rw [List.length_nil] at l4 l5
    refine congrArg some ?_
    simp only [updateRowsRequired, htot, Canonical.nRowsRequired, KeyBit.nRowsRequired,
      ByteRep.nRowsRequired, ByteBit.nRowsRequired]
    omega
  have := c33_panics (ρ := ρ) ps hp hreq
  exact ⟨_, hreq, this.1, this.2⟩

/-- The hypothesis of `c33_false` is satisfiable. -/
example : ∀ i j, i < 67 → j < 67 → accountKey (fun l r _ => l + r) (smallAddress i) =
    accountKey (fun l r _ => l + r) (smallAddress j) → i = j := by
  intro i j hi hj h
  have e : ∀ k, k < 67 → accountKey (fun l r _ => l + r) (smallAddress k) =
      ((k * 2 ^ 96 : ℕ) : Fr) := by
    intro k hk
    have h1 : (beBytes 20 k).take 16 = beBytes 16 (k / 256 ^ 4) := by
      rw [show 20 = 16 + 4 from rfl, beBytes_add, List.take_left' (by simp)]
    have h2 : (beBytes 20 k).drop 16 = beBytes 4 k := by
      rw [show 20 = 16 + 4 from rfl, beBytes_add, List.drop_left' (by simp)]
    simp only [accountKey, domainHash, accountKeyPreimage, smallAddress, h1, h2]
    rw [Nat.div_eq_of_lt (lt_trans hk (by norm_num)), beVal_beBytes 4 k (lt_trans hk (by norm_num)),
      beVal_beBytes 16 0 (by norm_num), Nat.shiftLeft_eq]
    simp
  rw [e i hi, e j hj] at h
  have hb : ∀ k, k < 67 → k * 2 ^ 96 < frModulus := fun k hk =>
    lt_trans (Nat.mul_lt_mul_of_pos_right hk (by norm_num)) (by unfold frModulus; norm_num)
  have := natCast_inj_of_lt (hb i hi) (hb j hj) h
  exact Nat.eq_of_mul_eq_mul_right (by norm_num) this

end Mpt.Props
