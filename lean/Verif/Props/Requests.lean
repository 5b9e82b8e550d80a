import Verif.Assign.Circuit
import Verif.Props.Circuit
import Verif.Props.Util

set_option autoImplicit false

/-!
# C36 and C37: the requests to the lookup tables

`hash_traces`, `key_bit_lookups`, `mpt_update_keys` and `byte_representations` of
/repo/src/gadgets/mpt_update.rs:2048-2255 as functions of the list of proofs. Coverage (every lookup of
the assigned rows is among the requests) is part of C35, where the tables built from the requests are
shown to serve all the lookups.
-/

namespace Mpt.Props
open Mpt Spec Types Requests MptUpdate

/-- The entry states a true evaluation of the hash function. -/
def TrueEntry (H : HashFn) (e : Entry) : Prop := e.2.2 = H e.1.1 e.1.2 e.2.1

/-- The hashed storage key of a storage proof is the hash of its storage key. -/
def HashedKey (H : HashFn) : StorageProof → Prop
  | .Root _ => True
  | .Update sk key _ _ _ => key = storageKeyHash H sk

theorem true_trace (H : HashFn) (row : TrieRow) (x : Fr) (d : HashDomain) :
    TrueEntry H (toEntry (row.trace H x d)) := by
  unfold TrieRow.trace; split <;> rfl

theorem true_triePoseidon (H : HashFn) (rows : List TrieRow) (l : List HashTrace)
    (h : triePoseidonLookups H rows = some l) : ∀ e ∈ l, TrueEntry H (toEntry e) := by
  induction rows generalizing l with
  | nil => rw [triePoseidonLookups] at h; cases h; simp
  | cons row rows ih =>
    rw [triePoseidonLookups] at h
    obtain ⟨a, h1, h⟩ := Option.bind_eq_some_iff.1 h
    obtain ⟨b, h2, h⟩ := Option.bind_eq_some_iff.1 h
    cases h
    intro e he
    rcases List.mem_append.1 he with he | he
    · unfold TrieRow.poseidonLookups at h1
      split at h1
      · cases h1
      · dsimp only at h1
        split at h1 <;> obtain ⟨d, -, h1⟩ := Option.bind_eq_some_iff.1 h1 <;> cases h1
        all_goals
          simp only [List.mem_cons, List.not_mem_nil, or_false] at he
          rcases he with rfl | rfl <;> exact true_trace _ _ _ _
      · cases h1; simp only [List.mem_cons, List.not_mem_nil, or_false] at he
        subst he; exact true_trace _ _ _ _
      · cases h1; simp only [List.mem_cons, List.not_mem_nil, or_false] at he
        subst he; exact true_trace _ _ _ _
    · exact ih b h2 e he

theorem true_storageLeaf (H : HashFn) (l : StorageLeaf) :
    ∀ e ∈ l.poseidonLookups H, TrueEntry H (toEntry e) := by
  intro e he
  cases l with
  | Empty k => simp [StorageLeaf.poseidonLookups] at he
  | Leaf k h =>
    simp only [StorageLeaf.poseidonLookups, List.mem_cons, List.not_mem_nil, or_false] at he
    subst he; rfl
  | Entry k v =>
    simp only [StorageLeaf.poseidonLookups, List.mem_cons, List.not_mem_nil, or_false] at he
    rcases he with rfl | rfl <;> rfl

theorem splitWord_eq (x : ℕ) :
    splitWord x = ((((u256HiLo x).1 : ℕ) : Fr), (((u256HiLo x).2 : ℕ) : Fr)) := by
  rw [splitWord, u256ToBigEndian, take_word, drop_word, beVal_beBytes_mod, beVal_beBytes_mod,
    u256HiLo, (limbs x).1, (limbs x).2]
  norm_num

theorem true_storage (H : HashFn) (p : StorageProof) (hp : HashedKey H p) (l : List HashTrace)
    (h : p.poseidonLookups H = some l) : ∀ e ∈ l, TrueEntry H (toEntry e) := by
  cases p with
  | Root r => simp only [StorageProof.poseidonLookups] at h; cases h; simp
  | Update sk key rows o n =>
    simp only [StorageProof.poseidonLookups] at h
    obtain ⟨t, h1, h⟩ := Option.bind_eq_some_iff.1 h
    cases h
    intro e he
    rcases List.mem_cons.1 he with rfl | he
    · show key = H (((u256HiLo sk).1 : ℕ) : Fr) (((u256HiLo sk).2 : ℕ) : Fr) HashDomain.Pair.toFr
      rw [show key = storageKeyHash H sk from hp, storageKeyHash, splitWord_eq]
      rfl
    · rcases List.mem_append.1 he with he | he
      · rcases List.mem_append.1 he with he | he
        · exact true_triePoseidon H rows t h1 e he
        · exact true_storageLeaf H o e he
      · exact true_storageLeaf H n e he

theorem true_leafEntry (H : HashFn) (p : Path) : ∀ e ∈ leafEntry H p, TrueEntry H e := by
  intro e he
  unfold leafEntry at he
  split at he
  · cases he
  · simp only [List.mem_cons, List.not_mem_nil, or_false] at he; subst he; rfl

theorem true_tripleEntry (H : HashFn) (t : Triple) : ∀ e ∈ tripleEntry H t, TrueEntry H e := by
  intro e he
  unfold tripleEntry at he
  split_ifs at he with h1 h2 h3 <;>
    simp only [List.mem_cons, List.not_mem_nil, or_false] at he <;> subst he
  · exact h1.symm
  · exact h2.symm
  · exact h3.symm

theorem true_tracesEntries (H : HashFn) (t : AccountTraces) :
    ∀ e ∈ tracesEntries H t, TrueEntry H e := by
  intro e he
  obtain ⟨x, -, hx⟩ := List.mem_flatMap.1 he
  exact true_tripleEntry H x e hx

theorem true_proofEntries (H : HashFn) (p : Proof) (hp : HashedKey H p.storage) (l : List Entry)
    (h : proofEntries H p = some l) : ∀ e ∈ l, TrueEntry H e := by
  obtain ⟨a, h1, h⟩ := Option.bind_eq_some_iff.1 h
  obtain ⟨b, h2, h⟩ := Option.bind_eq_some_iff.1 h
  cases h
  intro e he
  simp only [List.mem_append, List.mem_map, List.mem_cons, List.not_mem_nil, or_false] at he
  rcases he with (((((⟨x, hx, rfl⟩ | ⟨x, hx, rfl⟩) | rfl) | he) | he) | he) | he
  · exact true_triePoseidon H _ a h1 x hx
  · exact true_storage H _ hp b h2 x hx
  · rfl
  · exact true_leafEntry H _ e he
  · exact true_leafEntry H _ e he
  · exact true_tracesEntries H _ e he
  · exact true_tracesEntries H _ e he

theorem mem_mapM_of {α β : Type} (f : α → Option β) (l : List α) (l' : List β)
    (h : l.mapM f = some l') : (∀ b ∈ l', ∃ a ∈ l, f a = some b) ∧ ∀ a ∈ l, ∃ b ∈ l', f a = some b := by
  induction l generalizing l' with
  | nil => simp only [List.mapM_nil] at h; cases h; simp
  | cons x l ih =>
    rw [List.mapM_cons] at h
    obtain ⟨y, h1, h⟩ := Option.bind_eq_some_iff.1 h
    obtain ⟨ys, h2, h⟩ := Option.bind_eq_some_iff.1 h
    cases h
    obtain ⟨i1, i2⟩ := ih ys h2
    refine ⟨?_, ?_⟩
    · intro b hb
      rcases List.mem_cons.1 hb with rfl | hb
      · exact ⟨x, by simp, h1⟩
      · obtain ⟨a, ha, e⟩ := i1 b hb
        exact ⟨a, List.mem_cons_of_mem _ ha, e⟩
    · intro a ha
      rcases List.mem_cons.1 ha with rfl | ha
      · exact ⟨y, by simp, h1⟩
      · obtain ⟨b, hb, e⟩ := i2 a ha
        exact ⟨b, List.mem_cons_of_mem _ hb, e⟩

/-- **C36, what is true for all lists of proofs.** Whenever `hash_traces` returns, its result is strictly
increasing (sorted lexicographically, no duplicates), contains the padding triple, contains exactly the padding triple and
the requests of each proof, and every entry is a true Poseidon evaluation provided that the hashed key of
each storage proof is the hash of its storage key (which the constructors do not check: `c36_false`). -/
theorem c36_hash_traces_partial (H : HashFn) (ps : List Proof) (l : List Entry)
    (h : hashTraces H ps = some l) :
    l.Pairwise (fun a b => [a.1.1.val, a.1.2.val, a.2.1.val, a.2.2.val] <
      [b.1.1.val, b.1.2.val, b.2.1.val, b.2.2.val]) ∧
    ((0, 0), HashDomain.Pair.toFr, H 0 0 HashDomain.Pair.toFr) ∈ l ∧
    (∀ e, e ∈ l ↔ e = ((0, 0), HashDomain.Pair.toFr, H 0 0 HashDomain.Pair.toFr) ∨
      ∃ p ∈ ps, ∃ es, proofEntries H p = some es ∧ e ∈ es) ∧
    ((∀ p ∈ ps, HashedKey H p.storage) → ∀ e ∈ l, e.2.2 = H e.1.1 e.1.2 e.2.1) := by
  obtain ⟨x, h1, h2⟩ := Option.map_eq_some_iff.1 h
  subst h2
  obtain ⟨es, h3, h4⟩ := Option.bind_eq_some_iff.1 h1
  cases h4
  obtain ⟨m1, m2⟩ := mem_mapM_of _ _ _ h3
  have key : ∀ e, e ∈ sortDedup traceCode
        (((0, 0), HashDomain.Pair.toFr, zeroPairHash H) :: es.flatten) ↔
      e = ((0, 0), HashDomain.Pair.toFr, H 0 0 HashDomain.Pair.toFr) ∨
      ∃ p ∈ ps, ∃ es, proofEntries H p = some es ∧ e ∈ es := by
    intro e
    rw [mem_sortDedup, List.mem_cons, List.mem_flatten]
    refine or_congr Iff.rfl ⟨?_, ?_⟩
    · rintro ⟨l, hl, he⟩
      obtain ⟨p, hp, hpe⟩ := m1 l hl
      exact ⟨p, hp, l, hpe, he⟩
    · rintro ⟨p, hp, l, hl, he⟩
      obtain ⟨b, hb, hpe⟩ := m2 p hp
      rw [hl] at hpe; cases hpe
      exact ⟨l, hb, he⟩
  refine ⟨sortDedup_sorted traceCode traceCode_inj _, (key _).2 (Or.inl rfl), key, ?_⟩
  intro hk e he
  rcases (key e).1 he with rfl | ⟨p, hp, l, hl, hm⟩
  · rfl
  · exact true_proofEntries H p (hk p hp) l hl e hm

/-! ## C37 -/

theorem rowsBits_keys (H : HashFn) (p : Proof) (i : ℕ) (rs : List HashRow)
    (l : List (Fr × ℕ × Bool)) (h : rowsBits H p i rs = some l) :
    ∀ q ∈ l, q.1 = p.old.key ∨ q.1 = p.new.key ∨ q.1 = accountKey H p.claim.address := by
  induction rs generalizing i l with
  | nil => rw [rowsBits] at h; cases h; simp
  | cons r rs ih =>
    rw [rowsBits] at h
    obtain ⟨a, h1, h⟩ := Option.bind_eq_some_iff.1 h
    obtain ⟨b, h2, h⟩ := Option.bind_eq_some_iff.1 h
    cases h
    intro q hq
    rcases List.mem_append.1 hq with hq | hq
    · unfold rowBits at h1
      dsimp only at h1
      split at h1
      · cases h1
        split at hq <;> simp at hq
        · rcases hq with rfl | rfl <;> simp
        · rcases hq with rfl | rfl | rfl <;> simp
      · cases h1; simp at hq; subst hq; simp
      · cases h1; simp at hq; subst hq; simp
      · cases h1
    · exact ih _ b h2 q hq

theorem trieBits_keys (key ok : Fr) (i : ℕ) (rows : List TrieRow) :
    ∀ q ∈ trieKeyBitLookupsFrom key ok i rows, q.1 = key ∨ q.1 = ok := by
  induction rows generalizing i with
  | nil => simp [trieKeyBitLookupsFrom]
  | cons r rows ih =>
    intro q hq
    rw [trieKeyBitLookupsFrom] at hq
    rcases List.mem_append.1 hq with hq | hq
    · split at hq <;> simp at hq
      · rcases hq with rfl | rfl <;> simp
      · subst hq; simp
    · exact ih _ q hq

theorem proofBits_keys (H : HashFn) (p : Proof) (l : List (Fr × ℕ × Bool))
    (h : proofBits H p = some l) : ∀ q ∈ l, q.1 ∈ proofKeys H p := by
  obtain ⟨a, h1, h⟩ := Option.bind_eq_some_iff.1 h
  cases h
  intro q hq
  rcases List.mem_append.1 hq with hq | hq
  · have := rowsBits_keys H p 0 _ a h1 q hq
    simp only [proofKeys, List.mem_append, List.mem_cons]
    tauto
  · cases hs : p.storage with
    | Root r => rw [hs] at hq; simp [StorageProof.keyBitLookups] at hq
    | Update sk key rows o n =>
      rw [hs] at hq
      have := trieBits_keys _ _ 0 rows q hq
      simp only [proofKeys, hs, StorageProof.keyLookups, List.mem_append, List.mem_cons]
      tauto

/-- **C37, what is true for all lists of proofs.** Whenever `key_bit_lookups` returns, its result is
strictly increasing, contains the two padding requests, and every key whose bit is requested is in
`mpt_update_keys`, which is strictly increasing and contains the roots, the keys of the leaves and the
account keys of all proofs. -/
theorem c37_key_requests (H : HashFn) (ps : List Proof) (bits : List (Fr × ℕ × Bool))
    (h : keyBitLookups H ps = some bits) :
    bits.Pairwise (fun a b => [a.1.val, a.2.1, if a.2.2 then 1 else 0] <
      [b.1.val, b.2.1, if b.2.2 then 1 else 0]) ∧
    (0, 0, false) ∈ bits ∧ (1, 0, true) ∈ bits ∧
    (∀ q ∈ bits, q.1 ∈ updateKeys H ps) ∧
    (updateKeys H ps).Pairwise (fun a b => a.val < b.val) ∧
    (∀ p ∈ ps, p.claim.oldRoot ∈ updateKeys H ps ∧ p.claim.newRoot ∈ updateKeys H ps ∧
      p.old.key ∈ updateKeys H ps ∧ p.new.key ∈ updateKeys H ps ∧
      accountKey H p.claim.address ∈ updateKeys H ps) := by
  obtain ⟨x, h1, h2⟩ := Option.map_eq_some_iff.1 h
  subst h2
  obtain ⟨es, h3, h4⟩ := Option.bind_eq_some_iff.1 h1
  cases h4
  obtain ⟨m1, m2⟩ := mem_mapM_of _ _ _ h3
  have hkey : ∀ p ∈ ps, ∀ k ∈ proofKeys H p, k ∈ updateKeys H ps := by
    intro p hp k hk
    rw [updateKeys, mem_sortDedup]
    exact List.mem_cons_of_mem _ (List.mem_cons_of_mem _ (List.mem_flatMap.2 ⟨p, hp, hk⟩))
  refine ⟨sortDedup_sorted bitCode bitCode_inj _, ?_, ?_, ?_, ?_, ?_⟩
  · rw [mem_sortDedup]; simp
  · rw [mem_sortDedup]; simp
  · intro q hq
    rw [mem_sortDedup] at hq
    rcases List.mem_cons.1 hq with rfl | hq
    · rw [updateKeys, mem_sortDedup]; simp
    rcases List.mem_cons.1 hq with rfl | hq
    · rw [updateKeys, mem_sortDedup]; simp
    obtain ⟨l, hl, hq⟩ := List.mem_flatten.1 hq
    obtain ⟨p, hp, hpl⟩ := m1 l hl
    exact hkey p hp _ (proofBits_keys H p l hpl q hq)
  · refine (sortDedup_sorted frCode frCode_inj _).imp ?_
    intro a b hab
    simpa [frCode, List.cons_lt_cons_iff] using hab
  · intro p hp
    refine ⟨hkey p hp _ ?_, hkey p hp _ ?_, hkey p hp _ ?_, hkey p hp _ ?_, hkey p hp _ ?_⟩ <;>
      simp [proofKeys]

/-- **C37, bits.** If the bit table is assigned at all then all requested bits are correct: bit `i`
counted from the least significant one of the canonical integer, `i < 256`. -/
theorem c37_bits_correct (H : HashFn) (ps : List Proof) (bits : List (Fr × ℕ × Bool))
    (_h : keyBitLookups H ps = some bits) (rows : List KeyBit.Row)
    (ha : KeyBit.assignRows bits = some rows) : ∀ q ∈ bits, KeyBit.Correct q :=
  (KeyBit.correct_of_assigned ha).1

/-- **C37, byte strings.** Each of the four lists of `byte_representations` is strictly increasing and
contains exactly the address words, integers, halves and balances that the proofs ask for. -/
theorem c37_byte_requests (ps : List Proof) (br : List ℕ × List ℕ × List ℕ × List Fr)
    (h : byteRepresentations ps = some br) :
    br.1.Pairwise (· < ·) ∧ br.2.1.Pairwise (· < ·) ∧ br.2.2.1.Pairwise (· < ·) ∧
    br.2.2.2.Pairwise (fun a b => a.val < b.val) ∧
    (∀ x, x ∈ br.1 ↔ ∃ p ∈ ps, x = addressLow p.claim.address) ∧
    (∀ x, x ∈ br.2.1 ↔ ∃ p ∈ ps, x ∈ proofU64s p) ∧
    (∀ x, x ∈ br.2.2.1 ↔ x = 0 ∨ ∃ p ∈ ps, ∃ l, proofU128s p = some l ∧ x ∈ l) ∧
    (∀ x, x ∈ br.2.2.2 ↔ ∃ p ∈ ps, x ∈ proofFrs p) := by
  obtain ⟨u, h1, h2⟩ := Option.bind_eq_some_iff.1 h
  cases h2
  obtain ⟨es, h3, h4⟩ := Option.bind_eq_some_iff.1 h1
  cases h4
  obtain ⟨m1, m2⟩ := mem_mapM_of _ _ _ h3
  have hn : ∀ l : List ℕ, (sortDedup natCode l).Pairwise (· < ·) := by
    intro l
    refine (sortDedup_sorted natCode natCode_inj _).imp ?_
    intro a b hab
    simpa [natCode, List.cons_lt_cons_iff] using hab
  refine ⟨hn _, hn _, hn _, ?_, ?_, ?_, ?_, ?_⟩
  · refine (sortDedup_sorted frCode frCode_inj _).imp ?_
    intro a b hab
    simpa [frCode, List.cons_lt_cons_iff] using hab
  · intro x
    rw [mem_sortDedup, List.mem_map]
    exact ⟨fun ⟨p, hp, e⟩ => ⟨p, hp, e.symm⟩, fun ⟨p, hp, e⟩ => ⟨p, hp, e.symm⟩⟩
  · intro x; rw [mem_sortDedup, List.mem_flatMap]
  · intro x
    rw [mem_sortDedup, List.mem_cons, List.mem_flatten]
    refine or_congr Iff.rfl ⟨?_, ?_⟩
    · rintro ⟨l, hl, he⟩
      obtain ⟨p, hp, hpe⟩ := m1 l hl
      exact ⟨p, hp, l, hpe, he⟩
    · rintro ⟨p, hp, l, hl, he⟩
      obtain ⟨b, hb, hpe⟩ := m2 p hp
      rw [hl] at hpe; cases hpe
      exact ⟨l, hb, he⟩
  · intro x; rw [mem_sortDedup, List.mem_flatMap]

end Mpt.Props
