import Verif.Assign.HonestParse

set_option autoImplicit false

/-!
# Honest traces give ready proofs (C35)
-/

namespace Mpt
open Spec MptUpdate Types Requests Props

variable {H : HashFn}

/-! ## Key bits -/

theorem bits_trie {key ok : Fr} (rows : List TrieRow) : ∀ (i : ℕ),
    (∀ (j : ℕ) (row : TrieRow), rows[j]? = some row → i + j < 256 ∧ row.direction = keyBit key (i + j) ∧
      (row.pathType = .Common → keyBit ok (i + j) = keyBit key (i + j))) →
    ∀ q ∈ trieKeyBitLookupsFrom key ok i rows, KeyBit.Correct q := by
  induction rows with
  | nil => intro i _ q hq; cases hq
  | cons row rows ih =>
    intro i h q hq
    rw [trieKeyBitLookupsFrom] at hq
    rcases List.mem_append.1 hq with hq | hq
    · obtain ⟨h1, h2, h3⟩ := h 0 row rfl
      rw [Nat.add_zero] at h1 h2 h3
      have k1 : KeyBit.Correct (key, i, row.direction) := ⟨h1, h2⟩
      cases hp : row.pathType <;> rw [hp] at hq h3 <;>
        simp only [List.mem_cons, List.not_mem_nil, or_false] at hq
      · rcases hq with rfl | rfl
        · exact k1
        · exact ⟨h1, by show row.direction = keyBit ok i; rw [h3 rfl, h2]⟩
      · subst hq; exact k1
      · subst hq; exact k1
    · refine ih (i + 1) (fun j r hj => ?_) q hq
      have := h (j + 1) r hj
      rw [show i + (j + 1) = i + 1 + j by omega] at this
      exact this

theorem rowsBits_ok {p : Proof} (rows : List TrieRow) : ∀ (i : ℕ),
    (∀ (j : ℕ) (row : TrieRow), rows[j]? = some row → i + j < 256 ∧ row.pathType ≠ .Start ∧
      row.direction = keyBit (accountKey H p.claim.address) (i + j) ∧
      (row.pathType ≠ .ExtensionNew → row.direction = keyBit p.old.key (i + j)) ∧
      (row.pathType ≠ .ExtensionOld → row.direction = keyBit p.new.key (i + j))) →
    ∃ l, rowsBits H p i (rows.map toHashRow) = some l ∧ ∀ q ∈ l, KeyBit.Correct q := by
  induction rows with
  | nil => intro i _; exact ⟨[], rfl, by simp⟩
  | cons row rows ih =>
    intro i h
    obtain ⟨l, hl, hc⟩ := ih (i + 1) (fun j r hj => by
      have := h (j + 1) r hj
      rw [show i + (j + 1) = i + 1 + j by omega] at this
      exact this)
    obtain ⟨h1, h2, h3, h4, h5⟩ := h 0 row rfl
    rw [Nat.add_zero] at h1 h3 h4 h5
    have : ∃ l', rowBits H p i (toHashRow row) = some l' ∧ ∀ q ∈ l', KeyBit.Correct q := by
      unfold rowBits toHashRow
      cases hp : row.pathType
      · exact absurd hp h2
      · refine ⟨_, rfl, fun q hq => ?_⟩
        rw [hp] at h4 h5
        rcases List.mem_append.1 hq with hq | hq
        · simp only [List.mem_cons, List.not_mem_nil, or_false] at hq
          rcases hq with rfl | rfl
          · exact ⟨h1, h4 (by decide)⟩
          · exact ⟨h1, h5 (by decide)⟩
        · split at hq
          · cases hq
          · simp only [List.mem_cons, List.not_mem_nil, or_false] at hq
            subst hq; exact ⟨h1, h3⟩
      · refine ⟨_, rfl, fun q hq => ?_⟩
        rw [hp] at h4 h5
        simp only [List.mem_cons, List.not_mem_nil, or_false] at hq
        subst hq; exact ⟨h1, h4 (by decide)⟩
      · refine ⟨_, rfl, fun q hq => ?_⟩
        rw [hp] at h4 h5
        simp only [List.mem_cons, List.not_mem_nil, or_false] at hq
        subst hq; exact ⟨h1, h5 (by decide)⟩
    obtain ⟨l', hl', hc'⟩ := this
    refine ⟨l' ++ l, ?_, fun q hq => ?_⟩
    · rw [List.map_cons, rowsBits, hl', hl]; rfl
    · rcases List.mem_append.1 hq with hq | hq
      · exact hc' q hq
      · exact hc q hq

theorem pathOf_bit {key : Fr} {n : ℕ} {e : PathEnd} (h : EndPlaced key n e) {i : ℕ} (hi : i < n) :
    keyBit (pathOf key e).key i = keyBit key i := by
  cases e with
  | none => rfl
  | some x => exact h x.1 x.2 rfl i hi

theorem pathType_cases {t : PathType} (h : t ≠ .Start) : t = .Common ∨ t = .ExtensionOld ∨ t = .ExtensionNew := by
  cases t <;> simp_all

/-- The key-bit requests of a parsed honest trace. -/
theorem bits_ok {t : MPTProofType} {tr : SMTTrace} {c : Change} {leafP : PathType}
    {po pn : List PathNode} {eo en : PathEnd} {ro rn : Fr} {kind : ClaimKind} {storage : StorageProof}
    {sr0 sr1 : Fr} {a0 a1 : Option EthAccount} {p : Proof}
    (hA : AccountPart H tr c po pn eo en ro rn)
    (h : ParsedAs H t tr c leafP po pn eo en ro rn kind storage sr0 sr1 a0 a1 p)
    (hs : ∀ q ∈ storage.keyBitLookups H, KeyBit.Correct q) :
    ∃ l, proofBits H p = some l ∧ ∀ q ∈ l, KeyBit.Correct q := by
  have ha : p.claim.address = tr.address := by rw [h.claim]
  obtain ⟨l, hl, hc⟩ := rowsBits_ok (H := H) (p := p) p.accountTrieRows 0 (fun j row hj => by
    rw [Nat.zero_add]
    obtain ⟨q1, q2, q3, q4, q5⟩ := h.paths.place j row hj
    have hst := (rowsHonest_path _ _ h.paths.honest row (List.mem_of_getElem? hj)).1
    refine ⟨q1, hst, by rw [ha, q2], fun hp => ?_, fun hp => ?_⟩
    · rw [q2, h.old, pathOf_bit hA.paths.placedOld]
      rcases pathType_cases hst with e | e | e
      · exact (q3 e).1
      · exact q4 e
      · exact absurd e hp
    · rw [q2, h.new, pathOf_bit hA.paths.placedNew]
      rcases pathType_cases hst with e | e | e
      · exact (q3 e).2
      · exact absurd e hp
      · exact q5 e)
  refine ⟨l ++ p.storage.keyBitLookups H, ?_, fun q hq => ?_⟩
  · unfold proofBits
    rw [h.acc.traces, List.reverse_reverse, hl]; rfl
  · rcases List.mem_append.1 hq with hq | hq
    · exact hc q hq
    · rw [h.storage] at hq; exact hs q hq

/-! ## Storage -/

theorem storageKeyHash_eq {s : ℕ} (hs : s < 2 ^ 256) : storageKeyHash H s = Account.wordHash H s := by
  unfold storageKeyHash
  rw [(c45_split s hs).2.1]; rfl

/-- The `StorageLeaf` of an end that is not the slot. -/
def leafOf (key : Fr) : PathEnd → StorageLeaf
  | none => .Empty key
  | some (k, d) => .Leaf k d

theorem leafOf_hash (key : Fr) (e : PathEnd) : (leafOf key e).hash H = endHash H e := by cases e <;> rfl

theorem leafOf_absent {key : Fr} {e : PathEnd} (h : AbsentEnd H key e) : AbsentLeaf H key (leafOf key e) := by
  rcases h with rfl | ⟨k, d, rfl, hk, hz⟩
  · exact .inl rfl
  · exact .inr ⟨k, d, rfl, hk, hz⟩

theorem leafOf_bit {key : Fr} {n : ℕ} {e : PathEnd} (h : EndPlaced key n e) {i : ℕ} (hi : i < n) :
    keyBit ((leafOf key e).key H) i = keyBit key i := by
  cases e with
  | none => rfl
  | some x => exact h x.1 x.2 rfl i hi

/-- A leaf of the storage trie that is not the slot. -/
theorem newLeaf_zero {key : Fr} {node : Option SMTNode} {d : StateData} {e : PathEnd}
    (hl : LeafDenotes node e) (hk : key = storageKeyHash H (beVal d.key)) (hv : beVal d.value = 0) :
    StorageLeaf.new H key node d = some (leafOf key e) := by
  unfold StorageLeaf.new
  have hv' : decide (u256FromHex d.value = 0) = true := decide_eq_true hv
  rw [hv']
  cases node with
  | none => cases e with
    | none => rfl
    | some x => exact absurd hl id
  | some n => cases e with
    | none => exact absurd hl id
    | some x =>
      obtain ⟨h1, h2⟩ := hl
      show (if key = storageKeyHash H (u256FromHex d.key) then _ else _) = _
      have hk' : key = storageKeyHash H (u256FromHex d.key) := hk
      rw [if_pos hk']
      show Option.bind (fr n.sibling) _ = _
      rw [h1]
      show Option.bind (fr n.value) _ = _
      rw [h2]; rfl

/-- The leaf of the slot. -/
theorem newLeaf_entry {key : Fr} {node : Option SMTNode} {d : StateData} {slot x : ℕ}
    (hl : LeafDenotes node (slotEnd H slot x)) (hv : beVal d.value ≠ 0) :
    StorageLeaf.new H key node d = some (.Entry (beVal d.key) (beVal d.value)) := by
  unfold StorageLeaf.new
  have hv' : decide (u256FromHex d.value = 0) = false := decide_eq_false hv
  rw [hv']
  cases node with
  | none => exact absurd hl id
  | some n => rfl

theorem entry_hash {slot x : ℕ} (hs : slot < 2 ^ 256) (hx : x < 2 ^ 256) :
    (StorageLeaf.Entry slot x).hash H = endHash H (slotEnd H slot x) := by
  have h1 := storageKeyHash_eq (H := H) hs
  have h2 : domainHash H (StorageLeaf.Entry slot x).valueHigh (StorageLeaf.Entry slot x).valueLow .Pair =
      Account.wordHash H x := by
    unfold StorageLeaf.valueHigh StorageLeaf.valueLow StorageLeaf.value
    rw [(c45_split x hx).1]; rfl
  show domainHash H (storageKeyHash H slot)
    (domainHash H (StorageLeaf.Entry slot x).valueHigh (StorageLeaf.Entry slot x).valueLow .Pair) .Leaf = _
  rw [h1, h2]; rfl

theorem entry_valueHash {slot x : ℕ} (hx : x < 2 ^ 256) :
    (StorageLeaf.Entry slot x).valueHash H = some (Account.wordHash H x) := by
  show some (domainHash H (StorageLeaf.Entry slot x).valueHigh (StorageLeaf.Entry slot x).valueLow .Pair) = _
  unfold StorageLeaf.valueHigh StorageLeaf.valueLow StorageLeaf.value
  rw [(c45_split x hx).1]; rfl

/-- The storage part of an honest trace is parsed. -/
theorem parse_storage {tr : SMTTrace} {c : Change} {leafP : PathType} {o n : StateData} {old new : SMTPath}
    {po pn : List PathNode} {eo en : PathEnd} {so sn : Fr} {lo ln : StorageLeaf}
    (hP : leafP = changePath c ∨ (leafP = .Start ∧ c = .same))
    (hS : StoragePart H tr c o n old new po pn eo en so sn)
    (h1 : StorageLeaf.new H (Account.wordHash H (beVal o.key)) old.leaf o = some lo)
    (h2 : StorageLeaf.new H (Account.wordHash H (beVal o.key)) new.leaf n = some ln)
    (e1 : lo.hash H = endHash H eo) (e2 : ln.hash H = endHash H en) :
    ∃ rows, PathsReady H (Account.wordHash H (beVal o.key)) c leafP old new po pn eo en so sn rows ∧
      storageProofFrom H tr = some (.Update (beVal o.key) (Account.wordHash H (beVal o.key)) rows lo ln) ∧
      (StorageProof.Update (beVal o.key) (Account.wordHash H (beVal o.key)) rows lo ln).oldRoot H = some so ∧
      (StorageProof.Update (beVal o.key) (Account.wordHash H (beVal o.key)) rows lo ln).newRoot H = some sn := by
  obtain ⟨rows, hr⟩ := paths_ready hP hS.paths
  obtain ⟨k, hk, hkf⟩ := hS.stateKey
  have r1 : (StorageProof.Update (beVal o.key) (Account.wordHash H (beVal o.key)) rows lo ln).oldRoot H =
      some so := by
    show trieOldRoot H rows (some (lo.hash H)) = some so
    rw [e1]; exact hr.oldRoot
  have r2 : (StorageProof.Update (beVal o.key) (Account.wordHash H (beVal o.key)) rows lo ln).newRoot H =
      some sn := by
    show trieNewRoot H rows (some (ln.hash H)) = some sn
    rw [e2]; exact hr.newRoot
  refine ⟨rows, hr, ?_, r1, r2⟩
  unfold storageProofFrom
  rw [hS.noRoot]
  show Option.bind (tr.stateKey.bind fr) _ = _
  rw [hk]
  show Option.bind (fr k) _ = _
  rw [hkf]
  show Option.bind tr.statePath.1 _ = _
  rw [hS.state]
  show Option.bind (trieRowsNew _ _ _ _ _ _) _ = _
  rw [hr.parse]
  show Option.bind tr.stateUpdate _ = _
  rw [hS.update]
  dsimp only [Option.bind_some, Option.bind_eq_bind]
  rw [if_pos hS.slot]
  show Option.bind (StorageLeaf.new _ _ _ _) _ = _
  rw [h1]
  show Option.bind (StorageLeaf.new _ _ _ _) _ = _
  rw [h2]
  show Option.bind (StorageProof.oldRoot _ _) _ = _
  have e : u256FromHex o.key = beVal o.key := rfl
  rw [e, r1]
  show Option.bind (StorageProof.newRoot _ _) _ = _
  rw [r2]
  show Option.bind (fr old.root) _ = _
  rw [hS.paths.rootOld]
  show Option.bind (fr new.root) _ = _
  rw [hS.paths.rootNew]
  exact if_pos ⟨rfl, rfl⟩

/-- The key-bit requests of the storage part. -/
theorem bits_storage {key : Fr} {c : Change} {leafP : PathType} {old new : SMTPath}
    {po pn : List PathNode} {eo en : PathEnd} {so sn : Fr} {rows : List TrieRow}
    (h : PathsReady H key c leafP old new po pn eo en so sn rows) {lo ln : StorageLeaf} {sk : ℕ}
    (h1 : ∀ i < min po.length pn.length, keyBit (lo.key H) i = keyBit key i)
    (h2 : ∀ i < min po.length pn.length, keyBit (ln.key H) i = keyBit key i) :
    ∀ q ∈ (StorageProof.Update sk key rows lo ln).keyBitLookups H, KeyBit.Correct q := by
  refine bits_trie rows 0 (fun j row hj => ?_)
  rw [Nat.zero_add]
  obtain ⟨q1, q2, q3, -, -⟩ := h.place j row hj
  refine ⟨q1, q2, fun hp => ?_⟩
  have := q3 hp
  split
  · exact h2 j (by omega)
  · exact h1 j (by omega)

end Mpt
