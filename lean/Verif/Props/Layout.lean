import Verif.Assign.Update

set_option autoImplicit false

/-!
# C34: `Proof::n_rows` is the number of rows assigned
-/

namespace Mpt
open Spec MptUpdate Types

theorem modifyLast_length (f : URow → URow) (l : List URow) : (modifyLast f l).length = l.length := by
  induction l using modifyLast.induct with
  | case1 => rfl
  | case2 u => rfl
  | case3 u v l ih => simp [modifyLast, ih]

theorem trieURows_length (s : SegmentType) (key otherKey : Fr) (i : ℕ) (rows : List TrieRow)
    (l : List URow) (h : trieURows s key otherKey i rows = some l) : l.length = rows.length := by
  induction rows generalizing i l with
  | nil => simp [trieURows] at h; subst h; rfl
  | cons row rows ih =>
    simp only [trieURows, Option.bind_eq_bind, Option.bind_eq_some_iff] at h
    obtain ⟨iv2, _, rest, h2, h3⟩ := h
    cases h3
    simp [ih _ _ h2]

theorem overlay_length (ρ : Fr) (c : Claim) (n : ℕ) (l : List URow) :
    (overlay ρ c n l).length = max n l.length := by
  induction n generalizing l with
  | zero => simp [overlay]
  | succ n ih => cases l <;> simp [overlay, ih]

/-- The number of leaf rows by claim kind. -/
def leafRowCount : ClaimKind → ℕ
  | .PoseidonCodeHash _ _ => 2
  | .IsEmpty none => 0
  | _ => 4

theorem leafURows_length (H : HashFn) (ρ : Fr) (p : Proof) (o d : Fr) (l : List URow)
    (h : leafURows H ρ p o d = some l) : l.length = leafRowCount p.claim.kind := by
  simp only [leafURows, Option.bind_eq_bind, Option.bind_eq_some_iff] at h
  obtain ⟨_, _, pt, _, dirs, hd, sib, hs, h⟩ := h
  have holds : ∀ os, p.oldAccountLeafHashes = some os → os.length = dirs.length := by
    intro os ho
    simp only [Proof.oldAccountLeafHashes, Option.ite_none_right_eq_some, Option.some.injEq] at ho
    obtain ⟨_, rfl⟩ := ho
    generalize p.claim.kind = k at hd
    rcases k with _ | _ | _ | _ | _ | _ | ⟨_ | _⟩ <;> cases hd <;> rfl
  have hnews : ∀ os, p.newAccountLeafHashes = some os → os.length = dirs.length := by
    intro os ho
    simp only [Proof.newAccountLeafHashes, Option.ite_none_right_eq_some, Option.some.injEq] at ho
    obtain ⟨_, rfl⟩ := ho
    generalize p.claim.kind = k at hd
    rcases k with _ | _ | _ | _ | _ | _ | ⟨_ | _⟩ <;> cases hd <;> rfl
  have hlen : leafRowCount p.claim.kind = dirs.length := by
    generalize p.claim.kind = k at hd
    rcases k with _ | _ | _ | _ | _ | _ | ⟨_ | _⟩ <;> cases hd <;> rfl
  have hsib : sib.length = dirs.length := by
    unfold Proof.accountLeafSiblings at hs
    generalize p.claim.kind = k at hs hd
    rcases k with _ | _ | _ | _ | _ | _ | ⟨_ | _⟩ <;> cases hd <;> simp at hs
    all_goals first
      | (obtain ⟨a, _, rfl⟩ := hs; rfl)
      | (obtain ⟨_, rfl⟩ := hs; rfl)
  rw [hlen]
  have hdec : l.length = (leafRowsZip (accountKey H p.claim.address) o pt
      [.AccountLeaf0, .AccountLeaf1, .AccountLeaf2, .AccountLeaf3] sib
      (p.oldAccountLeafHashes.getD (List.replicate 4 (finalHashes H p).1))
      (p.newAccountLeafHashes.getD (List.replicate 4 (finalHashes H p).2)) dirs).length := by
    revert h
    generalize leafRowsZip _ _ _ _ _ _ _ _ = z
    intro h
    unfold decorateLeaf at h
    split at h
    · simp only [Option.bind_eq_bind, Option.bind_eq_some_iff] at h
      obtain ⟨_, _, h⟩ := h
      cases h; rfl
    · cases h; rfl
    · cases h
  rw [hdec]
  have hzip : ∀ (ss : List SegmentType) (xs os ns : List Fr) (ds : List Bool),
      (leafRowsZip (accountKey H p.claim.address) o pt ss xs os ns ds).length =
        min ss.length (min xs.length (min os.length (min ns.length ds.length))) := by
    intro ss
    induction ss with
    | nil => intros; simp [leafRowsZip]
    | cons s ss ih =>
      intro xs os ns ds
      rcases xs with _ | ⟨x, xs⟩ <;> rcases os with _ | ⟨o, os⟩ <;> rcases ns with _ | ⟨n, ns⟩ <;>
        rcases ds with _ | ⟨d, ds⟩ <;> simp [leafRowsZip, ih]
  rw [hzip, hsib]
  have h4 : dirs.length ≤ 4 := by
    revert hd; cases p.claim.kind.proofType <;> simp [leafDirections] <;> rintro rfl <;> simp
  have hge : ∀ (x : Option (List Fr)) (y : Fr), (∀ os, x = some os → os.length = dirs.length) →
      dirs.length ≤ (x.getD (List.replicate 4 y)).length := by
    intro x y hx
    cases x with
    | none => simpa using h4
    | some os => simp [hx os rfl]
  have h1 := hge _ (finalHashes H p).1 holds
  have h2 := hge _ (finalHashes H p).2 hnews
  simp only [List.length_cons, List.length_nil]
  omega

theorem storageURows_length (H : HashFn) (ρ : Fr) (s : StorageProof) (pre l : List URow)
    (h : storageURows H ρ s pre = some l) : l.length = pre.length + s.nRows := by
  cases s with
  | Root r => simp [storageURows] at h; subst h; simp [StorageProof.nRows]
  | Update sk key rows old new =>
    simp only [storageURows, Option.bind_eq_bind, Option.bind_eq_some_iff] at h
    obtain ⟨ok, _, trie, ht, h⟩ := h
    have hlen := trieURows_length _ _ _ _ _ _ ht
    split at h
    · rename_i pt hp
      simp only [Option.bind_eq_some_iff] at h
      obtain ⟨leaf, _, h⟩ := h
      cases h
      simp only [StorageProof.nRows, List.length_append, hlen, List.length_singleton]
      rcases old with _ | _ | _ <;> rcases new with _ | _ | _ <;>
        simp [storagePathType, StorageLeaf.nRows] at hp ⊢ <;> omega
    · rename_i hp
      simp only [Option.bind_eq_some_iff] at h
      obtain ⟨f, _, h⟩ := h
      cases h
      simp only [StorageProof.nRows, modifyLast_length, List.length_append, hlen]
      rcases old with _ | _ | _ <;> rcases new with _ | _ | _ <;>
        simp [storagePathType, StorageLeaf.nRows] at hp ⊢

/-- The rows written by the last part of `assign_single_proof` are exactly the `n_rows()` rows on
which the base cells are written. -/
theorem bodyURows_length (H : HashFn) (ρ : Fr) (p : Proof)
    (hp : p.accountTrieRows.length = p.addressHashTraces.length) (l : List URow)
    (h : bodyURows H ρ p = some l) : l.length = p.nRows := by
  simp only [bodyURows, Option.bind_eq_bind, Option.bind_eq_some_iff] at h
  obtain ⟨other, _, trie, ht, _, _, h⟩ := h
  have hlen := trieURows_length _ _ _ _ _ _ ht
  unfold Proof.nRows
  split at h
  · rename_i hb
    cases h
    rw [if_pos hb, modifyLast_length, List.length_cons, hlen, hp]
    omega
  · rename_i hb
    simp only [Option.bind_eq_some_iff] at h
    obtain ⟨leaf, hl, h⟩ := h
    have h1 := leafURows_length _ _ _ _ _ _ hl
    have hd : ∃ dirs, leafDirections p.claim.kind.proofType = some dirs := by
      simp only [leafURows, Option.bind_eq_bind, Option.bind_eq_some_iff] at hl
      obtain ⟨_, _, pt, _, dirs, hd, _⟩ := hl
      exact ⟨dirs, hd⟩
    rw [if_neg hb, storageURows_length _ _ _ _ _ h, List.length_append, h1, List.length_cons, hlen, hp]
    obtain ⟨dirs, hd⟩ := hd
    generalize p.claim.kind = k at hd
    rcases k with _ | _ | _ | _ | _ | _ | ⟨_ | _⟩ <;> simp [leafRowCount]
    all_goals first
      | omega
      | (cases hd)

/-- What `Proof::from` returns when it does not panic. -/
structure ProofFacts (H : HashFn) (t : MPTProofType) (tr : SMTTrace) (p : Proof) : Prop where
  claim : claimFrom t tr = some p.claim
  storage : storageProofFrom H tr = some p.storage
  key : fr tr.accountKey = some (accountKey H p.claim.address)
  rows : trieRowsNew H (accountKey H p.claim.address) tr.accountPath.1.path tr.accountPath.2.path
    tr.accountPath.1.leaf tr.accountPath.2.leaf = some p.accountTrieRows
  leaf0 : getLeaf tr.accountPath.1 = some p.leafs.1
  leaf1 : getLeaf tr.accountPath.2 = some p.leafs.2
  traces : ∃ lh0 lh1, pathLeafHash H tr.accountPath.1 = some lh0 ∧
    pathLeafHash H tr.accountPath.2 = some lh1 ∧
    getInternalHashTraces (accountKey H p.claim.address) lh0 lh1 tr.accountPath.1.path
      tr.accountPath.2.path = some p.addressHashTraces ∧
    p.oldTraces.t5.2.2 = lh0 ∧ p.newTraces.t5.2.2 = lh1
  check : checkHashTracesNew H none p.addressHashTraces = some ()
  accounts : ∃ sr0 sr1, p.storage.oldRoot H = some sr0 ∧ p.storage.newRoot H = some sr1 ∧
    p.oldTraces = sideTraces H p.claim.address tr.accountUpdate.1 p.leafs.1 sr0 ∧
    p.newTraces = sideTraces H p.claim.address tr.accountUpdate.2 p.leafs.2 sr1 ∧
    sideAccount tr.accountUpdate.1 sr0 = some p.oldAccount ∧
    sideAccount tr.accountUpdate.2 sr1 = some p.newAccount
  old : pathFrom H p.claim.address tr.accountPath.1 = some p.old
  new : pathFrom H p.claim.address tr.accountPath.2 = some p.new

theorem proofFrom_facts {H : HashFn} {t : MPTProofType} {tr : SMTTrace} {p : Proof}
    (h : proofFrom H t tr = some p) : ProofFacts H t tr p := by
  unfold proofFrom at h
  obtain ⟨claim, h1, h⟩ := Option.bind_eq_some_iff.1 h
  obtain ⟨storage, h2, h⟩ := Option.bind_eq_some_iff.1 h
  obtain ⟨tk, h3, h⟩ := Option.bind_eq_some_iff.1 h
  dsimp only at h
  split at h
  swap
  · cases h
  rename_i hk
  subst hk
  obtain ⟨rows, h4, h⟩ := Option.bind_eq_some_iff.1 h
  obtain ⟨leaf0, h5, h⟩ := Option.bind_eq_some_iff.1 h
  obtain ⟨leaf1, h6, h⟩ := Option.bind_eq_some_iff.1 h
  obtain ⟨lh0, h7, h⟩ := Option.bind_eq_some_iff.1 h
  obtain ⟨lh1, h8, h⟩ := Option.bind_eq_some_iff.1 h
  obtain ⟨traces, h9, h⟩ := Option.bind_eq_some_iff.1 h
  obtain ⟨⟨⟩, h10, h⟩ := Option.bind_eq_some_iff.1 h
  obtain ⟨sr0, h11, h⟩ := Option.bind_eq_some_iff.1 h
  obtain ⟨sr1, h12, h⟩ := Option.bind_eq_some_iff.1 h
  split at h
  swap
  · cases h
  rename_i he
  obtain ⟨e0, e1⟩ := he
  obtain ⟨old, h13, h⟩ := Option.bind_eq_some_iff.1 h
  obtain ⟨new, h14, h⟩ := Option.bind_eq_some_iff.1 h
  obtain ⟨a0, h15, h⟩ := Option.bind_eq_some_iff.1 h
  obtain ⟨a1, h16, h⟩ := Option.bind_eq_some_iff.1 h
  obtain rfl := Option.some.inj h
  exact ⟨h1, h2, h3, h4, h5, h6, ⟨lh0, lh1, h7, h8, h9, e0, e1⟩, h10,
    ⟨sr0, sr1, h11, h12, rfl, rfl, h15, h16⟩, h13, h14⟩

/-- `proof.account_trie_rows` and `proof.address_hash_traces` have the same length. -/
theorem proofFrom_lengths (H : HashFn) (t : MPTProofType) (tr : SMTTrace) (p : Proof)
    (h : proofFrom H t tr = some p) : p.accountTrieRows.length = p.addressHashTraces.length := by
  have hf := proofFrom_facts h
  have hr := hf.rows
  obtain ⟨lh0, lh1, _, _, ht, _⟩ := hf.traces
  simp only [trieRowsNew, Option.bind_eq_bind, Option.bind_eq_some_iff] at hr
  obtain ⟨a, _, b, _, hr⟩ := hr
  simp only [getInternalHashTraces, Option.map_eq_some_iff] at ht
  obtain ⟨l, hl, e⟩ := ht
  rw [← e, List.length_reverse]
  have h1 : ∀ (key : Fr) (lo ln : ℕ) (ho hn : Fr) (olds news : List SMTNode) (i : ℕ) (l : List TrieRow),
      trieRowsFrom key lo ln ho hn i olds news = some l → l.length = max olds.length news.length := by
    intro key lo ln ho hn olds
    induction olds with
    | nil =>
      intro news
      induction news with
      | nil => intro i l h; simp [trieRowsFrom] at h; simp [← h]
      | cons n news ih =>
        intro i l h
        simp only [trieRowsFrom, Option.bind_eq_bind, Option.bind_eq_some_iff] at h
        obtain ⟨_, _, _, _, rest, h, e⟩ := h
        cases e
        simp [ih _ _ h]
    | cons o olds ih =>
      intro news i l h
      cases news with
      | nil =>
        simp only [trieRowsFrom, Option.bind_eq_bind, Option.bind_eq_some_iff] at h
        obtain ⟨_, _, _, _, rest, h, e⟩ := h
        cases e
        simp [ih _ _ _ h]
      | cons n news =>
        simp only [trieRowsFrom, Option.bind_eq_bind, Option.bind_eq_some_iff] at h
        obtain ⟨_, _, _, _, rest, h, e⟩ := h
        cases e
        simp [ih _ _ _ h]
  have h2 : ∀ (key : Fr) (lo ln : ℕ) (ho hn : Fr) (olds news : List SMTNode) (i : ℕ) (l : List HashRow),
      internalFrom key ho hn lo ln i olds news = some l → l.length = max olds.length news.length := by
    intro key lo ln ho hn olds
    induction olds with
    | nil =>
      intro news
      induction news with
      | nil => intro i l h; simp [internalFrom] at h; simp [← h]
      | cons n news ih =>
        intro i l h
        simp only [internalFrom, Option.bind_eq_bind, Option.bind_eq_some_iff] at h
        obtain ⟨_, _, _, _, _, _, _, _, rest, h, e⟩ := h
        cases e
        simp [ih _ _ h]
    | cons o olds ih =>
      intro news i l h
      cases news with
      | nil =>
        simp only [internalFrom, Option.bind_eq_bind, Option.bind_eq_some_iff] at h
        obtain ⟨_, _, _, _, _, _, _, _, rest, h, e⟩ := h
        cases e
        simp [ih _ _ _ h]
      | cons n news =>
        simp only [internalFrom, Option.bind_eq_bind] at h
        obtain ⟨b, _, h'⟩ := Option.bind_eq_some_iff.1 h
        split at h'
        · simp only [Option.bind_eq_some_iff] at h'
          obtain ⟨_, _, _, _, _, _, _, _, _, _, _, _, _, _, rest, h3, e⟩ := h'
          cases e
          simp [ih _ _ _ h3]
        · cases h'
  rw [h1 _ _ _ _ _ _ _ _ _ hr, h2 _ _ _ _ _ _ _ _ _ hl]

end Mpt
