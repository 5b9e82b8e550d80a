import Verif.Assign.HonestAccepted

set_option autoImplicit false

/-!
# The assignment does not panic on honest proofs
-/

namespace Mpt
open Spec MptUpdate Types Requests Props

variable {H : HashFn}

theorem trieURows_some {leafP : PathType} (s : SegmentType) (key ok : Fr) (rows : List TrieRow) :
    ∀ (top : Fr × Fr) (i : ℕ), RowsHonest H leafP top rows → ∃ us, trieURows s key ok i rows = some us := by
  induction rows with
  | nil => intro _ _ _; exact ⟨[], rfl⟩
  | cons row rows ih =>
    intro top i h
    obtain ⟨-, h1, h2⟩ := h
    obtain ⟨us, hus⟩ := ih _ (i + 1) h2
    have : ∃ x, trieNewDomain row rows.head? = some x := by
      unfold trieNewDomain
      cases hn : rows.head? with
      | none => exact ⟨_, rfl⟩
      | some r =>
        dsimp only
        split
        · rename_i hc
          unfold RowHonest at h1
          rw [hc.2, hn] at h1
          obtain ⟨d, hd, -⟩ := h1
          unfold getDomains at hd
          cases hp : r.pathType <;> rw [hp] at hd
          · cases hd
          · exact absurd (.inr hp) hc.1
          all_goals
            obtain ⟨x, hx, -⟩ := Option.map_eq_some_iff.1 hd
            exact ⟨_, by rw [hx]; rfl⟩
        · exact ⟨_, rfl⟩
    obtain ⟨x, hx⟩ := this
    exact ⟨_, by rw [trieURows, hx, hus]; rfl⟩

/-- The assignment of a proof succeeds when its parts do. -/
theorem assign_of_body {ρ : Fr} {p : Proof} (h : ∃ b, bodyURows H ρ p = some b) :
    ∃ run, assignSingleProof H ρ p = some run := by
  obtain ⟨b, hb⟩ := h
  exact ⟨_, by rw [assignSingleProof, hb]; rfl⟩

theorem otherLeaf_some {p : Proof} (hn : p.new.key = accountKey H p.claim.address ∨ p.new = p.old)
    (ho : p.old.key = accountKey H p.claim.address ∨ ∃ d, p.old.leafDataHash = some d) :
    ∃ o, otherLeaf H p = some o := by
  unfold otherLeaf
  dsimp only
  by_cases h : p.old.key = accountKey H p.claim.address
  · rw [if_neg (by simpa using h)]
    have : p.new.key = accountKey H p.claim.address := by
      rcases hn with hn | hn
      · exact hn
      · rw [hn, h]
    rw [if_neg (by simpa using this)]
    exact ⟨_, rfl⟩
  · rw [if_pos h, if_pos (by rcases hn with hn | hn <;> [exact .inl hn; exact .inr (by rw [hn])])]
    rcases ho with ho | ⟨d, hd⟩
    · exact absurd ho h
    · exact ⟨_, by rw [hd]; rfl⟩

theorem body_absent_some {ρ : Fr} {p : Proof} (hR : AbsentReady H p) : ∃ b, bodyURows H ρ p = some b := by
  obtain ⟨o, ho⟩ := otherLeaf_some (H := H) (p := p) (.inr hR.paths) (by
    rcases hR.leaf with h | ⟨d, h, -⟩
    · exact .inl h.2
    · exact .inr ⟨d, h⟩)
  obtain ⟨us, hus⟩ := trieURows_some .AccountTrie (accountKey H p.claim.address) o.1 _ _ 0 hR.acc.rows
  unfold bodyURows
  rw [ho]
  simp only [Option.bind_eq_bind, Option.bind_some, hus, hR.acc.finalPathType, hR.noOld, hR.noNew,
    Option.isNone_none, Bool.and_self, if_true]
  exact ⟨_, rfl⟩

/-- The part of the body before the storage rows. -/
theorem body_of_leaf {ρ : Fr} {p : Proof} {leafP : PathType} (hA : AccountReady H leafP p)
    {o : Fr × Fr} (ho : otherLeaf H p = some o) (hs : (p.oldAccount.isNone && p.newAccount.isNone) = false)
    {leaf : List URow} (hl : leafURows H ρ p o.1 o.2 = some leaf)
    (hst : ∀ pre, ∃ b, storageURows H ρ p.storage pre = some b) : ∃ b, bodyURows H ρ p = some b := by
  obtain ⟨us, hus⟩ := trieURows_some .AccountTrie (accountKey H p.claim.address) o.1 _ _ 0 hA.rows
  obtain ⟨b, hb⟩ := hst (startURow H ρ p o.1 :: us ++ leaf)
  refine ⟨b, ?_⟩
  unfold bodyURows
  rw [ho]
  simp only [Option.bind_eq_bind, Option.bind_some, hus, hA.finalPathType, hl]
  rw [if_neg (by rw [hs]; decide)]
  exact hb

/-- The account leaf rows. -/
theorem leaf_some {ρ : Fr} {p : Proof} {leafP : PathType} (hA : AccountReady H leafP p)
    (hn : p.new.hash H ≠ 0) {dirs : List Bool} (hd : leafDirections p.claim.kind.proofType = some dirs)
    {sibs : List Fr} (hs : p.accountLeafSiblings H = some sibs)
    (hz : ∀ pt key ok data, ∃ l, decorateLeaf H ρ p key ok data (leafRowsZip key ok pt
      [.AccountLeaf0, .AccountLeaf1, .AccountLeaf2, .AccountLeaf3] sibs
      (p.oldAccountLeafHashes.getD (List.replicate 4 (p.old.hash H)))
      (p.newAccountLeafHashes.getD (List.replicate 4 (p.new.hash H))) dirs) = some l) (ok data : Fr) :
    ∃ leaf, leafURows H ρ p ok data = some leaf := by
  have hpt : ∃ pt, leafPathType (endPath p.accountTrieRows) (p.old.hash H, p.new.hash H) = some pt := by
    unfold leafPathType
    cases endPath p.accountTrieRows
    · exact ⟨_, rfl⟩
    · dsimp only
      rw [if_neg hn, if_neg hn]
      split <;> exact ⟨_, rfl⟩
    · exact ⟨_, rfl⟩
    · exact ⟨_, rfl⟩
  obtain ⟨pt, hpt⟩ := hpt
  obtain ⟨l, hl⟩ := hz pt (accountKey H p.claim.address) ok data
  refine ⟨l, ?_⟩
  unfold leafURows
  simp only [hA.finalPathType, hA.finalHashes, Option.bind_eq_bind, Option.bind_some, hpt, hd, hs]
  exact hl

theorem body_new_some {ρ : Fr} {p : Proof} {a : AccountData} (hR : NewReady H p a) :
    ∃ b, bodyURows H ρ p = some b := by
  obtain ⟨o, ho⟩ := otherLeaf_some (H := H) (p := p) (.inl hR.newKey) (by
    rcases hR.oldLeaf with h | ⟨d, h, -⟩
    · exact .inl h.2
    · exact .inr ⟨d, h⟩)
  obtain ⟨e, he, -⟩ := hR.newAccount
  have hl : ∃ leaf, leafURows H ρ p o.1 o.2 = some leaf := by
    have k1 : ∃ dirs sibs, leafDirections p.claim.kind.proofType = some dirs ∧
        p.accountLeafSiblings H = some sibs ∧ ∀ pt key ok data, ∃ l, decorateLeaf H ρ p key ok data
          (leafRowsZip key ok pt [.AccountLeaf0, .AccountLeaf1, .AccountLeaf2, .AccountLeaf3] sibs
          (p.oldAccountLeafHashes.getD (List.replicate 4 (p.old.hash H)))
          (p.newAccountLeafHashes.getD (List.replicate 4 (p.new.hash H))) dirs) = some l := by
      unfold Proof.accountLeafSiblings Proof.oldAccountLeafHashes Proof.newAccountLeafHashes
      rcases hR.kind with ⟨n, hk⟩ | ⟨b, hb, hk⟩
      · rw [hk]
        refine ⟨_, _, rfl, rfl, fun pt key ok data => ?_⟩
        simp only [Option.isSome, leafHashesOf, leafRowsZip, decorateLeaf, leafRow3, hk, kindSlot]
        exact ⟨_, rfl⟩
      · rw [hk]
        refine ⟨_, _, rfl, rfl, fun pt key ok data => ?_⟩
        simp only [Option.isSome, leafHashesOf, leafRowsZip, decorateLeaf, leafRow3, hk, kindSlot]
        exact ⟨_, rfl⟩
    obtain ⟨dirs, sibs, k1, k2, k3⟩ := k1
    exact leaf_some hR.acc hR.newHash k1 k2 k3 _ _
  obtain ⟨leaf, hl⟩ := hl
  exact body_of_leaf hR.acc ho (by rw [he]; simp) hl (fun pre => ⟨_, by rw [hR.storage]; rfl⟩)

theorem body_both_some {ρ : Fr} {p : Proof} {o n : AccountData} {so sn : Fr} (hR : BothReady H p o n so sn)
    (k1 : ∃ dirs sibs, leafDirections p.claim.kind.proofType = some dirs ∧
        p.accountLeafSiblings H = some sibs ∧ ∀ pt key ok data, ∃ l, decorateLeaf H ρ p key ok data
          (leafRowsZip key ok pt [.AccountLeaf0, .AccountLeaf1, .AccountLeaf2, .AccountLeaf3] sibs
          (p.oldAccountLeafHashes.getD (List.replicate 4 (p.old.hash H)))
          (p.newAccountLeafHashes.getD (List.replicate 4 (p.new.hash H))) dirs) = some l)
    (hst : ∀ pre, ∃ b, storageURows H ρ p.storage pre = some b) :
    ∃ b, bodyURows H ρ p = some b := by
  obtain ⟨ot, ho⟩ := otherLeaf_some (H := H) (p := p) (.inl hR.newKey) (.inl hR.oldKey)
  obtain ⟨dirs, sibs, k1, k2, k3⟩ := k1
  obtain ⟨leaf, hl⟩ := leaf_some hR.acc hR.newHash k1 k2 k3 ot.1 ot.2
  obtain ⟨e, he, -⟩ := hR.newAccount
  exact body_of_leaf hR.acc ho (by rw [he]; simp) hl hst

theorem body_field_some {ρ : Fr} {p : Proof} {o n : AccountData} {so sn r0 : Fr}
    (hR : BothReady H p o n so sn) (hK : FieldKind H p o n so sn) (hst : p.storage = .Root r0) :
    ∃ b, bodyURows H ρ p = some b := by
  refine body_both_some hR ?_ (fun pre => ⟨_, by rw [hst]; rfl⟩)
  unfold Proof.accountLeafSiblings Proof.oldAccountLeafHashes Proof.newAccountLeafHashes
  cases hK with
  | nonce hk | codeSize hk | balance hk | codeHash hk | poseidon hk =>
    rw [hk]
    refine ⟨_, _, rfl, rfl, fun pt key ok data => ?_⟩
    simp only [Option.isSome, leafHashesOf, leafRowsZip, decorateLeaf, leafRow3, hk, kindSlot]
    exact ⟨_, rfl⟩

theorem both_sibs {p : Proof} {a : AccountData} {so sn : Fr} (hR : BothReady H p a a so sn) :
    p.oldTraces.t4.2.1 = p.newTraces.t4.2.1 ∧ p.oldTraces.t3.1 = p.newTraces.t3.1 ∧
      p.oldTraces.t1.2.1 = p.newTraces.t1.2.1 := by
  rw [hR.oldTraces, hR.newTraces]; exact ⟨rfl, rfl, rfl⟩

theorem slot_leaf_some {ρ : Fr} {leafP : PathType} {p : Proof} {a : AccountData} {so sn : Fr} {sk : ℕ}
    {key : Fr} {rows : List TrieRow} {old new : StorageLeaf}
    (hR : SlotReady H leafP p a so sn sk key rows old new)
    (hk : (∃ x y, p.claim.kind = .Storage sk x y) ∨ p.claim.kind = .IsEmpty (some sk)) :
    ∃ dirs sibs, leafDirections p.claim.kind.proofType = some dirs ∧
        p.accountLeafSiblings H = some sibs ∧ ∀ pt key ok data, ∃ l, decorateLeaf H ρ p key ok data
          (leafRowsZip key ok pt [.AccountLeaf0, .AccountLeaf1, .AccountLeaf2, .AccountLeaf3] sibs
          (p.oldAccountLeafHashes.getD (List.replicate 4 (p.old.hash H)))
          (p.newAccountLeafHashes.getD (List.replicate 4 (p.new.hash H))) dirs) = some l := by
  obtain ⟨eo, he, -⟩ := hR.both.oldAccount
  have hs := both_sibs hR.both
  unfold Proof.accountLeafSiblings Proof.oldAccountLeafHashes Proof.newAccountLeafHashes
  rcases hk with ⟨x, y, hk⟩ | hk
  · rw [hk]
    dsimp only
    rw [if_pos hs]
    refine ⟨_, _, rfl, rfl, fun pt key ok data => ?_⟩
    simp only [he, Option.isSome, leafHashesOf, leafRowsZip, decorateLeaf, leafRow3, hk, kindSlot, hR.st,
      StorageProof.key, StorageProof.otherKey]
    exact ⟨_, rfl⟩
  · rw [hk]
    dsimp only
    rw [if_pos hs]
    refine ⟨_, _, rfl, rfl, fun pt key ok data => ?_⟩
    simp only [he, Option.isSome, leafHashesOf, leafRowsZip, decorateLeaf, leafRow3, hk, kindSlot, hR.st,
      StorageProof.key, StorageProof.otherKey]
    exact ⟨_, rfl⟩

theorem storageExt_some {key hash : Fr} {self other : StorageLeaf} (hs : self.key H = key)
    (ho : AbsentLeaf H key other) (u : URow) : ∃ v, storageExt H key hash self other u = some v := by
  unfold storageExt
  dsimp only
  rcases ho with rfl | ⟨k, v, rfl, hk, -⟩
  · have e : (StorageLeaf.Empty key).key H = key := rfl
    rw [e, hs]
    simp
  · have e : (StorageLeaf.Leaf k v).key H = k := rfl
    rw [e, if_pos (Ne.symm hk), if_pos (Ne.symm hk)]
    exact ⟨_, rfl⟩

theorem body_slot_some {ρ : Fr} {leafP : PathType} {p : Proof} {a : AccountData} {so sn : Fr} {sk : ℕ}
    {key : Fr} {rows : List TrieRow} {old new : StorageLeaf}
    (hR : SlotReady H leafP p a so sn sk key rows old new) (hK : SlotKind H p sk key leafP old new)
    (hkey : key = storageKeyHash H sk) : ∃ b, bodyURows H ρ p = some b := by
  refine body_both_some hR.both (slot_leaf_some hR ?_) fun pre => ?_
  · cases hK with
    | change x y hk | insert y old hk | delete x new hk => exact .inl ⟨_, _, hk⟩
  · rw [hR.st]
    unfold storageURows
    obtain ⟨us, hus⟩ := trieURows_some .StorageTrie key (slotOther H key old new) _ _ 0 hR.honest
    have e : (StorageProof.Update sk key rows old new).otherKey H = some (slotOther H key old new) := rfl
    have hl : ∃ pt leaf, storagePathType old new = some pt ∧
        storageLeafURow H ρ key (slotOther H key old new) old new pt = some leaf := by
      cases hK with
      | change x y hk => exact ⟨_, _, rfl, rfl⟩
      | insert y old hk hyz hold =>
        have hp : storagePathType old (.Entry sk y) = some .ExtensionNew := by
          rcases hold with rfl | ⟨k, v, rfl, -⟩ <;> rfl
        obtain ⟨v, hv⟩ := storageExt_some (H := H) (key := key) (self := .Entry sk y) (hash := old.hash H)
          hkey.symm hold (storageURow H ρ key (slotOther H key old (.Entry sk y)) .ExtensionNew
            ((StorageLeaf.Entry sk y).key H) (old.hash H)
            (domainHash H (StorageLeaf.Entry sk y).valueHigh (StorageLeaf.Entry sk y).valueLow .Pair) old
            (.Entry sk y))
        exact ⟨_, v, hp, hv⟩
      | delete x new hk hyz hold =>
        have hp : storagePathType (.Entry sk x) new = some .ExtensionOld := by
          rcases hold with rfl | ⟨k, v, rfl, -⟩ <;> rfl
        obtain ⟨v, hv⟩ := storageExt_some (H := H) (key := key) (self := .Entry sk x) (hash := new.hash H)
          hkey.symm hold (storageURow H ρ key (slotOther H key (.Entry sk x) new) .ExtensionOld
            ((StorageLeaf.Entry sk x).key H)
            (domainHash H (StorageLeaf.Entry sk x).valueHigh (StorageLeaf.Entry sk x).valueLow .Pair)
            (new.hash H) (.Entry sk x) new)
        exact ⟨_, v, hp, hv⟩
    obtain ⟨pt, leaf, h1, h2⟩ := hl
    dsimp only
    rw [e]
    simp only [Option.bind_eq_bind, Option.bind_some, hus, h1, h2]
    exact ⟨_, rfl⟩

theorem body_slotEmpty_some {ρ : Fr} {p : Proof} {a : AccountData} {so : Fr} {sk : ℕ}
    {key : Fr} {rows : List TrieRow} {l : StorageLeaf}
    (hR : SlotReady H .Start p a so so sk key rows l l) (hK : p.claim.kind = .IsEmpty (some sk))
    (hl : AbsentLeaf H key l) : ∃ b, bodyURows H ρ p = some b := by
  refine body_both_some hR.both (slot_leaf_some hR (.inr hK)) fun pre => ?_
  rw [hR.st]
  unfold storageURows
  obtain ⟨us, hus⟩ := trieURows_some .StorageTrie key (slotOther H key l l) _ _ 0 hR.honest
  have e : (StorageProof.Update sk key rows l l).otherKey H = some (slotOther H key l l) := rfl
  have hf : ∃ f, storagePathType l l = none ∧ emptyStorage H key (slotOther H key l l) l l = some f := by
    rcases hl with rfl | ⟨k, v, rfl, hk, -⟩
    · refine ⟨_, rfl, if_pos ?_⟩
      unfold slotOther; split <;> rfl
    · refine ⟨_, rfl, if_pos ⟨?_, rfl, rfl⟩⟩
      unfold slotOther; split <;> exact Ne.symm hk
  obtain ⟨f, h1, h2⟩ := hf
  dsimp only
  rw [e]
  simp only [Option.bind_eq_bind, Option.bind_some, hus, h1, h2]
  exact ⟨_, rfl⟩

/-- **The rows of an honest proof can be assigned.** -/
theorem ready_assign {ρ : Fr} {p : Proof} (hR : ProofReady H p) : ∃ run, assignSingleProof H ρ p = some run := by
  refine assign_of_body ?_
  cases hR with
  | absent h => exact body_absent_some h
  | fresh a h => exact body_new_some h
  | field o n so sn r0 h hK hst => exact body_field_some h hK hst
  | slot leafP a so sn sk key rows old new h hK hkey hnil => exact body_slot_some h hK hkey
  | slotEmpty a so sk key rows l h hK hl => exact body_slotEmpty_some h hK hl

/-- The hash requests of an honest proof do not panic. -/
theorem ready_entries {p : Proof} (hR : ProofReady H p)
    (hA : AbsentReady H p → ∃ t, p.storage.poseidonLookups H = some t) : ∃ l, proofEntries H p = some l := by
  have h1 : ∃ t, triePoseidonLookups H p.accountTrieRows = some t := by
    cases hR with
    | absent h => exact rowsHonest_lookups _ _ h.acc.rows
    | fresh a h => exact rowsHonest_lookups _ _ h.acc.rows
    | field o n so sn r0 h hK hst => exact rowsHonest_lookups _ _ h.acc.rows
    | slot leafP a so sn sk key rows old new h hK hkey hnil => exact rowsHonest_lookups _ _ h.both.acc.rows
    | slotEmpty a so sk key rows l h hK hl => exact rowsHonest_lookups _ _ h.both.acc.rows
  have hup : ∀ sk key rows o n, p.storage = .Update sk key rows o n →
      (∃ t, triePoseidonLookups H rows = some t) → ∃ t, p.storage.poseidonLookups H = some t := by
    intro sk key rows o n h ⟨t, ht⟩
    rw [h]
    simp only [StorageProof.poseidonLookups, ht, Option.bind_eq_bind, Option.bind_some]
    exact ⟨_, rfl⟩
  have h2 : (∃ r, p.storage = .Root r) ∨ (∃ t, p.storage.poseidonLookups H = some t) ∨
      AbsentReady H p := by
    cases hR with
    | absent h => exact .inr (.inr h)
    | fresh a h => exact .inl ⟨_, h.storage⟩
    | field o n so sn r0 h hK hst => exact .inl ⟨_, hst⟩
    | slot leafP a so sn sk key rows old new h hK hkey hnil =>
      exact .inr (.inl (hup _ _ _ _ _ h.st (rowsHonest_lookups _ _ h.honest)))
    | slotEmpty a so sk key rows l h hK hl =>
      exact .inr (.inl (hup _ _ _ _ _ h.st (rowsHonest_lookups _ _ h.honest)))
  obtain ⟨t, ht⟩ := h1
  have h3 : ∃ t, p.storage.poseidonLookups H = some t := by
    rcases h2 with ⟨r, h⟩ | h | h
    · exact ⟨[], by rw [h]; rfl⟩
    · exact h
    · exact hA h
  obtain ⟨s, hs⟩ := h3
  exact ⟨_, by rw [proofEntries, ht, hs]; rfl⟩

end Mpt
