import Verif.Props.PatchedRun
import Verif.Props.PatchedHistory
import Verif.Props.Operations

set_option autoImplicit false

/-!
# C65: the missing constraints reject no honest witness
-/

namespace Mpt.Props
open Mpt Spec Types MptUpdate Requests

variable {H : HashFn}

theorem insStrict_le {key other : Fr} (i : ℕ) (ps qs : List PathNode) (h : qs.length ≤ ps.length) :
    InsStrict key other i ps qs := by
  induction ps generalizing i qs with
  | nil => cases qs with
    | nil => trivial
    | cons q qs => cases h
  | cons p ps ih => cases qs with
    | nil => trivial
    | cons q qs => exact ih (i + 1) qs (by simpa using h)

theorem path_put_length {key d e : Fr} (t : ZkTrie) (i : ℕ) (h : t.getFrom key i = some e) :
    ((t.put key d i).path H key i).length = (t.path H key i).length := by
  induction t, i using ZkTrie.pathInduction key with
  | h0 i => simp at h
  | h1 i k' d' =>
    have hk : k' = key := by
      rw [ZkTrie.getFrom_leaf] at h; by_contra hc; simp [hc] at h
    subst hk
    rw [ZkTrie.put, if_pos rfl]
    rfl
  | h2 i x s ih =>
    rw [ZkTrie.getFrom_join_self] at h
    rw [ZkTrie.put_join, ZkTrie.path_join, ZkTrie.path_join, List.length_cons, List.length_cons, ih h]

theorem path_remove_length {key : Fr} (t : ZkTrie) (i : ℕ) :
    ((t.remove key i).path H key i).length ≤ (t.path H key i).length := by
  induction t, i using ZkTrie.pathInduction key with
  | h0 i => simp [ZkTrie.remove]
  | h1 i k' d' =>
    rw [ZkTrie.remove]
    split <;> simp [ZkTrie.path]
  | h2 i x s ih =>
    rw [ZkTrie.remove_join, ZkTrie.path_join, List.length_cons]
    rcases ZkTrie.jcollapse_cases (keyBit key i) (x.remove key (i + 1)) s with hc | ⟨hy, hs⟩ | ⟨k, d, hy, hs, hc⟩ |
      ⟨k, d, hy, hs, hc⟩
    · rw [hc, ZkTrie.path_join, List.length_cons]; omega
    · rw [hy, hs]; cases keyBit key i <;> simp [ZkTrie.jcollapse, ZkTrie.collapse, ZkTrie.path]
    · rw [hc]; simp [ZkTrie.path]
    · rw [hc]; simp [ZkTrie.path]

/-- The rows of the paths of a key in two tries. -/
theorem trieRows_strict {key : Fr} {t t' : ZkTrie} (hw : t.WF) (hw' : t'.WF) {lo ln : Option SMTNode}
    {rows : List TrieRow}
    (h : trieRowsNew H key ((t.path H key 0).map nodeOf) ((t'.path H key 0).map nodeOf) lo ln = some rows) :
    rows.length ≤ 256 ∧ (∀ ok, InsStrict key ok 0 (t.path H key 0) (t'.path H key 0) → InsRows ok 0 rows) ∧
    (RemStrict key 0 (t.path H key 0) (t'.path H key 0) → RemRows rows) := by
  obtain ⟨bo, -, h⟩ := Option.bind_eq_some_iff.1 h
  obtain ⟨bn, -, h⟩ := Option.bind_eq_some_iff.1 h
  have t1 := ZkTrie.path_truthful (H := H) (key := key) t 0
  have t2 := ZkTrie.path_truthful (H := H) (key := key) t' 0
  have d1 := forall_denotes (truthful_branch t1)
  have d2 := forall_denotes (truthful_branch t2)
  have l1 := ZkTrie.path_length (H := H) (key := key) t 0 hw (by norm_num)
  have l2 := ZkTrie.path_length (H := H) (key := key) t' 0 hw' (by norm_num)
  refine ⟨?_, fun ok hs => rowsFrom_ins _ ok _ _ _ _ _ _ _ _ _ _ d1 d2 h t2 hs,
    fun hs => rowsFrom_rem _ _ _ _ _ _ _ _ _ _ _ d1 d2 (by simp) (by simp) h t1 t2 hs⟩
  rw [rowsFrom_length h]
  simp only [List.length_map]
  omega

theorem opTrace_account (op : Op) (w w' : World) :
    (opTrace H op w w').address = op.address ∧
    (opTrace H op w w').accountPath =
      (pathOf H (accountKey H op.address) w.trie, pathOf H (accountKey H op.address) w'.trie) ∧
    (opTrace H op w w').accountUpdate = ((w.accounts (accountKey H op.address)).map (·.data),
      (w'.accounts (accountKey H op.address)).map (·.data)) := by
  cases op <;> simp only [opTrace] <;> first | exact ⟨rfl, rfl, rfl⟩ | (split <;> exact ⟨rfl, rfl, rfl⟩)

theorem opTrace_slots (op : Op) (w w' : World) (old new : StateData)
    (h : (opTrace H op w w').stateUpdate = some (some old, some new)) :
    ∃ s x y, old = slotData s x ∧ new = slotData s y := by
  cases op <;> simp only [opTrace] at h <;> first
    | (cases h; done)
    | (split at h <;> simp only [Option.some.injEq, Prod.mk.injEq] at h <;>
        exact ⟨_, _, _, h.1.symm, h.2.symm⟩)

/-- How an operation changes the account trie. -/
theorem apply_trie {op : Op} {w w' : World} (ha : op.apply H w = some w') :
    w' = w ∨ ∃ a, w' = w.set H (accountKey H op.address) a := by
  unfold Op.apply at ha
  dsimp only at ha
  split at ha
  all_goals first
    | (cases ha; exact .inr ⟨_, rfl⟩)
    | (cases ha; done)
    | (split at ha
       · cases ha
         first
           | exact .inl rfl
           | exact .inr ⟨_, rfl⟩
       · cases ha)

/-- How an operation on a slot changes the account. -/
theorem apply_slot {op : Op} {w w' : World} (ha : op.apply H w = some w') {a a' : AcctState}
    (h1 : w.accounts (accountKey H op.address) = some a) (h2 : w'.accounts (accountKey H op.address) = some a')
    (ho : (∃ adr s x, op = .setSlot adr s x) ∨ ∃ adr s, op = .slotEmpty adr s) :
    op.slot < 2 ^ 256 ∧ ((a' = a ∧ a.slots (Account.wordHash H op.slot) = 0) ∨
      ∃ x, a' = Op.writeSlot H a op.slot x ∧ x < 2 ^ 256 ∧ (x ≠ 0 ∨ a.slots (Account.wordHash H op.slot) ≠ 0)) := by
  rcases ho with ⟨adr, s, x, rfl⟩ | ⟨adr, s, rfl⟩
  · simp only [Op.apply, Op.address, Op.slot] at *
    rw [h1] at ha
    simp only at ha
    split at ha
    · rename_i hx
      cases ha
      rw [set_accounts] at h2
      cases h2
      exact ⟨hx.1, .inr ⟨x, rfl, hx.2⟩⟩
    · cases ha
  · simp only [Op.apply, Op.address, Op.slot] at *
    rw [h1] at ha
    simp only at ha
    split at ha
    · rename_i hx
      cases ha
      rw [h1] at h2
      cases h2
      exact ⟨hx.1, .inl ⟨rfl, hx.2⟩⟩
    · cases ha

/-- What a parsed update of a slot consists of. -/
theorem storageProofFrom_update {tr : SMTTrace} {k : Fr} {po pn : SMTPath} {so sn : StateData} {sk : ℕ} {key : Fr}
    {rows : List TrieRow} {old new : StorageLeaf} (h1 : tr.commonStateRoot = none)
    {b : List ℕ} (h2 : tr.stateKey = some b) (hb : fr b = some k) (h3 : tr.statePath = (some po, some pn))
    (h4 : tr.stateUpdate = some (some so, some sn))
    (h : storageProofFrom H tr = some (.Update sk key rows old new)) :
    key = k ∧ trieRowsNew H key po.path pn.path po.leaf pn.leaf = some rows ∧
    StorageLeaf.new H key po.leaf so = some old ∧ StorageLeaf.new H key pn.leaf sn = some new := by
  unfold storageProofFrom at h
  rw [h1] at h
  simp only [h2, hb, h3, h4, Option.bind_eq_bind, Option.bind_some] at h
  obtain ⟨rs, hrs, h⟩ := Option.bind_eq_some_iff.1 h
  split at h
  · obtain ⟨lo, hlo, h⟩ := Option.bind_eq_some_iff.1 h
    obtain ⟨ln, hln, h⟩ := Option.bind_eq_some_iff.1 h
    obtain ⟨_, -, h⟩ := Option.bind_eq_some_iff.1 h
    obtain ⟨_, -, h⟩ := Option.bind_eq_some_iff.1 h
    obtain ⟨_, -, h⟩ := Option.bind_eq_some_iff.1 h
    obtain ⟨_, -, h⟩ := Option.bind_eq_some_iff.1 h
    split at h
    · have h := StorageProof.Update.inj (Option.some.inj h)
      obtain ⟨-, rfl, rfl, rfl, rfl⟩ := h
      exact ⟨rfl, hrs, hlo, hln⟩
    · cases h
  · cases h

/-- The storage part of the proof of an operation on a slot. -/
theorem op_storage {op : Op} {w w' : World} (ha : op.apply H w = some w') {sk : ℕ} {key : Fr}
    {rows : List TrieRow} {old new : StorageLeaf}
    (h : storageProofFrom H (opTrace H op w w') = some (.Update sk key rows old new)) :
    ∃ a a' s, w.accounts (accountKey H op.address) = some a ∧ w'.accounts (accountKey H op.address) = some a' ∧
      s < 2 ^ 256 ∧ key = Account.wordHash H s ∧
      trieRowsNew H key ((a.trie.path H key 0).map nodeOf) ((a'.trie.path H key 0).map nodeOf)
        (leafNode (a.trie.endOf key 0)) (leafNode (a'.trie.endOf key 0)) = some rows ∧
      StorageLeaf.new H key (leafNode (a.trie.endOf key 0)) (slotData s (a.slots key)) = some old ∧
      StorageLeaf.new H key (leafNode (a'.trie.endOf key 0)) (slotData s (a'.slots key)) = some new ∧
      ((a' = a ∧ a.slots key = 0) ∨
        ∃ x, a' = Op.writeSlot H a s x ∧ x < 2 ^ 256 ∧ (x ≠ 0 ∨ a.slots key ≠ 0)) := by
  have hop : (∃ adr s x, op = .setSlot adr s x) ∨ ∃ adr s, op = .slotEmpty adr s := by
    cases op
    case setSlot adr s x => exact .inl ⟨adr, s, x, rfl⟩
    case slotEmpty adr s => exact .inr ⟨adr, s, rfl⟩
    all_goals
      simp only [opTrace, storageProofFrom, accountTrace] at h
      obtain ⟨x, -, hx⟩ := Option.map_eq_some_iff.1 h
      cases hx
  cases h1 : w.accounts (accountKey H op.address) with
  | none =>
    exfalso
    rcases hop with ⟨adr, s, x, rfl⟩ | ⟨adr, s, rfl⟩ <;> simp only [opTrace, h1] at h <;>
    · unfold storageProofFrom at h
      obtain ⟨x, -, hx⟩ := Option.map_eq_some_iff.1 h
      cases hx
  | some a =>
  cases h2 : w'.accounts (accountKey H op.address) with
  | none =>
    exfalso
    rcases hop with ⟨adr, s, x, rfl⟩ | ⟨adr, s, rfl⟩ <;> simp only [opTrace, h1, h2] at h <;>
    · unfold storageProofFrom at h
      obtain ⟨x, -, hx⟩ := Option.map_eq_some_iff.1 h
      cases hx
  | some a' =>
  obtain ⟨hs, hc⟩ := apply_slot ha h1 h2 hop
  have ht : opTrace H op w w' = { accountTrace H op.address w w' 0 with
      commonStateRoot := none
      statePath := (some (pathOf H (Account.wordHash H op.slot) a.trie), some (pathOf H (Account.wordHash H op.slot) a'.trie))
      stateKey := some (frHash (Account.wordHash H op.slot))
      stateUpdate := some (some (slotData op.slot (a.slots (Account.wordHash H op.slot))),
        some (slotData op.slot (a'.slots (Account.wordHash H op.slot)))) } := by
    rcases hop with ⟨adr, s, x, rfl⟩ | ⟨adr, s, rfl⟩ <;> simp only [opTrace, h1, h2]
  rw [ht] at h
  obtain ⟨rfl, hrs, hlo, hln⟩ := storageProofFrom_update rfl rfl (fr_frHash _) rfl rfl h
  exact ⟨a, a', op.slot, rfl, rfl, hs, rfl, hrs, hlo, hln, hc⟩

/-- The proofs of operations satisfy the missing constraints. -/
theorem op_strict {op : Op} {w w' : World} (hw : w.OK H) (ha : op.apply H w = some w')
    (C : CollisionFree H (op.Relevant H w w')) {p : Proof}
    (h : proofFrom H op.type (opTrace H op w w') = some p) : ProofStrict H p := by
  have hw' := Op.apply_ok hw ha
  have F := proofFrom_facts h
  obtain ⟨o1, o2, o3⟩ := opTrace_account (H := H) op w w'
  obtain ⟨-, -, hadr, hkind⟩ := (c41_claim _ _ _).1 F.claim
  rw [o1] at hadr
  constructor
  · have hr := F.rows
    have hold := F.old
    rw [hadr, o2] at hr
    rw [hadr, o2] at hold
    obtain ⟨r1, r2, -⟩ := trieRows_strict hw.wf hw'.wf hr
    refine ⟨r2 _ ?_, r1⟩
    rcases apply_trie ha with rfl | ⟨a, rfl⟩
    · exact insStrict_le _ _ _ le_rfl
    · show InsStrict _ _ 0 _ ((w.trie.put _ _ 0).path H _ 0)
      cases hg : w.trie.getFrom (accountKey H op.address) 0 with
      | some e => exact insStrict_le _ _ _ (path_put_length _ _ hg).le
      | none =>
        refine ZkTrie.insStrict_put _ _ hw.wf (ZkTrie.under_zero _ _) hg fun k e he => ?_
        simp only [pathFrom, pathOf, he, leafNode, fr_frHash, Option.bind_eq_bind, Option.bind_some,
          Option.pure_def, Option.some.injEq] at hold
        rw [← hold]
  · intro sk key rows old new hst
    have hs := F.storage
    rw [hst] at hs
    obtain ⟨a, a', s, h1, h2, h3, rfl, h5, h6, h7, h8⟩ := op_storage ha hs
    have ok := hw.each _ _ h1
    have ok' := hw'.each _ _ h2
    set key := Account.wordHash H s with hkey
    obtain ⟨r1, r2, r3⟩ := trieRows_strict ok.wf ok'.wf h5
    have hslot := ok.slots key
    have hsk : ∀ v, key = storageKeyHash H (beVal (slotData s v).key) := fun v => by
      rw [slotData_key s v h3, storageKeyHash_eq h3]
    have hge : ∀ b : AcctState, b.OK H → b.slots key ≠ 0 → b.trie.getFrom key 0 = some (Account.wordHash H (b.slots key)) :=
      fun b hb hz => by have := hb.slots key; rwa [if_neg hz] at this
    have hgn : ∀ b : AcctState, b.OK H → b.slots key = 0 → b.trie.getFrom key 0 = none :=
      fun b hb hz => by have := hb.slots key; rwa [if_pos hz] at this
    have hent : ∀ b : AcctState, b.OK H → b.slots key ≠ 0 → ∀ l, StorageLeaf.new H key (leafNode (b.trie.endOf key 0))
        (slotData s (b.slots key)) = some l → l = .Entry s (b.slots key) := fun b hb hz l hl => by
      have hv := slotData_value s _ (hb.range key)
      have hd := leafDenotes (b.trie.endOf key 0)
      rw [ZkTrie.endOf_of_get (hge b hb hz)] at hd hl
      rw [newLeaf_entry (slot := s) (x := b.slots key) hd (by rw [hv]; exact hz), hv, slotData_key s _ h3] at hl
      exact (Option.some.inj hl).symm
    have hzer : ∀ b : AcctState, b.OK H → b.slots key = 0 → ∀ l, StorageLeaf.new H key (leafNode (b.trie.endOf key 0))
        (slotData s (b.slots key)) = some l → l = leafOf key (b.trie.endOf key 0) := fun b hb hz l hl => by
      have hv := slotData_value s _ (hb.range key)
      rw [newLeaf_zero (leafDenotes _) (hsk _) (by rw [hv]; exact hz)] at hl
      exact (Option.some.inj hl).symm
    have hno : ∀ (e : PathEnd) (n : StorageLeaf), storagePathType (leafOf key e) n ≠ some .ExtensionOld := by
      intro e n; cases e <;> cases n <;> simp [leafOf, storagePathType]
    rcases h8 with ⟨rfl, h8⟩ | ⟨x, rfl, hx, hz⟩
    · refine ⟨r2 _ (insStrict_le _ _ _ le_rfl), r1, fun hp => ?_⟩
      rw [hzer a' ok h8 _ h6] at hp
      exact absurd hp (hno _ _)
    · have hsl : (Op.writeSlot H a s x).slots key = x := by
        show Function.update a.slots (Account.wordHash H s) x key = x
        rw [← hkey, Function.update_self]
      have htr : (Op.writeSlot H a s x).trie =
          if x = 0 then a.trie.remove key 0 else a.trie.put key (Account.wordHash H x) 0 := rfl
      by_cases h0 : x = 0
      · have hz : a.slots key ≠ 0 := hz.resolve_left (fun h => h h0)
        rw [htr, if_pos h0] at r2 r3
        refine ⟨r2 _ (insStrict_le _ _ _ (path_remove_length _ _)), r1, fun _ => r3 ?_⟩
        refine ZkTrie.remStrict_remove (S := a.trie.trie.Inputs H) _ _ ok.wf (hge a ok hz) (C.mono ?_)
        intro l r d h
        exact .inl (.inr ⟨a, h1, .inl (h.elim id id)⟩)
      · rw [htr, if_neg h0] at r2 r3
        have hn := hent _ ok' (by rw [hsl]; exact h0) _ h7
        by_cases hz : a.slots key = 0
        · have ho := hzer a ok hz _ h6
          refine ⟨r2 _ (ZkTrie.insStrict_put _ _ ok.wf (ZkTrie.under_zero _ _) (hgn a ok hz) fun k e he => ?_), r1,
            fun hp => ?_⟩
          · rw [ho, he]
            have hk := ZkTrie.endOf_of_none (hgn a ok hz) he
            show slotOther H key (.Leaf k e) new = k
            unfold slotOther
            rw [if_neg]
            · rfl
            · exact fun h => hk h.symm
          · rw [ho] at hp
            exact absurd hp (hno _ _)
        · refine ⟨r2 _ (insStrict_le _ _ _ (path_put_length _ _ (hge a ok hz)).le), r1, fun hp => ?_⟩
          rw [hent a ok hz _ h6, hn] at hp
          simp [storagePathType] at hp
  · intro x hx
    rw [hx] at hkind
    generalize hpt : op.type = pt at hkind
    cases hkind with
    | createNonce h1 h2 h3 =>
      rename_i d
      rw [o3] at h2
      have h2 := (Prod.mk.inj h2).2
      obtain ⟨b, hb, hd⟩ := Option.map_eq_some_iff.1 h2
      have := (hw'.each _ _ hb).data.nonce
      rw [hd] at this
      intro hc
      refine h3 (cast_inj (lt_trans this (by unfold frModulus; norm_num)) (by unfold frModulus; norm_num) ?_)
      rw [hc]; simp
  · intro x hx
    rw [hx] at hkind
    generalize hpt : op.type = pt at hkind
    cases hkind with
    | createBalance h1 h2 h3 h4 =>
      rename_i d
      rw [o3] at h2
      have h2 := (Prod.mk.inj h2).2
      obtain ⟨b, hb, hd⟩ := Option.map_eq_some_iff.1 h2
      have := (hw'.each _ _ hb).data.balance
      rw [hd] at this
      intro hc
      rw [(c46_reduction _).1] at hc
      refine h4 (cast_inj (lt_trans this (by unfold frModulus; norm_num)) (by unfold frModulus; norm_num) ?_)
      rw [hc]; simp
  · intro sk x y hx
    rw [hx] at hkind
    generalize hpt : op.type = pt at hkind
    cases hkind with
    | storage h1 h2 h3 h4 h5 h6 =>
      obtain ⟨s, v, v', rfl, rfl⟩ := opTrace_slots _ _ _ _ _ h1
      have hb : ∀ v, beVal (slotData s v).value < 2 ^ 256 := fun v => by
        have := beVal_lt_of_length (isBytes_beBytes 32 v) (beBytes_length 32 v)
        have e : (256 : ℕ) ^ 32 = 2 ^ 256 := by norm_num
        rw [e] at this
        exact this
      refine ⟨fun z hz => ?_, fun z hz => ?_⟩
      · rcases h5 with ⟨rfl, -⟩ | ⟨rfl, -⟩
        · cases hz
        · rw [← Option.some.inj hz]; exact hb _
      · rcases h6 with ⟨rfl, -⟩ | ⟨rfl, -⟩
        · cases hz
        · rw [← Option.some.inj hz]; exact hb _

end Mpt.Props
