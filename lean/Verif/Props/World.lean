import Verif.Props.WorldTraces
import Verif.Props.Complete

set_option autoImplicit false

/-!
# Theorems: completeness for states and operations (C35)

Starting from any consistent state, every sequence of reads and writes is documented by traces that the
circuit proves: no step panics and the assigned cells satisfy all constraints and lookups.
-/

namespace Mpt.Props
open Mpt Spec Types MptUpdate Requests

variable {H : HashFn}

theorem honest_slot {address : List ℕ} (hadr : IsBytes address ∧ address.length = 20) {w : World}
    (hw : w.OK H) {s x : ℕ} {a : AcctState} (ha : w.accounts (accountKey H address) = some a)
    (hs : s < 2 ^ 256) (hx : x < 2 ^ 256) (hne : x ≠ 0 ∨ a.slots (Account.wordHash H s) ≠ 0)
    (C : CollisionFree H ((Op.setSlot address s x).Relevant H w
      (w.set H (accountKey H address) (Op.writeSlot H a s x)))) :
    HonestTrace H .StorageChanged (opTrace H (.setSlot address s x) w
      (w.set H (accountKey H address) (Op.writeSlot H a s x))) := by
  set k := Account.wordHash H s with hk
  set a' := Op.writeSlot H a s x with ha'
  have hok := hw.each _ _ ha
  have hok' : a'.OK H := hok.writeSlot hx
  have hset : (w.set H (accountKey H address) a').accounts (accountKey H address) = some a' := set_accounts a'
  have hval : a'.slots k = x := by simp [ha', Op.writeSlot, hk]
  have ht : opTrace H (.setSlot address s x) w (w.set H (accountKey H address) a') =
      { accountTrace H address w (w.set H (accountKey H address) a') 0 with
        commonStateRoot := none
        statePath := (some (pathOf H k a.trie), some (pathOf H k a'.trie))
        stateKey := some (frHash k)
        stateUpdate := some (some (slotData s (a.slots k)), some (slotData s x)) } := by
    simp only [opTrace, Op.address, Op.slot, ha, hset, ← hk, hval]
  have r1 : ∀ l r e, w.trie.trie.Inputs H l r e → (Op.setSlot address s x).Relevant H w
      (w.set H (accountKey H address) a') l r e := fun _ _ _ h => .inl (.inl h)
  have r2 : ∀ l r e, (w.set H (accountKey H address) a').trie.trie.Inputs H l r e →
      (Op.setSlot address s x).Relevant H w (w.set H (accountKey H address) a') l r e :=
    fun _ _ _ h => .inr (.inl (.inl h))
  have r3 : ∀ l r e, a.trie.trie.Inputs H l r e →
      (Op.setSlot address s x).Relevant H w (w.set H (accountKey H address) a') l r e :=
    fun _ _ _ h => .inl (.inr ⟨a, ha, .inl h⟩)
  have r4 : ∀ l r e, a'.trie.trie.Inputs H l r e →
      (Op.setSlot address s x).Relevant H w (w.set H (accountKey H address) a') l r e :=
    fun _ _ _ h => .inr (.inl (.inr ⟨a', hset, .inl h⟩))
  have r5 : ∀ l r e, WordInput (a.slots k) .Pair l r e →
      (Op.setSlot address s x).Relevant H w (w.set H (accountKey H address) a') l r e :=
    fun _ _ _ h => .inl (.inr ⟨a, ha, .inr (.inr h)⟩)
  have r6 : ∀ l r e, WordInput x .Pair l r e →
      (Op.setSlot address s x).Relevant H w (w.set H (accountKey H address) a') l r e :=
    fun _ _ _ h => .inr (.inl (.inr ⟨a', hset, .inr (.inr (by rw [← hval] at h; exact h))⟩))
  have r7 : ∀ l r e, WordInput 0 .Pair l r e →
      (Op.setSlot address s x).Relevant H w (w.set H (accountKey H address) a') l r e :=
    fun _ _ _ h => .inr (.inr h)
  have hA := part_same (a' := a') hadr hw ha 0
  have kk : beVal (slotData s (a.slots k)).key = s := slotData_key s _ hs
  rw [ht]
  have fin : ∀ (c : Change) (en : PathEnd) (eo : PathEnd), a.trie.endOf k 0 = eo → a'.trie.endOf k 0 = en →
      ZkTrie.Pair H k c 0 a.trie a'.trie → SlotChange H s c (a.slots k) x eo en →
      HonestTrace H .StorageChanged
      { accountTrace H address w (w.set H (accountKey H address) a') 0 with
        commonStateRoot := none
        statePath := (some (pathOf H k a.trie), some (pathOf H k a'.trie))
        stateKey := some (frHash k)
        stateUpdate := some (some (slotData s (a.slots k)), some (slotData s x)) } := by
    intro c en eo he1 he2 hp hc
    have hP := honestPaths hok.wf hok'.wf hp
    refine .slot a.data (slotData s (a.slots k)) (slotData s x) c (pathOf H k a.trie) (pathOf H k a'.trie)
      (a.trie.hash H) (a'.trie.hash H) (a.trie.path H k 0) (a'.trie.path H k 0) eo en _ _ _ _
      ⟨hA.address, hA.key, hA.paths⟩ ?_ hok.data (get_ne_zero C r1 (get_of hw ha))
      (get_ne_zero C r2 (set_get hw _)) ?_ ?_ rfl
    · show (_, _) = _
      rw [ha, hset]; rfl
    · refine ⟨rfl, rfl, rfl, by rw [kk]; exact hs, ⟨frHash k, rfl, ?_⟩, rfl, ?_⟩
      · rw [kk]; exact fr_frHash k
      · rw [kk]; rw [he1, he2] at hP; exact hP
    · rw [kk, slotData_value _ _ (hok.range k), slotData_value _ _ hx]; exact hc
  have hslot := hok.slots k
  by_cases hx0 : x = 0
  · subst hx0
    have ho : a.slots k ≠ 0 := by simpa using hne
    rw [if_neg ho] at hslot
    have htr : a'.trie = a.trie.remove k 0 := by simp [ha', Op.writeSlot, hk]
    have hno : a'.trie.get k = none := by rw [htr, (ZkTrie.remove_spec hok.wf k).2, if_pos rfl]
    refine fin .delete (a'.trie.endOf k 0) _ (ZkTrie.endOf_of_get hslot) rfl
      (by rw [htr]; exact ZkTrie.pair_remove a.trie 0 hok.wf hslot) ?_
    exact .delete _ _ ho (hok.range k) (wordHash_ne_zero_word C (hok.range k) ho r5 r7)
      (absentEnd C r4 hno) (end_ne_zero_word C r4 r7)
  · have htr : a'.trie = a.trie.put k (Account.wordHash H x) 0 := by simp [ha', Op.writeSlot, hk, hx0]
    have hnew : a'.trie.endOf k 0 = some (k, Account.wordHash H x) := by
      rw [htr]; exact ZkTrie.endOf_put _ _ _ hok.wf (ZkTrie.under_zero _ _)
    by_cases ho : a.slots k = 0
    · rw [if_pos ho] at hslot
      refine fin .insert _ (a.trie.endOf k 0) rfl hnew (by
        rw [htr]; exact ZkTrie.pair_put_insert a.trie 0 hok.wf (ZkTrie.under_zero _ _) hslot) ?_
      rw [ho]
      exact .insert _ _ hx0 hx (wordHash_ne_zero_word C hx hx0 r6 r7) (absentEnd C r3 hslot)
        (end_ne_zero_word C r3 r7)
    · rw [if_neg ho] at hslot
      refine fin .same _ _ (ZkTrie.endOf_of_get hslot) hnew (by
        rw [htr]; exact ZkTrie.pair_put_same a.trie 0 hslot) ?_
      exact .change _ _ ho hx0 (hok.range k) hx (wordHash_ne_zero_word C (hok.range k) ho r5 r7)
        (wordHash_ne_zero_word C hx hx0 r6 r7)

theorem honest_new {address : List ℕ} (hadr : IsBytes address ∧ address.length = 20) {w : World}
    (hw : w.OK H) (ha : w.accounts (accountKey H address) = none) {S : Fr → Fr → Fr → Prop}
    (C : CollisionFree H S) (h1 : ∀ l r e, w.trie.trie.Inputs H l r e → S l r e) {d : AccountData}
    (h2 : ∀ l r e, (w.set H (accountKey H address) (Op.fresh d)).trie.trie.Inputs H l r e → S l r e) :
    (AccountPart H (accountTrace H address w (w.set H (accountKey H address) (Op.fresh d))
        (((w.accounts (accountKey H address)).map (·.trie.hash H)).getD 0)) .insert
      (w.trie.path H (accountKey H address) 0)
      ((w.set H (accountKey H address) (Op.fresh d)).trie.path H (accountKey H address) 0)
      (w.trie.endOf (accountKey H address) 0) (accountEnd H address d 0)
      (w.trie.hash H) ((w.set H (accountKey H address) (Op.fresh d)).trie.hash H)) ∧
    (accountTrace H address w (w.set H (accountKey H address) (Op.fresh d))
        (((w.accounts (accountKey H address)).map (·.trie.hash H)).getD 0)).accountUpdate = (none, some d) ∧
    AbsentEnd H (accountKey H address) (w.trie.endOf (accountKey H address) 0) ∧
    endHash H (accountEnd H address d 0) ≠ 0 ∧
    fr (frHash (((w.accounts (accountKey H address)).map (·.trie.hash H)).getD 0)) = some 0 := by
  refine ⟨part_new (a' := Op.fresh d) hadr hw ha _, ?_, absentEnd C h1 (by rw [hw.accounts, ha]; rfl),
    get_ne_zero C h2 (set_get hw (Op.fresh d)), by rw [ha]; exact fr_frHash 0⟩
  show (_, _) = _
  rw [ha, set_accounts]; rfl

theorem word_domains {S : Fr → Fr → Fr → Prop} (C : CollisionFree H S) (y : ℕ)
    (hy : ∀ e ∈ [HashDomain.Pair, .Leaf, .AccountFields], ∀ l r d, WordInput y e l r d → S l r d) :
    ∀ d ∈ [HashDomain.AccountFields, .Leaf],
      H ((y / 2 ^ 128 : ℕ) : Fr) ((y % 2 ^ 128 : ℕ) : Fr) d.toFr ≠ Account.wordHash H y := by
  intro d hd h
  obtain ⟨-, -, h3⟩ := C.inj (hy d (by simp at hd ⊢; tauto) _ _ _ ⟨rfl, rfl, rfl⟩)
    (hy .Pair (by simp) _ _ _ ⟨rfl, rfl, rfl⟩) h
  simp only [List.mem_cons, List.not_mem_nil, or_false] at hd
  rcases hd with rfl | rfl <;> exact absurd h3 (by decide)

/-- **The trace of every operation is honest**, provided the hash function does not collide on the
inputs of the tries involved. -/
theorem op_honest {op : Op} {w w' : World} (hadr : IsBytes op.address ∧ op.address.length = 20)
    (hw : w.OK H) (ha : op.apply H w = some w') (C : CollisionFree H (op.Relevant H w w')) :
    HonestTrace H op.type (opTrace H op w w') := by
  have r1 : ∀ l r e, w.trie.trie.Inputs H l r e → op.Relevant H w w' l r e := fun _ _ _ h => .inl (.inl h)
  have r2 : ∀ l r e, w'.trie.trie.Inputs H l r e → op.Relevant H w w' l r e :=
    fun _ _ _ h => .inr (.inl (.inl h))
  unfold Op.apply at ha
  dsimp only at ha
  split at ha
  · -- the account is absent
    rename_i address t hk
    split at ha
    · rename_i htype
      cases ha
      refine .absent _ _ _ (part_refl hadr hw _) ?_ (absentEnd C r1 (by rw [hw.accounts]; exact congrArg _ hk))
        (.field t htype (.inl rfl) _ _ rfl (fr_frHash _))
      show (_, _) = _
      rw [show w.accounts (accountKey H (Op.absent address t).address) = none from hk]; rfl
    · cases ha
  · rename_i address x hk
    split at ha
    · rename_i hx
      cases ha
      obtain ⟨p1, p2, p3, p4, p5⟩ := honest_new (d := ⟨x, 0, 0, 0, 0⟩) hadr hw hk C r1 r2
      exact .newNonce x hx.1 hx.2 _ _ _ _ _ p1 p2 p3 p4 (.inl rfl) _ rfl p5 rfl
    · cases ha
  · rename_i address x hk
    split at ha
    · rename_i hx
      cases ha
      obtain ⟨p1, p2, p3, p4, p5⟩ := honest_new (d := ⟨0, x, 0, 0, 0⟩) hadr hw hk C r1 r2
      exact .newBalance x hx.1 hx.2 _ _ _ _ _ p1 p2 p3 p4 (.inl rfl) _ rfl p5 rfl
    · cases ha
  · rename_i address s hk
    split at ha
    · rename_i hs
      cases ha
      have ht : opTrace H (.slotEmpty address s) w w = { accountTrace H address w w 0 with
          stateUpdate := some (some (slotData s 0), some (slotData s 0)) } := by
        simp only [opTrace]
        rw [show w.accounts (accountKey H (Op.slotEmpty address s).address) = none from hk]; rfl
      have hA := part_refl (w := w) hadr hw 0
      rw [ht]
      refine .absent _ _ _ ⟨hA.address, hA.key, hA.paths⟩ ?_
        (absentEnd C r1 (by rw [hw.accounts]; exact congrArg _ hk))
        (.slotRoot _ _ rfl rfl (slotData_value _ 0 (by norm_num)) (slotData_value _ 0 (by norm_num)) _ _ rfl
          (fr_frHash _))
      show (_, _) = _
      rw [show w.accounts (accountKey H address) = none from hk]; rfl
    · cases ha
  · rename_i address x a hk
    split at ha
    · rename_i hx
      cases ha
      have o := (hw.each _ _ hk).data
      exact honest_field hadr hw C hk ⟨hx, o.codeSize, o.balance, o.codeHash⟩ r1 r2 (.nonce rfl rfl rfl rfl)
    · cases ha
  · rename_i address x a hk
    split at ha
    · rename_i hx
      cases ha
      have o := (hw.each _ _ hk).data
      exact honest_field hadr hw C hk ⟨o.nonce, o.codeSize, hx, o.codeHash⟩ r1 r2 (.balance rfl rfl rfl rfl)
    · cases ha
  · rename_i address x a hk
    split at ha
    · rename_i hx
      cases ha
      have o := (hw.each _ _ hk).data
      exact honest_field hadr hw C hk ⟨o.nonce, hx, o.balance, o.codeHash⟩ r1 r2 (.codeSize rfl rfl rfl rfl)
    · cases ha
  · rename_i address x a hk
    split at ha
    · rename_i hx
      cases ha
      have o := (hw.each _ _ hk).data
      refine honest_field hadr hw C hk ⟨o.nonce, o.codeSize, o.balance, hx⟩ r1 r2 (.codeHash rfl rfl rfl rfl ?_)
      intro y hy
      simp only [List.mem_cons, List.not_mem_nil, or_false] at hy
      rcases hy with rfl | rfl
      · exact word_domains C _ fun e he l r d h => .inl (.inr ⟨a, hk, .inr (.inl ⟨e, he, h⟩)⟩)
      · exact word_domains C _ fun e he l r d h => .inr (.inl (.inr ⟨_, set_accounts _, .inr (.inl ⟨e, he, h⟩)⟩))
    · cases ha
  · rename_i address x a hk
    cases ha
    have o := (hw.each _ _ hk).data
    exact honest_field hadr hw C hk ⟨o.nonce, o.codeSize, o.balance, o.codeHash⟩ r1 r2 (.poseidon rfl rfl rfl rfl)
  · rename_i address s x a hk
    split at ha
    · rename_i hx
      cases ha
      exact honest_slot hadr hw hk hx.1 hx.2.1 hx.2.2 C
    · cases ha
  · rename_i address s a hk
    split at ha
    · rename_i hs
      cases ha
      have hok := hw.each _ _ hk
      have hslot := hok.slots (Account.wordHash H s)
      rw [if_pos hs.2] at hslot
      have ht : opTrace H (.slotEmpty address s) w w = { accountTrace H address w w 0 with
          commonStateRoot := none
          statePath := (some (pathOf H (Account.wordHash H s) a.trie), some (pathOf H (Account.wordHash H s) a.trie))
          stateKey := some (frHash (Account.wordHash H s))
          stateUpdate := some (some (slotData s 0), some (slotData s 0)) } := by
        simp only [opTrace, Op.slot]
        rw [show w.accounts (accountKey H (Op.slotEmpty address s).address) = some a from hk]
        simp only [hs.2]; rfl
      have hA := part_refl (w := w) hadr hw 0
      rw [ht]
      have kk : beVal (slotData s 0).key = s := slotData_key s _ hs.1
      have he := ZkTrie.endOf_of_get (get_of hw hk)
      have hP := hA.paths
      rw [he] at hP
      refine .slotEmpty a.data (slotData s 0) (slotData s 0) _ _ (a.trie.hash H) _ _ _ _
        ⟨hA.address, hA.key, hP⟩ ?_ hok.data (get_ne_zero C r1 (get_of hw hk))
        ⟨rfl, rfl, rfl, by rw [kk]; exact hs.1, ⟨_, rfl, by rw [kk]; exact fr_frHash _⟩, rfl,
          by rw [kk]; exact honestPaths hok.wf hok.wf (ZkTrie.pair_refl a.trie 0)⟩
        ⟨slotData_value _ 0 (by norm_num), slotData_value _ 0 (by norm_num)⟩
        (by rw [kk]; exact absentEnd C (fun l r e h => .inl (.inr ⟨a, hk, .inl h⟩)) hslot) rfl
      show (_, _) = _
      rw [show w.accounts (accountKey H address) = some a from hk]; rfl
    · cases ha
  · cases ha

end Mpt.Props
