import Verif.Props.World
import Verif.Props.Exposure

set_option autoImplicit false

/-!
# Theorems: from operations on a state to lookups (C35, C51)

For every consistent state and every sequence of operations on it, the circuit can be assigned, is
satisfied, and lets other circuits look up, for every operation, the address, the slot, the roots of the
states before and after, and the values before and after.
-/

namespace Mpt.Props
open Mpt Spec Types MptUpdate Requests

variable {H : HashFn}

/-- The value an operation is about, in a state: 0 when there is nothing. -/
def opValue (H : HashFn) (op : Op) (w : World) : ℕ :=
  match w.accounts (accountKey H op.address) with
  | none => 0
  | some a =>
    match op with
    | .setNonce _ _ => a.data.nonce
    | .setBalance _ _ => a.data.balance
    | .setCodeSize _ _ => a.data.codeSize
    | .setCodeHash _ _ => a.data.codeHash
    | .setPoseidonCodeHash _ _ => a.data.poseidonCodeHash
    | .setSlot _ s _ => a.slots (Account.wordHash H s)
    | .absent _ _ | .slotEmpty _ _ => 0

/-- How a value is looked up: small values as field elements, words as RLCs of their 32 bytes. -/
def valueCode (ρ : Fr) (t : MPTProofType) (x : ℕ) : Fr :=
  match t with
  | .NonceChanged | .CodeSizeExists | .PoseidonCodeHashExists => (x : Fr)
  | .BalanceChanged | .CodeHashExists | .StorageChanged => rlc ρ (beBytes 32 x)
  | _ => 0

/-- The tuple by which an operation that leads from `w` to `w'` is looked up. -/
def opTuple (H : HashFn) (ρ : Fr) (op : Op) (w w' : World) : List Fr :=
  [1, (beVal op.address : Fr), rlc ρ (beBytes 32 op.slot), (op.type.toNat : Fr), rootRlc ρ (w'.trie.hash H),
    rootRlc ρ (w.trie.hash H), valueCode ρ op.type (opValue H op w'), valueCode ρ op.type (opValue H op w)]

theorem rlc_zero_word (ρ : Fr) : rlc ρ (beBytes 32 0) = 0 := by
  have : beBytes 32 0 = List.replicate 32 0 := by decide
  rw [this, rlc_replicate_zero]

/-- The claim of the trace of an operation. -/
theorem op_claim {op : Op} {w w' : World} (hw : w.OK H) (ha : op.apply H w = some w') :
    ∃ c, claimFrom op.type (opTrace H op w w') = some c ∧ c.address = op.address ∧
      ∀ ρ, claimTuple ρ c = opTuple H ρ op w w' := by
  have lt : ∀ {x : ℕ}, x < 2 ^ 248 → x < 2 ^ 256 := fun h => lt_trans h (by norm_num)
  unfold Op.apply at ha
  dsimp only at ha
  split at ha
  · rename_i address t hk
    split at ha
    · rename_i htype
      cases ha
      have hk' : w.accounts (accountKey H address) = none := hk
      have hacc : (opTrace H (.absent address t) w w).accountUpdate = (none, none) := by
        show (_, _) = _
        rw [hk]; rfl
      simp only [Op.absentTypes, List.mem_cons, List.not_mem_nil, or_false] at htype
      rcases htype with rfl | rfl | rfl | rfl | rfl
      · refine ⟨⟨w.trie.hash H, w.trie.hash H, address, .Nonce (some 0) (some 0)⟩,
          (c41_claim _ _ _).2 ⟨fr_frHash _, fr_frHash _, rfl, .absentNonce (.inl rfl) hacc⟩, rfl, fun ρ => ?_⟩
        simp [claimTuple, opTuple, opValue, hk', Op.address, valueCode, Op.type, ClaimKind.proofType,
          Claim.newValueAssignment, Claim.oldValueAssignment, Claim.storageKey, Op.slot, rlc_zero_word]
      · refine ⟨⟨w.trie.hash H, w.trie.hash H, address, .Balance (some 0) (some 0)⟩,
          (c41_claim _ _ _).2 ⟨fr_frHash _, fr_frHash _, rfl, .absentBalance (.inl rfl) hacc⟩, rfl, fun ρ => ?_⟩
        simp [claimTuple, opTuple, opValue, hk', Op.address, valueCode, Op.type, ClaimKind.proofType,
          Claim.newValueAssignment, Claim.oldValueAssignment, Claim.storageKey, Op.slot, rlc_zero_word, c47_rlc_eq,
          u256ToBigEndian]
      · refine ⟨⟨w.trie.hash H, w.trie.hash H, address, .CodeHash (some 0) (some 0)⟩,
          (c41_claim _ _ _).2 ⟨fr_frHash _, fr_frHash _, rfl, .absentCodeHash (.inl rfl) hacc⟩, rfl, fun ρ => ?_⟩
        simp [claimTuple, opTuple, opValue, hk', Op.address, valueCode, Op.type, ClaimKind.proofType,
          Claim.newValueAssignment, Claim.oldValueAssignment, Claim.storageKey, Op.slot, rlc_zero_word, c47_rlc_eq,
          u256ToBigEndian]
      · refine ⟨⟨w.trie.hash H, w.trie.hash H, address, .CodeSize (some 0) (some 0)⟩,
          (c41_claim _ _ _).2 ⟨fr_frHash _, fr_frHash _, rfl, .absentCodeSize (.inl rfl) hacc⟩, rfl, fun ρ => ?_⟩
        simp [claimTuple, opTuple, opValue, hk', Op.address, valueCode, Op.type, ClaimKind.proofType,
          Claim.newValueAssignment, Claim.oldValueAssignment, Claim.storageKey, Op.slot, rlc_zero_word]
      · refine ⟨⟨w.trie.hash H, w.trie.hash H, address, .IsEmpty none⟩,
          (c41_claim _ _ _).2 ⟨fr_frHash _, fr_frHash _, rfl, .absentAccount (.inl rfl) hacc⟩, rfl, fun ρ => ?_⟩
        simp [claimTuple, opTuple, opValue, hk', Op.address, valueCode, Op.type, ClaimKind.proofType,
          Claim.newValueAssignment, Claim.oldValueAssignment, Claim.storageKey, Op.slot, rlc_zero_word]
    · cases ha
  · rename_i address x hk
    split at ha
    · rename_i hx
      cases ha
      have hk' : w.accounts (accountKey H address) = none := hk
      refine ⟨⟨w.trie.hash H, _, address, .Nonce none (some x)⟩,
        (c41_claim _ _ _).2 ⟨fr_frHash _, fr_frHash _, rfl, .createNonce (a := ⟨x, 0, 0, 0, 0⟩) (.inl rfl) ?_ ?_⟩,
        rfl, fun ρ => ?_⟩
      · show (_, _) = _
        rw [hk, set_accounts]; rfl
      · have := hx.1; show x ≠ 0; omega
      · simp [claimTuple, opTuple, opValue, hk', Op.address, valueCode, Op.type, ClaimKind.proofType,
          Claim.newValueAssignment, Claim.oldValueAssignment, Claim.storageKey, Op.slot, set_accounts, Op.fresh]
        rfl
    · cases ha
  · rename_i address x hk
    split at ha
    · rename_i hx
      cases ha
      have hk' : w.accounts (accountKey H address) = none := hk
      refine ⟨⟨w.trie.hash H, _, address, .Balance none (some x)⟩,
        (c41_claim _ _ _).2 ⟨fr_frHash _, fr_frHash _, rfl,
          .createBalance (a := ⟨0, x, 0, 0, 0⟩) (.inl rfl) ?_ rfl ?_ (lt hx.2)⟩,
        rfl, fun ρ => ?_⟩
      · show (_, _) = _
        rw [hk, set_accounts]; rfl
      · have := hx.1; show x ≠ 0; omega
      · simp [claimTuple, opTuple, opValue, hk', Op.address, valueCode, Op.type, ClaimKind.proofType,
          Claim.newValueAssignment, Claim.oldValueAssignment, Claim.storageKey, Op.slot, set_accounts, Op.fresh,
          c47_rlc_eq, u256ToBigEndian, rlc_zero_word]
        rfl
    · cases ha
  · rename_i address s hk
    split at ha
    · rename_i hs
      cases ha
      have hk' : w.accounts (accountKey H address) = none := hk
      have ht : opTrace H (.slotEmpty address s) w w = { accountTrace H address w w 0 with
          stateUpdate := some (some (slotData s 0), some (slotData s 0)) } := by
        simp only [opTrace]
        rw [show w.accounts (accountKey H (Op.slotEmpty address s).address) = none from hk]; rfl
      rw [ht]
      refine ⟨⟨w.trie.hash H, w.trie.hash H, address, .IsEmpty (some s)⟩,
        (c41_claim _ _ _).2 ⟨fr_frHash _, fr_frHash _, rfl, ?_⟩, rfl, fun ρ => ?_⟩
      · have := KindOf.storageEmpty (t := { accountTrace H address w w 0 with
          stateUpdate := some (some (slotData s 0), some (slotData s 0)) }) rfl rfl (.inl rfl)
          (slotData_value s 0 (by norm_num)) (slotData_value s 0 (by norm_num))
        rw [slotData_key s 0 hs] at this
        exact this
      · simp [claimTuple, opTuple, opValue, hk', Op.address, valueCode, Op.type, ClaimKind.proofType,
          Claim.newValueAssignment, Claim.oldValueAssignment, Claim.storageKey, Op.slot]
    · cases ha
  · rename_i address x a hk
    split at ha
    · rename_i hx
      cases ha
      have hk' : w.accounts (accountKey H address) = some a := hk
      refine ⟨⟨w.trie.hash H, _, address, .Nonce (some a.data.nonce) (some x)⟩,
        (c41_claim _ _ _).2 ⟨fr_frHash _, fr_frHash _, rfl, .nonce (.inl rfl) ?_⟩, rfl, fun ρ => ?_⟩
      · show (_, _) = _
        rw [hk, set_accounts]; rfl
      · simp [claimTuple, opTuple, opValue, hk', Op.address, valueCode, Op.type, ClaimKind.proofType,
          Claim.newValueAssignment, Claim.oldValueAssignment, Claim.storageKey, Op.slot, set_accounts]
        rfl
    · cases ha
  · rename_i address x a hk
    split at ha
    · rename_i hx
      cases ha
      have hk' : w.accounts (accountKey H address) = some a := hk
      refine ⟨⟨w.trie.hash H, _, address, .Balance (some a.data.balance) (some x)⟩,
        (c41_claim _ _ _).2 ⟨fr_frHash _, fr_frHash _, rfl, .balance (.inl rfl) ?_
          (lt (hw.each _ _ hk).data.balance) (lt hx)⟩, rfl, fun ρ => ?_⟩
      · show (_, _) = _
        rw [hk, set_accounts]; rfl
      · simp [claimTuple, opTuple, opValue, hk', Op.address, valueCode, Op.type, ClaimKind.proofType,
          Claim.newValueAssignment, Claim.oldValueAssignment, Claim.storageKey, Op.slot, set_accounts,
          c47_rlc_eq, u256ToBigEndian]
        rfl
    · cases ha
  · rename_i address x a hk
    split at ha
    · rename_i hx
      cases ha
      have hk' : w.accounts (accountKey H address) = some a := hk
      refine ⟨⟨w.trie.hash H, _, address, .CodeSize (some a.data.codeSize) (some x)⟩,
        (c41_claim _ _ _).2 ⟨fr_frHash _, fr_frHash _, rfl, .codeSize (.inl rfl) ?_⟩, rfl, fun ρ => ?_⟩
      · show (_, _) = _
        rw [hk, set_accounts]; rfl
      · simp [claimTuple, opTuple, opValue, hk', Op.address, valueCode, Op.type, ClaimKind.proofType,
          Claim.newValueAssignment, Claim.oldValueAssignment, Claim.storageKey, Op.slot, set_accounts]
        rfl
    · cases ha
  · rename_i address x a hk
    split at ha
    · rename_i hx
      cases ha
      have hk' : w.accounts (accountKey H address) = some a := hk
      refine ⟨⟨w.trie.hash H, _, address, .CodeHash (some a.data.codeHash) (some x)⟩,
        (c41_claim _ _ _).2 ⟨fr_frHash _, fr_frHash _, rfl, .codeHash (.inl rfl) ?_
          (hw.each _ _ hk).data.codeHash hx⟩, rfl, fun ρ => ?_⟩
      · show (_, _) = _
        rw [hk, set_accounts]; rfl
      · simp [claimTuple, opTuple, opValue, hk', Op.address, valueCode, Op.type, ClaimKind.proofType,
          Claim.newValueAssignment, Claim.oldValueAssignment, Claim.storageKey, Op.slot, set_accounts,
          c47_rlc_eq, u256ToBigEndian]
        rfl
    · cases ha
  · rename_i address x a hk
    cases ha
    have hk' : w.accounts (accountKey H address) = some a := hk
    refine ⟨⟨w.trie.hash H, _, address, .PoseidonCodeHash (some (a.data.poseidonCodeHash : Fr)) (some (x : Fr))⟩,
      (c41_claim _ _ _).2 ⟨fr_frHash _, fr_frHash _, rfl, .poseidonCodeHash (.inl rfl) ?_⟩, rfl, fun ρ => ?_⟩
    · show (_, _) = _
      rw [hk, set_accounts]; rfl
    · simp [claimTuple, opTuple, opValue, hk', Op.address, valueCode, Op.type, ClaimKind.proofType,
        Claim.newValueAssignment, Claim.oldValueAssignment, Claim.storageKey, Op.slot, set_accounts]
      rfl
  · rename_i address s x a hk
    split at ha
    · rename_i hx
      cases ha
      have hk' : w.accounts (accountKey H address) = some a := hk
      have hk'' := set_accounts (H := H) (w := w) (key := accountKey H address) (Op.writeSlot H a s x)
      have hval : (Op.writeSlot H a s x).slots (Account.wordHash H s) = x := by simp [Op.writeSlot]
      have hr := (hw.each _ _ hk).range (Account.wordHash H s)
      obtain ⟨tr, htr⟩ : ∃ tr, tr = opTrace H (.setSlot address s x) w
        (w.set H (accountKey H address) (Op.writeSlot H a s x)) := ⟨_, rfl⟩
      have e1 : tr.stateUpdate = some (some (slotData s (a.slots (Account.wordHash H s))), some (slotData s x)) := by
        simp [htr, opTrace, Op.address, Op.slot, hk', hk'', hval]
      have e2 : tr.accountUpdate.1 = tr.accountUpdate.2 := by
        simp [htr, opTrace, accountTrace, Op.address, Op.slot, hk', hk'', show (Op.writeSlot H a s x).data = a.data from rfl]
      have e3 : tr.accountPath = (accountTrace H address w
        (w.set H (accountKey H address) (Op.writeSlot H a s x)) 0).accountPath ∧ tr.address = address := by
        simp [htr, opTrace, accountTrace, Op.address, Op.slot, hk', hk'']
      have opt : ∀ v : ℕ, ∃ o : Option ℕ, (o = none ∧ v = 0 ∨ o = some v ∧ v ≠ 0) ∧ o.getD 0 = v := by
        intro v
        by_cases h : v = 0
        · exact ⟨none, .inl ⟨rfl, h⟩, h.symm⟩
        · exact ⟨some v, .inr ⟨rfl, h⟩, rfl⟩
      obtain ⟨o, ho, ho'⟩ := opt (a.slots (Account.wordHash H s))
      obtain ⟨n, hn, hn'⟩ := opt x
      have v1 := slotData_value s _ hr
      have v2 := slotData_value s x hx.2.1
      have hkind := KindOf.storage (t := tr) e1 rfl (.inl e2) (by rw [v1, v2]; exact hx.2.2.symm)
        (by rw [v1]; exact ho) (by rw [v2]; exact hn)
      rw [slotData_key s _ hx.1] at hkind
      refine ⟨⟨w.trie.hash H, (w.set H (accountKey H address) (Op.writeSlot H a s x)).trie.hash H, address,
        .Storage s o n⟩, ?_, rfl, fun ρ => ?_⟩
      · refine (c41_claim _ _ _).2 ?_
        show fr (opTrace H (.setSlot address s x) w
          (w.set H (accountKey H address) (Op.writeSlot H a s x))).accountPath.1.root = _ ∧ _
        erw [← htr]
        rw [e3.1, e3.2]
        exact ⟨fr_frHash _, fr_frHash _, rfl, hkind⟩
      · have c1 := ((c41_values ⟨w.trie.hash H, (w.set H (accountKey H address) (Op.writeSlot H a s x)).trie.hash H,
          address, .Storage s o n⟩ ρ).2.2.1 o n (.inr (.inr ⟨s, rfl⟩)))
        rw [claimTuple, c1.1, c1.2, ho', hn']
        simp [opTuple, opValue, hk', Op.address, valueCode, Op.type, ClaimKind.proofType,
          Claim.storageKey, Op.slot, hk'', hval]
    · cases ha
  · rename_i address s a hk
    split at ha
    · rename_i hs
      cases ha
      have hk' : w.accounts (accountKey H address) = some a := hk
      have ht : opTrace H (.slotEmpty address s) w w = { accountTrace H address w w 0 with
          commonStateRoot := none
          statePath := (some (pathOf H (Account.wordHash H s) a.trie), some (pathOf H (Account.wordHash H s) a.trie))
          stateKey := some (frHash (Account.wordHash H s))
          stateUpdate := some (some (slotData s 0), some (slotData s 0)) } := by
        simp only [opTrace, Op.slot]
        rw [show w.accounts (accountKey H (Op.slotEmpty address s).address) = some a from hk]
        simp only [hs.2]; rfl
      rw [ht]
      refine ⟨⟨w.trie.hash H, w.trie.hash H, address, .IsEmpty (some s)⟩,
        (c41_claim _ _ _).2 ⟨fr_frHash _, fr_frHash _, rfl, ?_⟩, rfl, fun ρ => ?_⟩
      · have := KindOf.storageEmpty (t := { accountTrace H address w w 0 with
          commonStateRoot := none
          statePath := (some (pathOf H (Account.wordHash H s) a.trie), some (pathOf H (Account.wordHash H s) a.trie))
          stateKey := some (frHash (Account.wordHash H s))
          stateUpdate := some (some (slotData s 0), some (slotData s 0)) }) rfl rfl (.inl rfl)
          (slotData_value s 0 (by norm_num)) (slotData_value s 0 (by norm_num))
        rw [slotData_key s 0 hs.1] at this
        exact this
      · simp [claimTuple, opTuple, opValue, hk', Op.address, valueCode, Op.type, ClaimKind.proofType,
          Claim.newValueAssignment, Claim.oldValueAssignment, Claim.storageKey, Op.slot]
    · cases ha
  · cases ha

/-! ## Runs -/

/-- Performs the operations one after the other: the final state, and for each operation the states before
and after it. `none` if one of them is impossible. -/
def runOps (H : HashFn) : List Op → World → Option (World × List (Op × World × World))
  | [], w => some (w, [])
  | op :: ops, w =>
    match op.apply H w with
    | none => none
    | some w' => (runOps H ops w').map fun r => (r.1, (op, w, w') :: r.2)

/-- The requests for the steps of a run: type and trace, as the trie database gives them. -/
def jobsOf (H : HashFn) (steps : List (Op × World × World)) : List (MPTProofType × SMTTrace) :=
  steps.map fun s => (s.1.type, opTrace H s.1 s.2.1 s.2.2)

/-- The states of a run stay consistent, and every step is an operation applied to a consistent state. -/
theorem runOps_steps {ops : List Op} {w w' : World} {steps : List (Op × World × World)} (hw : w.OK H)
    (h : runOps H ops w = some (w', steps)) :
    w'.OK H ∧ steps.map (·.1) = ops ∧ ∀ s ∈ steps, s.2.1.OK H ∧ s.1.apply H s.2.1 = some s.2.2 := by
  induction ops generalizing w steps with
  | nil => cases h; exact ⟨hw, rfl, by simp⟩
  | cons op ops ih =>
    unfold runOps at h
    split at h
    · cases h
    · rename_i w1 h1
      obtain ⟨⟨w2, rest⟩, h2, h3⟩ := Option.map_eq_some_iff.1 h
      cases h3
      obtain ⟨i1, i2, i3⟩ := ih (Op.apply_ok hw h1) h2
      refine ⟨i1, by simp [i2], ?_⟩
      intro s hs
      rcases List.mem_cons.1 hs with rfl | hs
      · exact ⟨hw, h1⟩
      · exact i3 s hs

/-- **C35**, from the state. Start from any consistent state (for example the empty one) and perform any
operations on it. If the hash function does not collide on the states on the way, the traces of the
operations are parsed, both assignments succeed for every number of rows that is large enough, and the
assigned circuit is accepted and lets another circuit look up every one of the operations: its address, slot,
claim type, the roots of the states before and after it, and the values before and after it. -/
theorem c35_operations {ops : List Op} {w w' : World} {steps : List (Op × World × World)} (hw : w.OK H)
    (hrun : runOps H ops w = some (w', steps))
    (hadr : ∀ op ∈ ops, IsBytes op.address ∧ op.address.length = 20)
    (C : ∀ s ∈ steps, CollisionFree H (s.1.Relevant H s.2.1 s.2.2)) :
    ∃ ps m es, (jobsOf H steps).mapM (fun j => proofFrom H j.1 j.2) = some ps ∧ nRowsRequired H ps = some m ∧
      hashTraces H ps = some es ∧
      ∀ (ρ : Fr) (n U : ℕ) (table : Witness Fr), m ≤ n → 32 * ((updateKeys H ps).length + 1) ≤ n → n ≤ U →
        U ≤ 2 ^ 64 → PosTableFits H table U (traceInputs es) →
        (∃ s, serialAssign H ρ n ps = some s ∧ Accepted H n U (s.witness ρ table) ∧
          ∀ st ∈ steps, ∃ r, Enabled n r ∧ exposed (s.witness ρ table) r = opTuple H ρ st.1 st.2.1 st.2.2) ∧
        ∀ threads, 0 < threads →
          ∃ s, parAssign H ρ n threads ps = some s ∧ Accepted H n U (s.witness ρ n table) ∧
          ∀ st ∈ steps, ∃ r, Enabled n r ∧ exposed (s.witness ρ n table) r = opTuple H ρ st.1 st.2.1 st.2.2 := by
  obtain ⟨-, hops, hst⟩ := runOps_steps hw hrun
  have hadr' : ∀ s ∈ steps, IsBytes s.1.address ∧ s.1.address.length = 20 := fun s hs =>
    hadr _ (hops ▸ List.mem_map_of_mem hs)
  have hj : ∀ j ∈ jobsOf H steps, HonestTrace H j.1 j.2 := by
    intro j hj
    obtain ⟨s, hs, rfl⟩ := List.mem_map.1 hj
    exact op_honest (hadr' s hs) (hst s hs).1 (hst s hs).2 (C s hs)
  obtain ⟨ps, m, es, h1, h2, h3, h4⟩ := c35_complete (jobsOf H steps) hj
  have hp : ∀ p ∈ ps, ∃ s ∈ steps, proofFrom H s.1.type (opTrace H s.1 s.2.1 s.2.2) = some p := by
    intro p hp
    obtain ⟨j, hj, e⟩ := (mem_mapM_of _ _ _ h1).1 p hp
    obtain ⟨s, hs, rfl⟩ := List.mem_map.1 hj
    exact ⟨s, hs, e⟩
  have claim : ∀ s ∈ steps, ∀ p, proofFrom H s.1.type (opTrace H s.1 s.2.1 s.2.2) = some p →
      p.claim.address = s.1.address ∧ ∀ ρ, claimTuple ρ p.claim = opTuple H ρ s.1 s.2.1 s.2.2 := by
    intro s hs p e
    obtain ⟨c, c1, c2, c3⟩ := op_claim (hst s hs).1 (hst s hs).2
    have := (proofFrom_facts e).claim
    rw [c1] at this
    cases this
    exact ⟨c2, c3⟩
  have hp' : ∀ p ∈ ps, ∃ t tr, proofFrom H t tr = some p := fun p h => by
    obtain ⟨s, -, e⟩ := hp p h; exact ⟨_, _, e⟩
  have ha : ∀ p ∈ ps, p.claim.address.length = 20 := fun p h => by
    obtain ⟨s, hs, e⟩ := hp p h
    rw [(claim s hs p e).1]; exact (hadr' s hs).2
  refine ⟨ps, m, es, h1, h2, h3, ?_⟩
  intro ρ n U table a1 a2 a3 a4 a5
  obtain ⟨⟨s, e1, e2⟩, e3⟩ := h4 ρ n U table a1 a2 a3 a4 a5
  obtain ⟨⟨x1, -⟩, x2⟩ := c51_exposed hp' ha e1 table
  have find : ∀ st ∈ steps, ∃ p ∈ ps, claimTuple ρ p.claim = opTuple H ρ st.1 st.2.1 st.2.2 := by
    intro st hs
    obtain ⟨p, hp1, e⟩ := (mem_mapM_of _ _ _ h1).2 _ (List.mem_map_of_mem hs)
    exact ⟨p, hp1, (claim st hs p e).2 ρ⟩
  refine ⟨⟨s, e1, e2, fun st hs => ?_⟩, fun threads hth => ?_⟩
  · obtain ⟨p, hp1, e⟩ := find st hs
    rw [← e]; exact x1 p hp1
  · obtain ⟨s', y1, y2⟩ := e3 threads hth
    obtain ⟨s'', z1, z2, -⟩ := x2 threads hth
    rw [y1] at z1; cases z1
    refine ⟨s', y1, y2, fun st hs => ?_⟩
    obtain ⟨p, hp1, e⟩ := find st hs
    rw [← e]; exact z2 p hp1

end Mpt.Props
