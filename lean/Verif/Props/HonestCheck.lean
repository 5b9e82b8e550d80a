import Verif.Props.HonestInput

set_option autoImplicit false

/-!
# A checker for honest traces

`HonestTrace` (the hypothesis of C35) mentions the decoded paths existentially. `isHonest` checks it by
computation, so that it can be evaluated on actual traces.
-/

namespace Mpt.Props
open Mpt Spec Types

deriving instance DecidableEq for PathNode

variable {H : HashFn}

/-! ## Decoding -/

/-- The node an `SMTNode` of the trace denotes. -/
def decodeNode (n : SMTNode) : Option PathNode :=
  match fr n.value, fr n.sibling, HashDomain.ofNat? n.nodeType with
  | some c, some s, some d => some ⟨c, s, d⟩
  | _, _, _ => none

theorem decodeNode_iff (n : SMTNode) (p : PathNode) : decodeNode n = some p ↔ Denotes n p := by
  obtain ⟨c, s, d⟩ := p
  unfold decodeNode Denotes
  cases fr n.value <;> cases fr n.sibling <;> cases HashDomain.ofNat? n.nodeType <;> simp

/-- The nodes of a path. -/
def decodeNodes : List SMTNode → Option (List PathNode)
  | [] => some []
  | n :: ns =>
    match decodeNode n, decodeNodes ns with
    | some p, some ps => some (p :: ps)
    | _, _ => none

theorem decodeNodes_iff (l : List SMTNode) (ps : List PathNode) :
    decodeNodes l = some ps ↔ List.Forall₂ Denotes l ps := by
  induction l generalizing ps with
  | nil => cases ps <;> simp [decodeNodes]
  | cons n l ih =>
    unfold decodeNodes
    constructor
    · intro h
      split at h
      · rename_i p q h1 h2
        cases h
        exact .cons ((decodeNode_iff _ _).1 h1) ((ih _).1 h2)
      · simp at h
    · intro h
      cases h with
      | cons h1 h2 => rw [(decodeNode_iff _ _).2 h1, (ih _).2 h2]

/-- The end of a path. -/
def decodeEnd : Option SMTNode → Option PathEnd
  | none => some none
  | some n =>
    match fr n.sibling, fr n.value with
    | some k, some d => some (some (k, d))
    | _, _ => none

theorem decodeEnd_iff (l : Option SMTNode) (e : PathEnd) : decodeEnd l = some e ↔ LeafDenotes l e := by
  cases l with
  | none => cases e <;> simp [decodeEnd, LeafDenotes]
  | some n =>
    unfold decodeEnd
    rcases e with _ | ⟨k, d⟩
    · simp only [LeafDenotes, iff_false]; split <;> simp
    · simp only [LeafDenotes]
      cases fr n.sibling <;> cases fr n.value <;> simp

/-- Everything two paths of a trace say. -/
structure Decoded where
  po : List PathNode
  pn : List PathNode
  eo : PathEnd
  en : PathEnd
  ro : Fr
  rn : Fr

/-- Decode two paths. -/
def decodePaths (old new : SMTPath) : Option Decoded :=
  match decodeNodes old.path, decodeNodes new.path, decodeEnd old.leaf, decodeEnd new.leaf, fr old.root,
    fr new.root with
  | some po, some pn, some eo, some en, some ro, some rn => some ⟨po, pn, eo, en, ro, rn⟩
  | _, _, _, _, _, _ => none

theorem decodePaths_iff (old new : SMTPath) (d : Decoded) : decodePaths old new = some d ↔
    List.Forall₂ Denotes old.path d.po ∧ List.Forall₂ Denotes new.path d.pn ∧ LeafDenotes old.leaf d.eo ∧
    LeafDenotes new.leaf d.en ∧ fr old.root = some d.ro ∧ fr new.root = some d.rn := by
  obtain ⟨po, pn, eo, en, ro, rn⟩ := d
  rw [← decodeNodes_iff, ← decodeNodes_iff, ← decodeEnd_iff, ← decodeEnd_iff]
  unfold decodePaths
  cases decodeNodes old.path <;> cases decodeNodes new.path <;> cases decodeEnd old.leaf <;>
    cases decodeEnd new.leaf <;> cases fr old.root <;> cases fr new.root <;> simp

/-! ## Decidability of the parts -/

instance decPathOK (key : Fr) : ∀ (i : ℕ) (l : List PathNode) (b t : Fr), Decidable (PathOK H key i l b t)
  | _, [], b, t => inferInstanceAs (Decidable (t = b))
  | i, n :: ns, b, t =>
    haveI := decPathOK key (i + 1) ns b n.child
    inferInstanceAs (Decidable (t = n.hash H (keyBit key i) ∧ PathOK H key (i + 1) ns b n.child))

instance (d : HashDomain) : Decidable (branchDomain d) := by unfold branchDomain; infer_instance

instance decTruthful (key : Fr) : ∀ (i : ℕ) (l : List PathNode), Decidable (Truthful key i l)
  | _, [] => .isTrue trivial
  | i, n :: ns =>
    haveI := decTruthful key (i + 1) ns
    inferInstanceAs (Decidable (branchDomain n.domain ∧
      (childIsBranch n.domain (keyBit key i) = true ↔ ns ≠ []) ∧ Truthful key (i + 1) ns))

instance decSameSiblings (key : Fr) : ∀ (i : ℕ) (l m : List PathNode), Decidable (SameSiblings key i l m)
  | i, a :: as, b :: bs =>
    haveI := decSameSiblings key (i + 1) as bs
    inferInstanceAs (Decidable (a.sibling = b.sibling ∧
      childIsBranch a.domain (!keyBit key i) = childIsBranch b.domain (!keyBit key i) ∧
      SameSiblings key (i + 1) as bs))
  | _, [], [] => .isTrue trivial
  | _, [], _ :: _ => .isTrue trivial
  | _, _ :: _, [] => .isTrue trivial

instance decSplit (o : Fr) : ∀ l : List PathNode, Decidable (SplitLevels o l)
  | [] => .isTrue trivial
  | p :: ps =>
    haveI := decSplit o ps
    inferInstanceAs (Decidable (p.sibling = (if ps.isEmpty then o else 0) ∧ SplitLevels o ps))

instance decShape (c : Change) (bo bn : Fr) : ∀ l m : List PathNode, Decidable (PathShape c bo bn l m)
  | _ :: ps, _ :: qs => decShape c bo bn ps qs
  | [], [] => inferInstanceAs (Decidable ((c = .insert → bo = 0) ∧ (c = .delete → bn = 0)))
  | [], q :: qs => inferInstanceAs (Decidable (c = .insert ∧ SplitLevels bo (q :: qs)))
  | p :: ps, [] => inferInstanceAs (Decidable (c = .delete ∧ SplitLevels bn (p :: ps)))

instance decPlaced (key : Fr) (n : ℕ) : ∀ e : PathEnd, Decidable (EndPlaced key n e)
  | none => .isTrue (fun _ _ h => by simp at h)
  | some (k, d) => decidable_of_iff (∀ i < n, keyBit k i = keyBit key i) (by simp [EndPlaced])

instance decAbsentEnd (key : Fr) : ∀ e : PathEnd, Decidable (AbsentEnd H key e)
  | none => .isTrue (.inl rfl)
  | some (k, d) => decidable_of_iff (k ≠ key ∧ endHash H (some (k, d)) ≠ 0) (by
      unfold AbsentEnd
      constructor
      · rintro ⟨h1, h2⟩; exact .inr ⟨k, d, rfl, h1, h2⟩
      · rintro (h | ⟨k', d', h, h1, h2⟩)
        · simp at h
        · simp only [Option.some.injEq, Prod.mk.injEq] at h
          obtain ⟨rfl, rfl⟩ := h
          exact ⟨h1, h2⟩)

/-- What `HonestPaths` demands of the decoded paths. -/
def PathsFit (H : HashFn) (key : Fr) (c : Change) (old new : SMTPath) (d : Decoded) : Prop :=
  d.po.length ≤ 256 ∧ d.pn.length ≤ 256 ∧
  PathOK H key 0 d.po (endHash H d.eo) d.ro ∧ PathOK H key 0 d.pn (endHash H d.en) d.rn ∧
  Truthful key 0 d.po ∧ Truthful key 0 d.pn ∧ PathShape c (endHash H d.eo) (endHash H d.en) d.po d.pn ∧
  SameSiblings key 0 d.po d.pn ∧ (∀ p ∈ old.path.zip new.path, p.1.sibling = p.2.sibling) ∧
  EndPlaced key d.po.length d.eo ∧ EndPlaced key d.pn.length d.en

instance (key : Fr) (c : Change) (old new : SMTPath) (d : Decoded) :
    Decidable (PathsFit H key c old new d) := by unfold PathsFit; infer_instance

theorem honestPaths_iff (key : Fr) (c : Change) (old new : SMTPath) (d : Decoded) :
    HonestPaths H key c old new d.po d.pn d.eo d.en d.ro d.rn ↔
      decodePaths old new = some d ∧ PathsFit H key c old new d := by
  rw [decodePaths_iff]
  constructor
  · rintro ⟨h1, h2, h3, h4, h5, h6, h7, h8, ⟨a1, a2, a3, a4, a5⟩, h10, h11, h12, h13⟩
    exact ⟨⟨h1, h2, h3, h4, h5, h6⟩, h7, h8, a1, a2, a3, a4, a5, h10, h11, h12, h13⟩
  · rintro ⟨⟨h1, h2, h3, h4, h5, h6⟩, h7, h8, a1, a2, a3, a4, a5, h10, h11, h12, h13⟩
    exact ⟨h1, h2, h3, h4, h5, h6, h7, h8, ⟨a1, a2, a3, a4, a5⟩, h10, h11, h12, h13⟩

/-- What `AccountPart` demands of the decoded paths. -/
def AccountFit (H : HashFn) (tr : SMTTrace) (c : Change) (d : Decoded) : Prop :=
  ((∀ b ∈ tr.address, b < 256) ∧ tr.address.length = 20) ∧
  fr tr.accountKey = some (accountKey H tr.address) ∧
  PathsFit H (accountKey H tr.address) c tr.accountPath.1 tr.accountPath.2 d

instance (tr : SMTTrace) (c : Change) (d : Decoded) : Decidable (AccountFit H tr c d) := by
  unfold AccountFit; infer_instance

theorem accountPart_of {tr : SMTTrace} {c : Change} {d : Decoded}
    (h : decodePaths tr.accountPath.1 tr.accountPath.2 = some d) (hf : AccountFit H tr c d) :
    AccountPart H tr c d.po d.pn d.eo d.en d.ro d.rn :=
  ⟨hf.1, hf.2.1, (honestPaths_iff _ _ _ _ _).2 ⟨h, hf.2.2⟩⟩

instance (tr : SMTTrace) : Decidable (NoStateUpdate tr) := by unfold NoStateUpdate; infer_instance

/-- The storage root of a trace without storage paths. -/
def rootOf (tr : SMTTrace) : Option Fr := tr.commonStateRoot.bind fr

theorem rootOf_eq {tr : SMTTrace} {x : Fr} (h : rootOf tr = some x) :
    ∃ r, tr.commonStateRoot = some r ∧ fr r = some x := Option.bind_eq_some_iff.1 h

/-- The storage path of an account without storage. -/
def emptyPath (p : SMTPath) : Bool := p.leaf.isNone && p.path.isEmpty && decide (fr p.root = some 0)

/-- Checks `AbsentClaim`. -/
def absentClaim (H : HashFn) (tr : SMTTrace) (t : MPTProofType) : Bool :=
  if t ∈ [MPTProofType.NonceChanged, .BalanceChanged, .CodeHashExists, .CodeSizeExists,
      .AccountDoesNotExist] then decide (NoStateUpdate tr) && (rootOf tr).isSome
  else if t = .StorageDoesNotExist then
    if NoStateUpdate tr then tr.stateKey.isSome && (rootOf tr).isSome else
    match tr.stateUpdate with
    | some (some o, some n) =>
      decide (o.key = n.key ∧ beVal o.value = 0 ∧ beVal n.value = 0) &&
      ((rootOf tr).isSome ||
        (decide (tr.commonStateRoot = none ∧ beVal o.key < 2 ^ 256 ∧
            tr.stateKey.bind fr = some (Account.wordHash H (beVal o.key))) &&
          match tr.statePath with
          | (some a, some b) => emptyPath a && emptyPath b
          | _ => false))
    | _ => false
  else false

theorem emptyPath_eq {p : SMTPath} (h : emptyPath p = true) :
    p = ⟨p.root, none, []⟩ ∧ fr p.root = some 0 := by
  obtain ⟨r, l, q⟩ := p
  simp only [emptyPath, Bool.and_eq_true, Option.isNone_iff_eq_none, List.isEmpty_iff,
    decide_eq_true_eq] at h
  obtain ⟨⟨rfl, rfl⟩, h⟩ := h
  exact ⟨rfl, h⟩

theorem absentClaim_sound {tr : SMTTrace} {t : MPTProofType} (h : absentClaim H tr t = true) :
    AbsentClaim H tr t := by
  unfold absentClaim at h
  split at h
  · rename_i ht
    rw [Bool.and_eq_true, decide_eq_true_eq, Option.isSome_iff_exists] at h
    obtain ⟨hs, x, hx⟩ := h
    obtain ⟨r, hr, hx⟩ := rootOf_eq hx
    exact .field t ht hs r x hr hx
  · split at h
    · rename_i ht
      subst ht
      split at h
      · rename_i hs
        rw [Bool.and_eq_true, Option.isSome_iff_exists, Option.isSome_iff_exists] at h
        obtain ⟨⟨k, hk⟩, x, hx⟩ := h
        obtain ⟨r, hr, hx⟩ := rootOf_eq hx
        exact .slot k hs hk r x hr hx
      · split at h
        · rename_i o n hu
          rw [Bool.and_eq_true, Bool.or_eq_true, Bool.and_eq_true, decide_eq_true_eq, decide_eq_true_eq,
            Option.isSome_iff_exists] at h
          obtain ⟨⟨h1, h2, h3⟩, h4⟩ := h
          rcases h4 with ⟨x, hx⟩ | ⟨⟨h5, h6, h7⟩, h8⟩
          · obtain ⟨r, hr, hx⟩ := rootOf_eq hx
            exact .slotRoot o n hu h1 h2 h3 r x hr hx
          · split at h8
            · rename_i a b hp
              rw [Bool.and_eq_true] at h8
              obtain ⟨ha, ha'⟩ := emptyPath_eq h8.1
              obtain ⟨hb, hb'⟩ := emptyPath_eq h8.2
              obtain ⟨k, hk, hk'⟩ := Option.bind_eq_some_iff.1 h7
              rw [ha, hb] at hp
              exact .slotTrie o n hu h1 h6 h2 h3 h5 k hk hk' _ _ hp ha' hb'
            · simp at h8
        · simp at h
    · simp at h

instance (a : AccountData) : Decidable (AccountOK a) :=
  decidable_of_iff (a.nonce < 2 ^ 64 ∧ a.codeSize < 2 ^ 64 ∧ a.balance < 2 ^ 248 ∧ a.codeHash < 2 ^ 256)
    ⟨fun ⟨h1, h2, h3, h4⟩ => ⟨h1, h2, h3, h4⟩, fun ⟨h1, h2, h3, h4⟩ => ⟨h1, h2, h3, h4⟩⟩

/-- Checks `FieldChange`. -/
def fieldChange (H : HashFn) (o n : AccountData) : MPTProofType → Bool
  | .NonceChanged => decide (o.codeSize = n.codeSize ∧ o.balance = n.balance ∧ o.codeHash = n.codeHash ∧
      o.poseidonCodeHash = n.poseidonCodeHash)
  | .CodeSizeExists => decide (o.nonce = n.nonce ∧ o.balance = n.balance ∧ o.codeHash = n.codeHash ∧
      o.poseidonCodeHash = n.poseidonCodeHash)
  | .BalanceChanged => decide (o.nonce = n.nonce ∧ o.codeSize = n.codeSize ∧ o.codeHash = n.codeHash ∧
      o.poseidonCodeHash = n.poseidonCodeHash)
  | .CodeHashExists => decide (o.nonce = n.nonce ∧ o.codeSize = n.codeSize ∧ o.balance = n.balance ∧
      o.poseidonCodeHash = n.poseidonCodeHash ∧
      ∀ x ∈ [o.codeHash, n.codeHash], ∀ d ∈ [HashDomain.AccountFields, .Leaf],
        H ((x / 2 ^ 128 : ℕ) : Fr) ((x % 2 ^ 128 : ℕ) : Fr) d.toFr ≠ Account.wordHash H x)
  | .PoseidonCodeHashExists => decide (o.nonce = n.nonce ∧ o.codeSize = n.codeSize ∧
      o.balance = n.balance ∧ o.codeHash = n.codeHash)
  | _ => false

theorem fieldChange_sound {o n : AccountData} {t : MPTProofType} (h : fieldChange H o n t = true) :
    FieldChange H o n t := by
  unfold fieldChange at h
  split at h
  · obtain ⟨h1, h2, h3, h4⟩ := of_decide_eq_true h; exact .nonce h1 h2 h3 h4
  · obtain ⟨h1, h2, h3, h4⟩ := of_decide_eq_true h; exact .codeSize h1 h2 h3 h4
  · obtain ⟨h1, h2, h3, h4⟩ := of_decide_eq_true h; exact .balance h1 h2 h3 h4
  · obtain ⟨h1, h2, h3, h4, h5⟩ := of_decide_eq_true h; exact .codeHash h1 h2 h3 h4 h5
  · obtain ⟨h1, h2, h3, h4⟩ := of_decide_eq_true h; exact .poseidon h1 h2 h3 h4
  · simp at h

/-- What the values of a slot say about the change. -/
def slotKind (x y : ℕ) : Change := if x = 0 then .insert else if y = 0 then .delete else .same

/-- Checks `SlotChange`. -/
def slotChange (H : HashFn) (slot x y : ℕ) (eo en : PathEnd) : Bool :=
  let z := Account.wordHash H 0
  if x = 0 then
    decide (y ≠ 0 ∧ y < 2 ^ 256 ∧ Account.wordHash H y ≠ z ∧ AbsentEnd H (Account.wordHash H slot) eo ∧
      endHash H eo ≠ z ∧ en = slotEnd H slot y)
  else if y = 0 then
    decide (x < 2 ^ 256 ∧ Account.wordHash H x ≠ z ∧ AbsentEnd H (Account.wordHash H slot) en ∧
      endHash H en ≠ z ∧ eo = slotEnd H slot x)
  else
    decide (x < 2 ^ 256 ∧ y < 2 ^ 256 ∧ Account.wordHash H x ≠ z ∧ Account.wordHash H y ≠ z ∧
      eo = slotEnd H slot x ∧ en = slotEnd H slot y)

theorem slotChange_sound {slot x y : ℕ} {eo en : PathEnd} (h : slotChange H slot x y eo en = true) :
    SlotChange H slot (slotKind x y) x y eo en := by
  unfold slotChange at h
  unfold slotKind
  split at h
  · rename_i hx
    obtain ⟨h1, h2, h3, h4, h5, rfl⟩ := of_decide_eq_true h
    subst hx
    rw [if_pos rfl]
    exact .insert y eo h1 h2 h3 h4 h5
  · rename_i hx
    rw [if_neg hx]
    split at h
    · rename_i hy
      obtain ⟨h2, h3, h4, h5, rfl⟩ := of_decide_eq_true h
      subst hy
      rw [if_pos rfl]
      exact .delete x en hx h2 h3 h4 h5
    · rename_i hy
      obtain ⟨h1, h2, h3, h4, rfl, rfl⟩ := of_decide_eq_true h
      rw [if_neg hy]
      exact .change x y hx hy h1 h2 h3 h4

/-- Checks the storage part of a trace and the slot claim. -/
def slotCheck (H : HashFn) (t : MPTProofType) (tr : SMTTrace) (a : AccountData) (d : Decoded) : Bool :=
  match tr.stateUpdate, tr.statePath with
  | some (some o, some n), (some old, some new) =>
    match decodePaths old new with
    | none => false
    | some q =>
      let k := Account.wordHash H (beVal o.key)
      decide (tr.commonStateRoot = none ∧ o.key = n.key ∧ beVal o.key < 2 ^ 256 ∧
        tr.stateKey.bind fr = some k ∧ AccountOK a ∧
        d.eo = accountEnd H tr.address a q.ro ∧ d.en = accountEnd H tr.address a q.rn ∧
        endHash H d.eo ≠ 0 ∧ endHash H d.en ≠ 0 ∧ AccountFit H tr .same d) &&
      if t = .StorageChanged then
        decide (PathsFit H k (slotKind (beVal o.value) (beVal n.value)) old new q) &&
          slotChange H (beVal o.key) (beVal o.value) (beVal n.value) q.eo q.en
      else if t = .StorageDoesNotExist then
        decide (PathsFit H k .same old new q ∧ beVal o.value = 0 ∧ beVal n.value = 0 ∧
          AbsentEnd H k q.eo ∧ q.po = q.pn ∧ q.eo = q.en ∧ q.ro = q.rn ∧ d.po = d.pn ∧ d.ro = d.rn)
      else false
  | _, _ => false

/-- **The checker.** -/
def isHonest (H : HashFn) (t : MPTProofType) (tr : SMTTrace) : Bool :=
  match decodePaths tr.accountPath.1 tr.accountPath.2 with
  | none => false
  | some d =>
    match tr.accountUpdate with
    | (none, none) =>
      decide (AccountFit H tr .same d ∧ d.po = d.pn ∧ d.eo = d.en ∧ d.ro = d.rn ∧
        AbsentEnd H (accountKey H tr.address) d.eo) && absentClaim H tr t
    | (none, some a) =>
      decide (AccountFit H tr .insert d ∧ d.en = accountEnd H tr.address a 0 ∧ endHash H d.en ≠ 0 ∧
        AbsentEnd H (accountKey H tr.address) d.eo ∧ NoStateUpdate tr ∧ rootOf tr = some 0 ∧
        ((t = .NonceChanged ∧ 0 < a.nonce ∧ a.nonce < 2 ^ 64 ∧ a = ⟨a.nonce, 0, 0, 0, 0⟩) ∨
          (t = .BalanceChanged ∧ 0 < a.balance ∧ a.balance < 2 ^ 248 ∧ a = ⟨0, a.balance, 0, 0, 0⟩)))
    | (some o, some n) =>
      if NoStateUpdate tr then
        match rootOf tr with
        | none => false
        | some x =>
          decide (AccountFit H tr .same d ∧ d.eo = accountEnd H tr.address o x ∧
            d.en = accountEnd H tr.address n x ∧ AccountOK o ∧ AccountOK n ∧ endHash H d.eo ≠ 0 ∧
            endHash H d.en ≠ 0) && fieldChange H o n t
      else decide (o = n) && slotCheck H t tr o d
    | (some _, none) => false

theorem isHonest_sound {t : MPTProofType} {tr : SMTTrace} (h : isHonest H t tr = true) :
    HonestTrace H t tr := by
  unfold isHonest at h
  split at h
  · simp at h
  rename_i d hd
  split at h
  · rename_i hu
    rw [Bool.and_eq_true, decide_eq_true_eq] at h
    obtain ⟨⟨h1, h2, h3, h4, h5⟩, h6⟩ := h
    have hA := accountPart_of hd h1
    rw [← h2, ← h3, ← h4] at hA
    exact .absent d.po d.eo d.ro hA hu h5 (absentClaim_sound h6)
  · rename_i a hu
    obtain ⟨h1, h2, h3, h4, h5, h6, h7⟩ := of_decide_eq_true h
    have hA := accountPart_of hd h1
    obtain ⟨r, hr, hx⟩ := rootOf_eq h6
    rw [h2] at hA h3
    rcases h7 with ⟨ht, hp, hl, ha⟩ | ⟨ht, hp, hl, ha⟩
    · rw [ha] at hA hu h3
      exact .newNonce a.nonce hp hl d.po d.pn d.eo d.ro d.rn hA hu h4 h3 h5 r hr hx ht
    · rw [ha] at hA hu h3
      exact .newBalance a.balance hp hl d.po d.pn d.eo d.ro d.rn hA hu h4 h3 h5 r hr hx ht
  · rename_i o n hu
    split at h
    · rename_i hs
      split at h
      · simp at h
      · rename_i x hx
        rw [Bool.and_eq_true, decide_eq_true_eq] at h
        obtain ⟨⟨h1, h2, h3, h4, h5, h6, h7⟩, h8⟩ := h
        have hA := accountPart_of hd h1
        obtain ⟨r, hr, hx⟩ := rootOf_eq hx
        rw [h2, h3] at hA
        rw [h2] at h6
        rw [h3] at h7
        exact .field o n x d.po d.pn d.ro d.rn hA hu h4 h5 h6 h7 hs r hr hx (fieldChange_sound h8)
    · rw [Bool.and_eq_true, decide_eq_true_eq] at h
      obtain ⟨rfl, h⟩ := h
      unfold slotCheck at h
      split at h
      · rename_i a b old new hsu hsp
        split at h
        · simp at h
        · rename_i q hq
          rw [Bool.and_eq_true, decide_eq_true_eq] at h
          obtain ⟨⟨h1, h2, h3, h4, h5, h6, h7, h8, h9, h10⟩, h⟩ := h
          have hA := accountPart_of hd h10
          have hk := Option.bind_eq_some_iff.1 h4
          rw [h6, h7] at hA
          rw [h6] at h8
          rw [h7] at h9
          split at h
          · rename_i ht
            rw [Bool.and_eq_true, decide_eq_true_eq] at h
            exact .slot o a b _ old new q.ro q.rn q.po q.pn q.eo q.en d.po d.pn d.ro d.rn hA hu h5 h8 h9
              ⟨h1, hsu, h2, h3, hk, hsp, (honestPaths_iff _ _ _ _ _).2 ⟨hq, h.1⟩⟩
              (slotChange_sound h.2) ht
          · split at h
            · rename_i ht
              obtain ⟨a1, a2, a3, a4, a5, a6, a7, a8, a9⟩ := of_decide_eq_true h
              have hP := (honestPaths_iff _ _ _ _ _).2 ⟨hq, a1⟩
              rw [← a5, ← a6, ← a7] at hP
              rw [← a7, ← a8, ← a9] at hA
              exact .slotEmpty o a b old new q.ro q.po q.eo d.po d.ro hA hu h5 h8
                ⟨h1, hsu, h2, h3, hk, hsp, hP⟩ ⟨a2, a3⟩ a4 ht
            · simp at h
      · simp at h
  · simp at h

end Mpt.Props
