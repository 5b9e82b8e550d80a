import Verif.Assign.DemoRuns

set_option autoImplicit false

/-!
# Concrete runs that should not be accepted

Runs accepted by the circuit although their claims are wrong or not bound to the tries.
-/

namespace Mpt
open Spec MptUpdate

/-- The Start row relation when the run does not end there. -/
theorem rowRel_startRow {H : HashFn} {ρ : Fr} {runs : List (List URow)} {strings : List (List ℕ)}
    {keys : List Fr} {reqs : List KeyBit.Req} {pos : List (Fr × Fr × Fr)}
    (h : DemoFits runs strings keys reqs pos) {r : ℤ} {t : MPTProofType} {a : ℕ}
    {otherKey slotRlc oldRoot newRoot oldValue newValue : Fr} (ha : a < 2 ^ 160)
    (hu : AtRow (demo H ρ runs strings keys reqs pos).witness r
      (startRow H ρ t a otherKey slotRlc oldRoot newRoot oldValue newValue))
    (hs : ∀ s ∈ startStrings a, s ∈ strings) (hp : startPos a ∈ pos)
    (h1 : oldRoot ∈ keys) (h2 : newRoot ∈ keys) {σ' : SegmentType} {pp p' : PathType} {tp : MPTProofType}
    (hp' : p' = .Common ∨ p' = .ExtensionNew) (hσ : σ' = .AccountTrie ∨ σ' = .AccountLeaf0)
    (ht : t = .NonceChanged ∨ t = .StorageChanged ∨ t = .BalanceChanged) :
    RowRel H (demo H ρ runs strings keys reqs pos).witness 2049 r
      (startRow H ρ t a otherKey slotRlc oldRoot newRoot oldValue newValue).seg σ' pp
      (startRow H ρ t a otherKey slotRlc oldRoot newRoot oldValue newValue).path p' tp
      (startRow H ρ t a otherKey slotRlc oldRoot newRoot oldValue newValue).proof := by
  show RowRel H _ 2049 r .Start σ' pp .Start p' tp t
  refine ⟨by simp, fun _ => startRow_sat h ha hu hs hp h1 h2,
    ⟨fun h => absurd rfl h, fun h => absurd rfl h, ?_, fun _ _ => ?_⟩, ?_, trivial, ?_, ?_, ?_⟩
  · rintro (h | h) <;> simp at h
  · rw [hu.depth]; rfl
  · rcases hp' with rfl | rfl
    · show PathType.Common ∈ forwardTransitions PathType.Start; decide
    · show PathType.ExtensionNew ∈ forwardTransitions PathType.Start; decide
  · exact ⟨.Pair, by simp [domains], by rw [hu.domain]; rfl⟩
  · rcases ht with rfl | rfl | rfl <;> rcases hσ with rfl | rfl <;> exact ⟨_, rfl, by simp⟩
  · rcases ht with rfl | rfl | rfl
    · refine ⟨by simp, fun h => ?_⟩
      rcases hσ with rfl | rfl <;> simp at h
    · trivial
    · intro h
      rcases hσ with rfl | rfl <;> simp at h

/-! ## A claim `0 → 0` that moves the root -/

/-- An empty trie gets a branch node with two empty children. -/
def pushRow (H : HashFn) (a : ℕ) (t : MPTProofType := .NonceChanged) : URow where
  seg := .AccountTrie
  path := .ExtensionNew
  proof := t
  domain := HashDomain.Branch0.toFr
  depth := ((0 + 1 : ℕ) : Fr)
  key := addrKey H a
  otherKey := addrKey H a
  direction := bitFr (keyBit (addrKey H a) 0)

def pushRoot (H : HashFn) : Fr := H 0 0 HashDomain.Branch0.toFr

def pushRun (H : HashFn) (ρ : Fr) (a : ℕ) (t : MPTProofType := .NonceChanged) : List URow :=
  [startRow H ρ t a (addrKey H a) 0 0 (pushRoot H) 0 0, pushRow H a t]

def pushDemo (H : HashFn) (ρ : Fr) (a : ℕ) (t : MPTProofType := .NonceChanged) : Assembly :=
  demo H ρ [pushRun H ρ a t] (startStrings a) [0, pushRoot H, addrKey H a]
    [(addrKey H a, 0, keyBit (addrKey H a) 0)] [startPos a, (0, 0, HashDomain.Branch0.toFr)]

theorem pushDemo_accepted (H : HashFn) (ρ : Fr) {a : ℕ} (ha : a < 2 ^ 160)
    {t : MPTProofType} (ht : t = .NonceChanged ∨ t = .BalanceChanged) :
    Accepted H 2049 2049 (pushDemo H ρ a t).witness ∧ TablesOK (pushDemo H ρ a t).witness 2049 ∧
    Exposes (pushDemo H ρ a t).witness 2049 t (a : Fr) 0 (rootRlc ρ 0)
      (rootRlc ρ (pushRoot H)) 0 0 := by
  have hfit : DemoFits [pushRun H ρ a t] (startStrings a) [0, pushRoot H, addrKey H a]
      [(addrKey H a, 0, keyBit (addrKey H a) 0)] [startPos a, (0, 0, HashDomain.Branch0.toFr)] := by
    refine ⟨by simp [pushRun], ?_, by simp [startStrings, ByteRep.total], by simp, ?_, by simp, by simp⟩
    · intro s hs
      simp only [startStrings, List.mem_cons, List.not_mem_nil, or_false] at hs
      rcases hs with rfl | rfl <;> refine ⟨isBytes_beBytes _ _, ?_, by simp⟩ <;>
        exact List.ne_nil_of_length_pos (by simp)
    · intro q hq
      rw [List.mem_singleton] at hq
      subst hq
      exact ⟨⟨by norm_num, rfl⟩, by simp⟩
  have hacc := hfit.accepted (H := H) (ρ := ρ) (by
    intro run hrun
    rw [List.mem_singleton] at hrun
    subst hrun
    refine ⟨by simp [pushRun], ⟨rfl, rfl⟩, ?_⟩
    intro r prev hprev hat
    simp only [pushRun, AtRows, and_true] at hat
    obtain ⟨u0, u1⟩ := hat
    have v1 := u0.shift
    simp only [pushRun, RowsOK, and_true, List.headD_cons, List.headD_nil]
    have hrel := rowRel_startRow hfit ha u0 (fun s hs => hs) (by simp) (by simp) (by simp)
      (σ' := (pushRow H a t).seg) (pp := prev.path) (p' := (pushRow H a t).path) (tp := prev.proof)
      (.inr rfl) (.inl rfl) (ht.imp id .inr)
    refine ⟨hrel, ?_⟩
    have e1 : leftOf (keyBit (addrKey H a) 0) (pushRow H a t).sibling (pushRow H a t).newHash = 0 := by
      simp [leftOf, pushRow]
    have e2 : rightOf (keyBit (addrKey H a) 0) (pushRow H a t).sibling (pushRow H a t).newHash = 0 := by
      simp [rightOf, pushRow]
    have hlast : Nonexist (demo H ρ [pushRun H ρ a t] (startStrings a) [0, pushRoot H, addrKey H a]
        [(addrKey H a, 0, keyBit (addrKey H a) 0)] [startPos a, (0, 0, HashDomain.Branch0.toFr)]).witness
        2049 (r + 1) .oldValue .oldHash (.iv 3) :=
      nonexist_old u1 rfl (by simp [pushRow]) (by simp [pushRow]) (.inr ⟨rfl, rfl⟩)
    have c1 := u1.oldHash
    have c2 := u1.newHash
    have c3 := u1.oldValue
    have c4 := u1.newValue
    refine rowRel_trie_extNew u1 v1 (.inl rfl) rfl (.inr rfl) ⟨rfl, rfl, rfl, rfl⟩ (i := 0)
      (dir := keyBit (addrKey H a) 0) ⟨⟨rfl, rfl⟩, rfl, by simp [startRow], rfl, ?_, ?_⟩
      (d := .Branch0) (by simp) rfl (by rcases ht with rfl | rfl <;> simp [pushRow]) rfl rfl ?_ ?_ ?_ ?_
    · exact hfit.bit (List.mem_singleton_self _)
    · intro h; simp [pushRow] at h
    · rw [e1, e2]
      exact hfit.hash (by simp)
    · simp [pushRow, URow.blank]
    · rcases ht with rfl | rfl <;> exact ⟨_, rfl, by simp [URow.blank]⟩
    · rcases ht with rfl | rfl
      · exact ⟨by simp, fun _ => ⟨c1.trans c2.symm, c3.trans c4.symm, hlast⟩⟩
      · exact fun _ => ⟨c1.trans c2.symm, c3.trans c4.symm, hlast⟩)
  exact ⟨hacc.1, hacc.2, demo_exposes_start hacc.1⟩

/-! ## A storage insertion with an arbitrary new value -/

/-- Values of the storage insertion: `k`, `k'` are the keys stored in the account leaf and in the storage
leaf, `slot` the storage key as a 256-bit word, `value` the hash stored in the storage leaf. -/
structure Insertion where
  k : Fr
  pch : Fr
  left : Fr
  keccak : Fr
  slot : ℕ
  k' : Fr
  value : Fr

namespace Insertion
variable (H : HashFn) (l : Insertion)
def slotKey : Fr :=
  H ((l.slot / 2 ^ 128 : ℕ) : Fr) ((l.slot % 2 ^ 128 : ℕ) : Fr) HashDomain.Pair.toFr
def storageRoot : Fr := H l.k' l.value HashDomain.Leaf.toFr
def right (root : Fr) : Fr := H root l.keccak HashDomain.AccountFields.toFr
def fields (root : Fr) : Fr := H l.left (l.right H root) HashDomain.AccountFields.toFr
def data (root : Fr) : Fr := H (l.fields H root) l.pch HashDomain.AccountFields.toFr
/-- The account leaf with the given storage root. -/
def hash (root : Fr) : Fr := H l.k (l.data H root) HashDomain.Leaf.toFr
def pos (root : Fr) : List (Fr × Fr × Fr) :=
  [(root, l.keccak, HashDomain.AccountFields.toFr),
    (l.left, l.right H root, HashDomain.AccountFields.toFr),
    (l.fields H root, l.pch, HashDomain.AccountFields.toFr),
    (l.k, l.data H root, HashDomain.Leaf.toFr)]

def row (ρ : Fr) (newValue key : Fr) (s : SegmentType) (p : PathType) (d : HashDomain) (dir : Bool)
    (sib oldHash newHash : Fr) : URow where
  seg := s
  path := p
  proof := .StorageChanged
  storageKeyRlc := Spec.rlc ρ (beBytes 32 l.slot)
  newValue := newValue
  domain := d.toFr
  oldHash := oldHash
  newHash := newHash
  key := key
  otherKey := key
  direction := bitFr dir
  sibling := sib

def row3 (ρ newValue : Fr) : URow :=
  { l.row ρ newValue (l.slotKey H) .AccountLeaf3 .Common .AccountFields false l.keccak 0
      (l.storageRoot H) with
    iv := ![((l.slot / 2 ^ 128 : ℕ) : Fr), ((l.slot % 2 ^ 128 : ℕ) : Fr), 0, 0, 0, 0, 0, 0, 0, 0]
    sp := ![Spec.rlc ρ (beBytes 16 (l.slot / 2 ^ 128)), Spec.rlc ρ (beBytes 16 (l.slot % 2 ^ 128)),
      0, 0, 0, 0, 0, 0, 0, 0] }
def row4 (ρ newValue : Fr) : URow :=
  { l.row ρ newValue (l.slotKey H) .StorageLeaf0 .ExtensionNew .Leaf true l.k' 0 l.value with
    iz := ![0 - zeroPairHash H, l.value - zeroPairHash H, 0, 0] }

def run (ρ : Fr) (a : ℕ) (newValue : Fr) : List URow :=
  [ startRow H ρ .StorageChanged a (addrKey H a) (Spec.rlc ρ (beBytes 32 l.slot)) (l.hash H 0)
      (l.hash H (l.storageRoot H)) 0 newValue,
    l.row ρ newValue (addrKey H a) .AccountLeaf0 .Common .Leaf true l.k (l.data H 0)
      (l.data H (l.storageRoot H)),
    l.row ρ newValue (addrKey H a) .AccountLeaf1 .Common .AccountFields false l.pch (l.fields H 0)
      (l.fields H (l.storageRoot H)),
    l.row ρ newValue (addrKey H a) .AccountLeaf2 .Common .AccountFields true l.left (l.right H 0)
      (l.right H (l.storageRoot H)),
    l.row3 H ρ newValue, l.row4 H ρ newValue ]

def strings (a : ℕ) : List (List ℕ) :=
  startStrings a ++ [beBytes 16 (l.slot / 2 ^ 128), beBytes 16 (l.slot % 2 ^ 128)]
def allPos (a : ℕ) : List (Fr × Fr × Fr) :=
  startPos a :: (((l.slot / 2 ^ 128 : ℕ) : Fr), ((l.slot % 2 ^ 128 : ℕ) : Fr), HashDomain.Pair.toFr) ::
    (l.k', l.value, HashDomain.Leaf.toFr) :: l.pos H 0 ++ l.pos H (l.storageRoot H)

def assembly (ρ : Fr) (a : ℕ) (newValue : Fr) : Assembly :=
  demo H ρ [l.run H ρ a newValue] (l.strings a) [l.hash H 0, l.hash H (l.storageRoot H)] []
    (l.allPos H a)
end Insertion

theorem rlc_word (ρ : Fr) (x : ℕ) (hx : x < 2 ^ 256) : Spec.rlc ρ (beBytes 32 x) =
    Spec.rlc ρ (beBytes 16 (x / 2 ^ 128)) * ρ ^ 16 + Spec.rlc ρ (beBytes 16 (x % 2 ^ 128)) := by
  have e : beBytes 32 x = beBytes 16 (x / 2 ^ 128) ++ beBytes 16 (x % 2 ^ 128) := by
    refine beVal_inj (isBytes_beBytes _ _)
      (isBytes_append.2 ⟨isBytes_beBytes _ _, isBytes_beBytes _ _⟩) (by simp) ?_
    have h1 : x / 2 ^ 128 < 2 ^ 128 := Nat.div_lt_of_lt_mul (by rw [← pow_add]; exact hx)
    have h2 := Nat.mod_lt x (show 0 < 2 ^ 128 by norm_num)
    rw [beVal_append, beVal_beBytes 32 x (by norm_num at hx ⊢; omega),
      beVal_beBytes 16 _ (by norm_num at h1 ⊢; omega), beVal_beBytes 16 _ (by norm_num at h2 ⊢; omega)]
    simp only [beBytes_length]
    norm_num
    omega
  rw [e, rlc_append, beBytes_length]

/-- **Accepted insertion with an arbitrary new value.** -/
theorem insertion_accepted (H : HashFn) (ρ : Fr) {a : ℕ} (ha : a < 2 ^ 160) (l : Insertion)
    (hs : l.slot < 2 ^ 256) (h0 : zeroPairHash H ≠ 0) (hv : l.value ≠ zeroPairHash H) (newValue : Fr) :
    Accepted H 2049 2049 (l.assembly H ρ a newValue).witness ∧
    TablesOK (l.assembly H ρ a newValue).witness 2049 ∧
    Exposes (l.assembly H ρ a newValue).witness 2049 .StorageChanged (a : Fr)
      (Spec.rlc ρ (beBytes 32 l.slot)) (rootRlc ρ (l.hash H 0)) (rootRlc ρ (l.hash H (l.storageRoot H)))
      0 newValue := by
  have hfit : DemoFits [l.run H ρ a newValue] (l.strings a) [l.hash H 0, l.hash H (l.storageRoot H)] []
      (l.allPos H a) := by
    refine ⟨by simp [Insertion.run], ?_, by simp [Insertion.strings, startStrings, ByteRep.total],
      by simp, by simp, by simp, by simp [Insertion.allPos, Insertion.pos]⟩
    intro s hs
    simp only [Insertion.strings, startStrings, List.mem_append, List.mem_cons, List.not_mem_nil,
      or_false] at hs
    rcases hs with (rfl | rfl) | rfl | rfl <;> refine ⟨isBytes_beBytes _ _, ?_, by simp⟩ <;>
      exact List.ne_nil_of_length_pos (by simp)
  have hacc := hfit.accepted (H := H) (ρ := ρ) (by
    intro run hrun
    rw [List.mem_singleton] at hrun
    subst hrun
    refine ⟨by simp [Insertion.run], ⟨rfl, rfl⟩, ?_⟩
    intro r prev hprev hat
    have P : ∀ l' r' d', (l', r', d') ∈ l.allPos H a → P1 _ 2049 l' r' d' (H l' r' d') :=
      fun l' r' d' hm => hfit.hash (H := H) (ρ := ρ) hm
    have hhi : l.slot / 2 ^ 128 < 256 ^ (15 + 1) := by
      have : l.slot / 2 ^ 128 < 2 ^ 128 := Nat.div_lt_of_lt_mul (by rw [← pow_add]; exact hs)
      norm_num at this ⊢; omega
    have hlo : l.slot % 2 ^ 128 < 256 ^ (15 + 1) := by
      have := Nat.mod_lt l.slot (show 0 < 2 ^ 128 by norm_num)
      norm_num at this ⊢; omega
    have Rhi := hfit.num (H := H) (ρ := ρ) (k := 15) (x := l.slot / 2 ^ 128)
      (by simp [Insertion.strings]) hhi
    have Rlo := hfit.num (H := H) (ρ := ρ) (k := 15) (x := l.slot % 2 ^ 128)
      (by simp [Insertion.strings]) hlo
    norm_num only [Nat.cast_ofNat] at Rhi Rlo
    simp only [Insertion.run, AtRows, and_true] at hat
    obtain ⟨u0, u1, u2, u3, u4, u5⟩ := hat
    have v1 := u0.shift
    have v2 := u1.shift
    have v3 := u2.shift
    have v4 := u3.shift
    have v5 := u4.shift
    simp only [Insertion.run, RowsOK, and_true, List.headD_cons, List.headD_nil]
    refine ⟨rowRel_startRow hfit ha u0 (fun s hs => List.mem_append_left _ hs) (by simp [Insertion.allPos])
      (by simp) (by simp) (.inl rfl) (.inr rfl) (.inr (.inl rfl)), ?_, ?_, ?_, ?_, ?_⟩
    · refine rowRel_leaf_common u1 v1 (by simp [Insertion.row]) rfl (.inl rfl) ⟨rfl, rfl, rfl, rfl⟩
        (fun _ => ⟨rfl, rfl⟩) rfl (dir := true) rfl (d := .Leaf) (by simp [Insertion.row, domains]) rfl
        ⟨P _ _ _ ?_, P _ _ _ ?_⟩ ⟨_, rfl, by simp [Insertion.row]⟩ ?_
      · simp [leftOf, rightOf, Insertion.row, Insertion.allPos, Insertion.pos]
      · simp [leftOf, rightOf, Insertion.row, Insertion.allPos, Insertion.pos]
      · show _ = (1 : Fr); rw [u1.direction]; rfl
    · refine rowRel_leaf_common u2 v2 (by simp [Insertion.row]) rfl (.inl rfl) ⟨rfl, rfl, rfl, rfl⟩
        (fun _ => ⟨rfl, rfl⟩) rfl (dir := false) rfl (d := .AccountFields)
        (by simp [Insertion.row, domains]) rfl ⟨P _ _ _ ?_, P _ _ _ ?_⟩
        ⟨_, rfl, by simp [Insertion.row]⟩ ?_
      · simp [leftOf, rightOf, Insertion.row, Insertion.allPos, Insertion.pos]
      · simp [leftOf, rightOf, Insertion.row, Insertion.allPos, Insertion.pos]
      · show _ = (0 : Fr); rw [u2.direction]; rfl
    · refine rowRel_leaf_common u3 v3 (by simp [Insertion.row]) rfl (.inl rfl) ⟨rfl, rfl, rfl, rfl⟩
        (fun _ => ⟨rfl, rfl⟩) rfl (dir := true) rfl (d := .AccountFields)
        (by simp [Insertion.row, domains]) rfl ⟨P _ _ _ ?_, P _ _ _ ?_⟩
        ⟨_, rfl, by simp [Insertion.row, Insertion.row3]⟩ ?_
      · simp [leftOf, rightOf, Insertion.row, Insertion.allPos, Insertion.pos]
      · simp [leftOf, rightOf, Insertion.row, Insertion.allPos, Insertion.pos]
      · show _ = (1 : Fr); rw [u3.direction]; rfl
    · refine rowRel_leaf_common_insert u4 v4 (by simp [Insertion.row, Insertion.row3]) rfl (.inr rfl)
        ⟨rfl, rfl, rfl, rfl⟩ (fun h => absurd rfl h) rfl (dir := false) rfl (d := .AccountFields)
        (by simp [Insertion.row, Insertion.row3, domains]) rfl (.inr (.inr (.inr rfl)))
        ⟨P _ _ _ ?_, P _ _ _ ?_⟩ rfl ⟨_, rfl, by simp [Insertion.row, Insertion.row4]⟩ ?_
      · simp [leftOf, rightOf, Insertion.row, Insertion.row3, Insertion.allPos, Insertion.pos]
      · simp [leftOf, rightOf, Insertion.row, Insertion.row3, Insertion.allPos, Insertion.pos]
      · refine ⟨by rw [u4.direction]; rfl, ?_⟩
        unfold KeyWord WordRel
        rw [u4.iv, u4.iv, u4.key, u4.sp, u4.sp, u4.storageKeyRlc]
        refine ⟨bytes_of_rlc Rhi, bytes_of_rlc Rlo, P _ _ _ ?_, Rhi, Rlo, rlc_word ρ l.slot hs⟩
        simp [Insertion.row3, Insertion.row, Insertion.allPos]
    · refine rowRel_leaf_extNew u5 v5 (by simp [Insertion.row, Insertion.row4]) rfl (.inr rfl)
        ⟨rfl, rfl, rfl, rfl⟩ (fun _ => ⟨rfl, rfl⟩) rfl (dir := true) rfl (d := .Leaf)
        (by simp [Insertion.row, Insertion.row4, domains]) rfl
        (by simp [Insertion.row, Insertion.row4]) rfl rfl (P _ _ _ ?_)
        (.inr (by simp [Insertion.row, Insertion.row4])) ?_ ⟨_, rfl, by simp [URow.blank]⟩ ?_
      · simp [leftOf, rightOf, Insertion.row, Insertion.row4, Insertion.allPos, Insertion.pos]
      · intro _
        exact nonexist_old u5 rfl (by simp [Insertion.row, Insertion.row4])
          (by simp [Insertion.row, Insertion.row4]) (.inr ⟨rfl, rfl⟩)
      · refine ⟨by rw [u5.direction]; rfl, fun h => by simp at h, ?_⟩
        rw [u5.iz, u5.iz, u5.oldHash, u5.newHash]
        exact ⟨rfl, rfl, fun h => h0 h.symm, hv⟩)
  exact ⟨hacc.1, hacc.2, demo_exposes_start hacc.1⟩

/-! ## An account creation that overwrites another account -/

def overwriteRow (H : HashFn) (a nonce : ℕ) (k₀ : Fr) (root : Fr) (s : SegmentType) (d : HashDomain)
    (dir : Bool) (sib newHash : Fr) : URow where
  seg := s
  path := .ExtensionNew
  proof := .NonceChanged
  newValue := nonce
  domain := d.toFr
  oldHash := root
  newHash := newHash
  key := addrKey H a
  otherKey := k₀
  direction := bitFr dir
  sibling := sib

/-- The new account: every field but the nonce is 0. -/
def freshLeaf (H : HashFn) (a : ℕ) : Leaf :=
  ⟨addrKey H a, 0, zeroStorageRootKeccakCodehashHash H, 0, 0⟩

def overwriteRow0 (H : HashFn) (a nonce : ℕ) (k₀ d₀ : Fr) : URow :=
  { overwriteRow H a nonce k₀ (H k₀ d₀ HashDomain.Leaf.toFr) .AccountLeaf0 .Leaf true (addrKey H a)
      ((freshLeaf H a).data H nonce) with
    iz := ![0, 0, addrKey H a - k₀, H k₀ d₀ HashDomain.Leaf.toFr]
    iv := ![0, 0, 0, 0, 0, 0, 0, 0, 0, d₀] }

/-- A trie that consists of the leaf `(k₀, d₀)` becomes the single leaf of `a`. -/
def overwriteRun (H : HashFn) (ρ : Fr) (a nonce : ℕ) (k₀ d₀ : Fr) : List URow :=
  [ startRow H ρ .NonceChanged a k₀ 0 (H k₀ d₀ HashDomain.Leaf.toFr) ((freshLeaf H a).hash H nonce) 0
      nonce,
    overwriteRow0 H a nonce k₀ d₀,
    overwriteRow H a nonce k₀ (H k₀ d₀ HashDomain.Leaf.toFr) .AccountLeaf1 .AccountFields false 0
      ((freshLeaf H a).fields H nonce),
    overwriteRow H a nonce k₀ (H k₀ d₀ HashDomain.Leaf.toFr) .AccountLeaf2 .AccountFields false
      (zeroStorageRootKeccakCodehashHash H) ((freshLeaf H a).left H nonce),
    overwriteRow H a nonce k₀ (H k₀ d₀ HashDomain.Leaf.toFr) .AccountLeaf3 .AccountFields false 0
      (nonceCode nonce 0) ]

def overwriteDemo (H : HashFn) (ρ : Fr) (a nonce : ℕ) (k₀ d₀ : Fr) : Assembly :=
  demo H ρ [overwriteRun H ρ a nonce k₀ d₀] (startStrings a ++ [beBytes 8 nonce])
    [H k₀ d₀ HashDomain.Leaf.toFr, (freshLeaf H a).hash H nonce] []
    (startPos a :: (k₀, d₀, HashDomain.Leaf.toFr) :: (freshLeaf H a).pos H nonce)

theorem overwriteDemo_accepted (H : HashFn) (ρ : Fr) {a nonce : ℕ} (ha : a < 2 ^ 160)
    (hn : nonce < 2 ^ 64) {k₀ d₀ : Fr} (hk : addrKey H a ≠ k₀) (h0 : H k₀ d₀ HashDomain.Leaf.toFr ≠ 0) :
    Accepted H 2049 2049 (overwriteDemo H ρ a nonce k₀ d₀).witness ∧
    TablesOK (overwriteDemo H ρ a nonce k₀ d₀).witness 2049 ∧
    Exposes (overwriteDemo H ρ a nonce k₀ d₀).witness 2049 .NonceChanged (a : Fr) 0
      (rootRlc ρ (H k₀ d₀ HashDomain.Leaf.toFr)) (rootRlc ρ ((freshLeaf H a).hash H nonce)) 0 nonce := by
  have hfit : DemoFits [overwriteRun H ρ a nonce k₀ d₀] (startStrings a ++ [beBytes 8 nonce])
      [H k₀ d₀ HashDomain.Leaf.toFr, (freshLeaf H a).hash H nonce] []
      (startPos a :: (k₀, d₀, HashDomain.Leaf.toFr) :: (freshLeaf H a).pos H nonce) := by
    refine ⟨by simp [overwriteRun], ?_, by simp [startStrings, ByteRep.total],
      by simp, by simp, by simp, by simp [Leaf.pos]⟩
    intro s hs
    simp only [startStrings, List.mem_append, List.mem_cons, List.not_mem_nil,
      or_false] at hs
    rcases hs with (rfl | rfl) | rfl <;> refine ⟨isBytes_beBytes _ _, ?_, by simp⟩ <;>
      exact List.ne_nil_of_length_pos (by simp)
  have hacc := hfit.accepted (H := H) (ρ := ρ) (by
    intro run hrun
    rw [List.mem_singleton] at hrun
    subst hrun
    refine ⟨by simp [overwriteRun], ⟨rfl, rfl⟩, ?_⟩
    intro r prev hprev hat
    have P : ∀ l' r' d', (l', r', d') ∈ (startPos a :: (k₀, d₀, HashDomain.Leaf.toFr) ::
        (freshLeaf H a).pos H nonce) → P1 _ 2049 l' r' d' (H l' r' d') :=
      fun l' r' d' hm => hfit.hash (H := H) (ρ := ρ) hm
    simp only [overwriteRun, AtRows, and_true] at hat
    obtain ⟨u0, u1, u2, u3, u4⟩ := hat
    have v1 := u0.shift
    have v2 := u1.shift
    have v3 := u2.shift
    have v4 := u3.shift
    simp only [overwriteRun, RowsOK, and_true, List.headD_cons, List.headD_nil]
    refine ⟨rowRel_startRow hfit ha u0 (fun s hs => List.mem_append_left _ hs) (by simp)
      (by simp) (by simp) (.inr rfl) (.inr rfl) (.inl rfl), ?_, ?_, ?_, ?_⟩
    · refine rowRel_leaf_extNew u1 v1 (by simp [overwriteRow, overwriteRow0]) rfl (.inl rfl)
        ⟨rfl, rfl, rfl, rfl⟩ (fun _ => ⟨rfl, rfl⟩) rfl (dir := true) rfl (d := .Leaf)
        (by simp [overwriteRow, overwriteRow0, domains]) rfl
        (by simp [overwriteRow, overwriteRow0]) rfl rfl (P _ _ _ ?_)
        (.inr (by simp [overwriteRow, overwriteRow0])) ?_ ⟨_, rfl, by simp [overwriteRow]⟩ ?_
      · simp [leftOf, rightOf, overwriteRow, overwriteRow0, freshLeaf, Leaf.pos]
      · intro _
        exact nonexist_old u1 rfl rfl rfl (.inl ⟨hk, h0, P _ _ _ (by
          simp [overwriteRow0, overwriteRow])⟩)
      · refine ⟨by simp, ?_⟩
        show _ = (1 : Fr); rw [u1.direction]; rfl
    · refine rowRel_leaf_extNew u2 v2 (by simp [overwriteRow]) rfl (.inl rfl)
        ⟨rfl, rfl, rfl, rfl⟩ (fun _ => ⟨rfl, rfl⟩) rfl (dir := false) rfl (d := .AccountFields)
        (by simp [overwriteRow, domains]) rfl (by simp [overwriteRow]) rfl rfl (P _ _ _ ?_)
        (.inl rfl) (fun h => by simp [overwriteRow] at h) ⟨_, rfl, by simp [overwriteRow]⟩ ?_
      · simp [leftOf, rightOf, overwriteRow, freshLeaf, Leaf.pos]
      · refine ⟨by simp, by rw [u2.direction]; rfl, fun _ => by rw [u2.sibling]; rfl⟩
    · refine rowRel_leaf_extNew u3 v3 (by simp [overwriteRow]) rfl (.inl rfl)
        ⟨rfl, rfl, rfl, rfl⟩ (fun _ => ⟨rfl, rfl⟩) rfl (dir := false) rfl (d := .AccountFields)
        (by simp [overwriteRow, domains]) rfl (by simp [overwriteRow]) rfl rfl (P _ _ _ ?_)
        (.inl rfl) (fun h => by simp [overwriteRow] at h) ⟨_, rfl, by simp [overwriteRow]⟩ ?_
      · simp [leftOf, rightOf, overwriteRow, freshLeaf, Leaf.pos]
      · refine ⟨by simp, by rw [u3.direction]; rfl, fun _ => by rw [u3.sibling]; rfl⟩
    · refine rowRel_leaf_extNew u4 v4 (by simp [overwriteRow]) rfl (.inr rfl)
        ⟨rfl, rfl, rfl, rfl⟩ (fun h => absurd rfl h) rfl (dir := false) rfl (d := .AccountFields)
        (by simp [overwriteRow, domains]) rfl (by simp [overwriteRow]) rfl rfl (P _ _ _ ?_)
        (.inl rfl) (fun h => by simp [overwriteRow] at h) ⟨_, rfl, by simp [URow.blank]⟩ ?_
      · simp [leftOf, rightOf, overwriteRow, freshLeaf, Leaf.pos]
      · refine ⟨by simp, by rw [u4.direction]; rfl, ?_, fun h => by simp at h, fun _ => ?_⟩
        · rw [u4.newValue]
          have hb := hfit.num (H := H) (ρ := ρ) (k := 7) (x := nonce) (by simp) (by norm_num at hn ⊢; omega)
          rw [show ((7 : ℕ) : Fr) = 7 by norm_num] at hb
          exact bytes_of_rlc hb
        · rw [u4.oldValue, u4.newHash, u4.newValue, u4.sibling]
          refine ⟨rfl, ?_, rfl⟩
          have := nonceCode_size nonce 0
          rw [Nat.cast_zero] at this
          exact this)
  exact ⟨hacc.1, hacc.2, demo_exposes_start hacc.1⟩

end Mpt
