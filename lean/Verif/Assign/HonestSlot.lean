import Verif.Assign.HonestStorage

set_option autoImplicit false

/-!
# Completeness (C35): runs about storage slots
-/

namespace Mpt
open Spec MptUpdate Types Requests Props

variable {H : HashFn} {w : Witness Fr} {U : ℕ}

/-- The slot is not there: an empty node, or the leaf of another key. -/
def AbsentLeaf (H : HashFn) (key : Fr) (l : StorageLeaf) : Prop :=
  l = .Empty key ∨ ∃ k v, l = .Leaf k v ∧ k ≠ key ∧ l.hash H ≠ 0

/-- A proof about a slot of an account `a` whose storage root changes from `so` to `sn`. -/
structure SlotReady (H : HashFn) (leafP : PathType) (p : Proof) (a : AccountData) (so sn : Fr) (sk : ℕ)
    (key : Fr) (rows : List TrieRow) (old new : StorageLeaf) : Prop where
  both : BothReady H p a a so sn
  st : p.storage = .Update sk key rows old new
  bound : sk < 2 ^ 256
  honest : RowsHonest H leafP (so, sn) rows
  last : endHashes (so, sn) rows = (old.hash H, new.hash H)

/-- The last account leaf row of a proof about a slot. -/
def slotRow (ρ key ok : Fr) (sk : ℕ) (akey s3 so sn : Fr) : URow :=
  let v := { leafURow akey akey .Common .AccountLeaf3 s3 so sn false with key := key, otherKey := ok }.withWord
    ρ 0 1 sk
  { v with iv := setFn v.iv 2 HashDomain.AccountFields.toFr }

theorem isLeaf_slotRow (ρ key ok : Fr) (sk : ℕ) (akey s3 so sn : Fr) :
    IsLeaf key ok .Common .AccountLeaf3 .AccountFields s3 so sn false
      (slotRow ρ key ok sk akey s3 so sn) := ⟨rfl, rfl, rfl, rfl, rfl, rfl, rfl, rfl, rfl, rfl⟩

/-- The other key of a storage proof. -/
def slotOther (H : HashFn) (key : Fr) (old new : StorageLeaf) : Fr :=
  if key = old.key H then new.key H else old.key H

/-- The rows of a proof about a slot. -/
theorem body_slot {ρ : Fr} {leafP : PathType} {p : Proof} {a : AccountData} {so sn : Fr} {sk : ℕ}
    {key : Fr} {rows : List TrieRow} {old new : StorageLeaf}
    (hR : SlotReady H leafP p a so sn sk key rows old new)
    (hk : (∃ x y, p.claim.kind = .Storage sk x y) ∨ p.claim.kind = .IsEmpty (some sk))
    {body : List URow} (hb : bodyURows H ρ p = some body) :
    ∃ trie,
      trieURows .AccountTrie (accountKey H p.claim.address) (accountKey H p.claim.address) 0
        p.accountTrieRows = some trie ∧
      storageURows H ρ p.storage (startURow H ρ p (accountKey H p.claim.address) :: trie ++
        [leafRow0 (accountKey H p.claim.address) (accountKey H p.claim.address) p.newTraces.t5.2.1
          (leafURow (accountKey H p.claim.address) (accountKey H p.claim.address) .Common .AccountLeaf0
            (accountKey H p.claim.address) p.oldTraces.t5.2.1 p.newTraces.t5.2.1 true),
        leafURow (accountKey H p.claim.address) (accountKey H p.claim.address) .Common .AccountLeaf1
          p.oldTraces.t4.2.1 p.oldTraces.t4.1 p.newTraces.t4.1 false,
        leafURow (accountKey H p.claim.address) (accountKey H p.claim.address) .Common .AccountLeaf2
          p.oldTraces.t3.1 p.oldTraces.t1.2.2 p.newTraces.t1.2.2 true,
        slotRow ρ key (slotOther H key old new) sk (accountKey H p.claim.address) p.oldTraces.t1.2.1
          so sn]) = some body ∧
      p.oldTraces.t4.2.1 = p.newTraces.t4.2.1 ∧ p.oldTraces.t3.1 = p.newTraces.t3.1 ∧
      p.oldTraces.t1.2.1 = p.newTraces.t1.2.1 := by
  obtain ⟨trie, leaf, dirs, sibs, h2, e1, e2, h4, hb⟩ := body_both hR.both hb
  have x4 : p.oldTraces.t4.2.1 = p.newTraces.t4.2.1 := by
    rw [hR.both.oldTraces, hR.both.newTraces]; rfl
  have x3 : p.oldTraces.t3.1 = p.newTraces.t3.1 := by
    rw [hR.both.oldTraces, hR.both.newTraces]; rfl
  have x1 : p.oldTraces.t1.2.1 = p.newTraces.t1.2.1 := by
    rw [hR.both.oldTraces, hR.both.newTraces]; rfl
  have yo : p.oldTraces.t1.1 = so := by rw [hR.both.oldTraces]; rfl
  have yn : p.newTraces.t1.1 = sn := by rw [hR.both.newTraces]; rfl
  obtain ⟨eo, heo, -⟩ := hR.both.oldAccount
  have hd : leafDirections p.claim.kind.proofType = some [true, false, true, false] := by
    rcases hk with ⟨x, y, hk⟩ | hk <;> rw [hk] <;> rfl
  rw [hd] at e1
  cases e1
  have hs : p.accountLeafSiblings H = some [accountKey H p.claim.address, p.oldTraces.t4.2.1,
      p.oldTraces.t3.1, p.oldTraces.t1.2.1] := by
    unfold Proof.accountLeafSiblings
    rcases hk with ⟨x, y, hk⟩ | hk <;> rw [hk] <;> dsimp only <;> rw [if_pos ⟨x4, x3, x1⟩]
  rw [hs] at e2
  cases e2
  have eo' : p.oldAccountLeafHashes = some [p.oldTraces.t5.2.1, p.oldTraces.t4.1, p.oldTraces.t1.2.2,
      p.oldTraces.t1.1] := by
    unfold Proof.oldAccountLeafHashes
    rcases hk with ⟨x, y, hk⟩ | hk <;> rw [hk, heo] <;> rfl
  have en' : p.newAccountLeafHashes = some [p.newTraces.t5.2.1, p.newTraces.t4.1, p.newTraces.t1.2.2,
      p.newTraces.t1.1] := by
    unfold Proof.newAccountLeafHashes
    rcases hk with ⟨x, y, hk⟩ | hk <;> rw [hk] <;> rfl
  have e3 : leafRow3 H ρ p (leafURow (accountKey H p.claim.address) (accountKey H p.claim.address) .Common
      .AccountLeaf3 p.oldTraces.t1.2.1 so sn false) = some (slotRow ρ key (slotOther H key old new) sk
        (accountKey H p.claim.address) p.oldTraces.t1.2.1 so sn) := by
    have hks : kindSlot p.claim.kind = some sk := by rcases hk with ⟨x, y, hk⟩ | hk <;> rw [hk] <;> rfl
    unfold leafRow3
    rw [hks, hR.st]
    rfl
  have e4 : ∀ u, leafCodeHash ρ p.claim.kind u = u := by
    intro u
    unfold leafCodeHash
    rcases hk with ⟨x, y, hk⟩ | hk <;> rw [hk]
  rw [eo', en', yo, yn] at h4
  simp only [Option.getD_some, leafRowsZip, decorateLeaf, e3, e4, Option.bind_eq_bind, Option.bind_some,
    Option.pure_def, Option.some.injEq] at h4
  subst h4
  exact ⟨trie, h2, hb, x4, x3, x1⟩

/-- The word gadget on the slot. -/
theorem keyWord_slot {ρ : Fr} {key ok akey s3 so sn : Fr} {sk : ℕ} {r : ℤ} {e : URow}
    (he : ∀ i : Fin 10, i = 0 ∨ i = 1 → e.iv i = (slotRow ρ key ok sk akey s3 so sn).iv i ∧
      e.sp i = (slotRow ρ key ok sk akey s3 so sn).sp i) (hkey : e.key = key)
    (hsl : e.storageKeyRlc = rlcFold (u256ToBigEndian sk) ρ)
    (hr : AtRow w r e) (hc : w.chal = ρ) (hx : sk < 2 ^ 256)
    (hP : P1 w U (((u256HiLo sk).1 : ℕ) : Fr) (((u256HiLo sk).2 : ℕ) : Fr) HashDomain.Pair.toFr key)
    (hl : ∀ y ∈ halves sk, InBytes w U ((y : ℕ) : Fr) 15 ∧
      InRlc w U ((y : ℕ) : Fr) 15 (rlcFold (beBytes 16 y) ρ)) : KeyWord w U r := by
  refine wordRel_of (x := sk) hx hc ?_ ?_ ?_ ?_ ?_ ?_ hl
  · rw [hr.iv, (he 0 (.inl rfl)).1]; simp [slotRow, URow.withWord, setFn]
  · rw [hr.iv, (he 1 (.inr rfl)).1]; simp [slotRow, URow.withWord, setFn]
  · rw [hr.sp, (he 0 (.inl rfl)).2]; simp [slotRow, URow.withWord, setFn]
  · rw [hr.sp, (he 1 (.inr rfl)).2]; simp [slotRow, URow.withWord, setFn]
  · rw [hr.storageKeyRlc, hsl]
  · rw [hr.key, hkey]; exact hP

/-! ## Changes of a slot -/

/-- The kinds of change of a slot, with the path type of the leaf row. -/
inductive SlotKind (H : HashFn) (p : Proof) (sk : ℕ) (key : Fr) : PathType → StorageLeaf → StorageLeaf → Prop
  | change (x y : ℕ) (hk : p.claim.kind = .Storage sk (some x) (some y)) (hx : x < 2 ^ 256)
      (hy : y < 2 ^ 256) (hxz : (StorageLeaf.Entry sk x).valueHash H ≠ some (zeroPairHash H))
      (hyz : (StorageLeaf.Entry sk y).valueHash H ≠ some (zeroPairHash H)) :
      SlotKind H p sk key .Common (.Entry sk x) (.Entry sk y)
  | insert (y : ℕ) (old : StorageLeaf) (hk : p.claim.kind = .Storage sk none (some y))
      (hyz : (StorageLeaf.Entry sk y).valueHash H ≠ some (zeroPairHash H))
      (hold : AbsentLeaf H key old) (hoz : old.hash H ≠ zeroPairHash H) :
      SlotKind H p sk key .ExtensionNew old (.Entry sk y)
  | delete (x : ℕ) (new : StorageLeaf) (hk : p.claim.kind = .Storage sk (some x) none)
      (hxz : (StorageLeaf.Entry sk x).valueHash H ≠ some (zeroPairHash H))
      (hnew : AbsentLeaf H key new) (hnz : new.hash H ≠ zeroPairHash H) :
      SlotKind H p sk key .ExtensionOld (.Entry sk x) new

/-- Row relation of the storage leaf row and its other cells. -/
theorem storageLeaf_ok {ρ : Fr} {leafP : PathType} {p : Proof} {a : AccountData} {so sn : Fr} {sk : ℕ}
    {key : Fr} {rows : List TrieRow} {old new : StorageLeaf} (hS : Serves H w U ρ p)
    (hR : SlotReady H leafP p a so sn sk key rows old new)
    (hV : StorageServed H w U sk key (slotOther H key old new) rows old new)
    (hK : SlotKind H p sk key leafP old new) (hkey : key = storageKeyHash H sk)
    {leaf : URow} (hl : storageLeafURow H ρ key (slotOther H key old new) old new leafP = some leaf)
    {prev : URow} (hcp : Claims p.claim.kind.proofType (rlcFold (u256ToBigEndian p.claim.storageKey) ρ)
        (p.claim.oldValueAssignment ρ) (p.claim.newValueAssignment ρ) prev)
    (p1 : prev.oldHash = old.hash H) (p2 : prev.newHash = new.hash H) (p3 : prev.key = key)
    (p4 : prev.otherKey = slotOther H key old new)
    {r : ℤ} (hp : AtRow w (r - 1) prev) (hat : AtRow w r (leaf.withBase ρ p.claim)) :
    RowsOK H w U r prev [leaf.withBase ρ p.claim] := by
  refine ⟨?_, trivial⟩
  show RowRel H w U r (leaf.withBase ρ p.claim).seg .Start prev.path (leaf.withBase ρ p.claim).path
    .Start prev.proof (leaf.withBase ρ p.claim).proof
  have hcl := claims_base ρ p.claim leaf
  have hu : ∀ z ∈ [sk, old.value, new.value], p.claim.storageKey = sk →
      p.claim.kind.proofType = .StorageChanged → ∀ y ∈ halves z, InBytes w U ((y : ℕ) : Fr) 15 ∧
        InRlc w U ((y : ℕ) : Fr) 15 (rlcFold (beBytes 16 y) ρ) := by
    intro z hz hs ht y hy
    obtain ⟨l, hl1, hl2⟩ := hS.u128
    unfold proofU128s at hl1
    rw [ht, hR.st, hs] at hl1
    cases hl1
    refine hl2 y (List.mem_cons_of_mem _ ?_)
    simp only [List.mem_cons, List.not_mem_nil, or_false] at hz
    rcases hz with rfl | rfl | rfl
    · exact List.mem_append_left _ (List.mem_append_left _ hy)
    · exact List.mem_append_left _ (List.mem_append_right _ hy)
    · exact List.mem_append_right _ hy
  cases hK with
  | change x y hk hx hy hxz hyz =>
    cases hl
    have ho : slotOther H key (.Entry sk x) (.Entry sk y) = key := by
      unfold slotOther; rw [if_pos (by exact hkey)]; exact hkey.symm
    have hpt : p.claim.kind.proofType = .StorageChanged := by rw [hk]; rfl
    have hsk : p.claim.storageKey = sk := by unfold Claim.storageKey; rw [hk]
    refine rowRel_leaf_common hat hp (by simp [URow.withBase, storageURow, entryWord, URow.withWord]) rfl
      (.inr rfl) (hcp.same hcl) (fun _ => ⟨by rw [p3]; rfl, by rw [p4]; rfl⟩) rfl (dir := true) rfl
      (d := .Leaf) (by simp [URow.withBase, storageURow, entryWord, URow.withWord, domains]) rfl ?_ ?_ ?_
    · refine ⟨?_, ?_⟩
      · rw [p1]
        exact hV.old _ (List.mem_cons_of_mem _ List.mem_cons_self)
      · rw [p2]
        have := hV.new _ (List.mem_cons_of_mem _ List.mem_cons_self)
        exact this
    · refine ⟨_, by rw [hcl.proof, hpt]; rfl, by simp⟩
    · rw [hcl.proof, hpt]
      refine ⟨?_, fun _ => ⟨?_, ?_⟩, ?_, ?_, ?_, ?_⟩
      · rw [hat.direction]; rfl
      · refine wordRel_of (x := x) hx hS.chal ?_ ?_ ?_ ?_ ?_ ?_ (hu x (by simp [StorageLeaf.value]) hsk hpt)
        · rw [hat.iv]; simp [URow.withBase, storageURow, entryWord, URow.withWord, setFn]
        · rw [hat.iv]; simp [URow.withBase, storageURow, entryWord, URow.withWord, setFn]
        · rw [hat.sp]; simp [URow.withBase, storageURow, entryWord, URow.withWord, setFn]
        · rw [hat.sp]; simp [URow.withBase, storageURow, entryWord, URow.withWord, setFn]
        · rw [hat.oldValue, hcl.old]; unfold Claim.oldValueAssignment; rw [hk]; rfl
        · rw [hat.oldHash]
          exact hV.old _ List.mem_cons_self
      · refine wordRel_of (x := y) hy hS.chal ?_ ?_ ?_ ?_ ?_ ?_ (hu y (by simp [StorageLeaf.value]) hsk hpt)
        · rw [hat.iv]; simp [URow.withBase, storageURow, entryWord, URow.withWord, setFn]
        · rw [hat.iv]; simp [URow.withBase, storageURow, entryWord, URow.withWord, setFn]
        · rw [hat.sp]; simp [URow.withBase, storageURow, entryWord, URow.withWord, setFn]
        · rw [hat.sp]; simp [URow.withBase, storageURow, entryWord, URow.withWord, setFn]
        · rw [hat.newValue, hcl.new]; unfold Claim.newValueAssignment; rw [hk]; rfl
        · rw [hat.newHash]
          exact hV.new _ List.mem_cons_self
      · rw [hat.iz, hat.oldHash]
        simp [URow.withBase, storageURow, entryWord, URow.withWord, setFn]
      · rw [hat.iz, hat.newHash]
        simp [URow.withBase, storageURow, entryWord, URow.withWord, setFn]
      · rw [hat.oldHash]; exact fun h => hxz (congrArg some h)
      · rw [hat.newHash]; exact fun h => hyz (congrArg some h)
  | insert y old hk hyz hold hoz =>
    have hpt : p.claim.kind.proofType = .StorageChanged := by rw [hk]; rfl
    have hov : p.claim.oldValueAssignment ρ = 0 := by
      unfold Claim.oldValueAssignment; rw [hk]; exact rlcFold_zero 32 ρ
    -- the row
    obtain ⟨data, hleaf, habs⟩ : ∃ data : Fr, (leaf.seg = .StorageLeaf0 ∧ leaf.path = .ExtensionNew ∧
        leaf.domain = HashDomain.Leaf.toFr ∧ leaf.sibling = key ∧ leaf.oldHash = old.hash H ∧
        some leaf.newHash = (StorageLeaf.Entry sk y).valueHash H ∧ leaf.direction = bitFr true ∧
        leaf.depth = 0 ∧ leaf.key = key ∧
        leaf.otherKey = slotOther H key old (.Entry sk y) ∧ leaf.iz 0 = leaf.oldHash - zeroPairHash H ∧
        leaf.iz 1 = leaf.newHash - zeroPairHash H ∧
        leaf.iz 2 = key - slotOther H key old (.Entry sk y) ∧ leaf.iz 3 = old.hash H ∧
        leaf.iv 9 = data) ∧
        ((key ≠ slotOther H key old (.Entry sk y) ∧ old.hash H ≠ 0 ∧
          P1 w U (slotOther H key old (.Entry sk y)) data HashDomain.Leaf.toFr (old.hash H)) ∨
        (key = slotOther H key old (.Entry sk y) ∧ old.hash H = 0)) := by
      rcases hold with rfl | ⟨k, v, rfl, hne, h0⟩
      · have ho : slotOther H key (.Empty key) (.Entry sk y) = key := by
          unfold slotOther; rw [if_pos (by rfl)]; exact hkey.symm
        have hk' : storageKeyHash H sk = key := hkey.symm
        simp only [storageLeafURow, StorageLeaf.valueHash, storageExt, StorageLeaf.key, hk',
          ne_eq, not_true_eq_false, if_false, Option.bind_eq_bind, Option.bind_some,
          Option.some.injEq] at hl
        subst hl
        refine ⟨_, ⟨rfl, rfl, rfl, rfl, rfl, rfl, rfl, rfl, rfl, rfl, ?_, ?_, ?_, ?_, rfl⟩,
          .inr ⟨ho.symm, rfl⟩⟩ <;>
          simp [storageURow, entryWord, URow.withWord, setFn, ho]
      · have ho : slotOther H key (.Leaf k v) (.Entry sk y) = k := by
          unfold slotOther; rw [if_neg (fun h => hne h.symm)]; rfl
        have hne' : ¬ key = k := fun h => hne h.symm
        simp only [storageLeafURow, StorageLeaf.valueHash, storageExt, StorageLeaf.key,
          ne_eq, hne', not_false_eq_true, if_true, Option.bind_eq_bind, Option.bind_some,
          Option.map_some, Option.some.injEq] at hl
        subst hl
        refine ⟨v, ⟨rfl, rfl, rfl, hkey.symm, rfl, rfl, rfl, rfl, rfl, rfl, ?_, ?_, ?_, ?_, ?_⟩,
          .inl ⟨?_, h0, ?_⟩⟩
        · simp [storageURow, entryWord, URow.withWord, setFn]
        · simp [storageURow, entryWord, URow.withWord, setFn]
        · simp [setFn, ho]
        · simp [setFn]
        · simp [setFn]
        · rw [ho]; exact hne'
        · rw [ho]; exact hV.old _ List.mem_cons_self
    clear hl
    obtain ⟨z1, z2, z3, z4, z5, z6, z7, z8, z9, z10, z11, z12, z13, z14, z15⟩ := hleaf
    have hnode : P1 w U key leaf.newHash HashDomain.Leaf.toFr ((StorageLeaf.Entry sk y).hash H) := by
      have := hV.new _ (List.mem_cons_of_mem _ List.mem_cons_self)
      rw [← z6] at this
      rw [hkey]; exact this
    have c1 : (leaf.withBase ρ p.claim).seg = .StorageLeaf0 := z1
    have c2 : (leaf.withBase ρ p.claim).path = .ExtensionNew := z2
    refine rowRel_leaf_extNew hat hp (by rw [c1]; simp) c2 (.inr rfl) (hcp.same hcl)
      (fun _ => ⟨by rw [p3]; exact z9, by rw [p4]; exact z10⟩) z8 z7 (d := .Leaf)
      (by rw [c1]; simp [domains]) z3 (by rw [hcl.proof, hpt]; simp) (by rw [hcl.old, hov])
      (by rw [p1]; exact z5) ?_ (.inr (by rw [c1]; simp)) (fun _ => ?_) ?_ ?_
    · rw [p2]
      show P1 w U leaf.sibling leaf.newHash _ _
      rw [z4]; exact hnode
    · refine nonexist_old hat (by rw [hcl.old, hov]) ?_ ?_ ?_
      · show leaf.iz 2 = leaf.key - leaf.otherKey
        rw [z13, z9, z10]
      · show leaf.iz 3 = leaf.oldHash
        rw [z14, z5]
      · show (leaf.key ≠ leaf.otherKey ∧ leaf.oldHash ≠ 0 ∧ P1 w U leaf.otherKey (leaf.iv 9) _ leaf.oldHash) ∨
          (leaf.key = leaf.otherKey ∧ leaf.oldHash = 0)
        rw [z9, z10, z5, z15]; exact habs
    · rw [hcl.proof, hpt, c1]; exact ⟨_, rfl, by simp⟩
    · rw [hcl.proof, hpt, c1]
      refine ⟨by rw [hat.direction]; exact z7, fun h => by (cases h), ?_, ?_, ?_, ?_⟩
      · rw [hat.iz, hat.oldHash]; exact z11
      · rw [hat.iz, hat.newHash]; exact z12
      · rw [hat.oldHash]
        show leaf.oldHash ≠ _
        rw [z5]; exact hoz
      · rw [hat.newHash]
        show leaf.newHash ≠ _
        exact fun h => hyz (by rw [← z6, h])
  | delete x new hk hxz hnew hnz =>
    have hpt : p.claim.kind.proofType = .StorageChanged := by rw [hk]; rfl
    have hnv : p.claim.newValueAssignment ρ = 0 := by
      unfold Claim.newValueAssignment; rw [hk]; exact rlcFold_zero 32 ρ
    have ho : slotOther H key (.Entry sk x) new = new.key H := by
      unfold slotOther; rw [if_pos (by exact hkey)]
    obtain ⟨data, hleaf, habs⟩ : ∃ data : Fr, (leaf.seg = .StorageLeaf0 ∧ leaf.path = .ExtensionOld ∧
        leaf.domain = HashDomain.Leaf.toFr ∧ leaf.sibling = key ∧ leaf.newHash = new.hash H ∧
        some leaf.oldHash = (StorageLeaf.Entry sk x).valueHash H ∧ leaf.direction = bitFr true ∧
        leaf.depth = 0 ∧ leaf.key = key ∧
        leaf.otherKey = slotOther H key (.Entry sk x) new ∧ leaf.iz 0 = leaf.oldHash - zeroPairHash H ∧
        leaf.iz 1 = leaf.newHash - zeroPairHash H ∧
        leaf.iz 2 = key - slotOther H key (.Entry sk x) new ∧ leaf.iz 3 = new.hash H ∧
        leaf.iv 9 = data) ∧
        ((key ≠ slotOther H key (.Entry sk x) new ∧ new.hash H ≠ 0 ∧
          P1 w U (slotOther H key (.Entry sk x) new) data HashDomain.Leaf.toFr (new.hash H)) ∨
        (key = slotOther H key (.Entry sk x) new ∧ new.hash H = 0)) := by
      rw [ho] at hl ⊢
      rcases hnew with rfl | ⟨k, v, rfl, hne, h0⟩
      · have hk' : storageKeyHash H sk = key := hkey.symm
        simp only [storageLeafURow, StorageLeaf.valueHash, storageExt, StorageLeaf.key, hk',
          ne_eq, not_true_eq_false, if_false, Option.bind_eq_bind, Option.bind_some,
          Option.some.injEq] at hl
        subst hl
        refine ⟨_, ⟨rfl, rfl, rfl, rfl, rfl, rfl, rfl, rfl, rfl, rfl, ?_, ?_, ?_, ?_, rfl⟩,
          .inr ⟨rfl, rfl⟩⟩ <;>
          simp [storageURow, entryWord, URow.withWord, setFn, StorageLeaf.key]
      · have hne' : ¬ key = k := fun h => hne h.symm
        simp only [storageLeafURow, StorageLeaf.valueHash, storageExt, StorageLeaf.key,
          ne_eq, hne', not_false_eq_true, if_true, Option.bind_eq_bind, Option.bind_some,
          Option.map_some, Option.some.injEq] at hl
        subst hl
        refine ⟨v, ⟨rfl, rfl, rfl, hkey.symm, rfl, rfl, rfl, rfl, rfl, rfl, ?_, ?_, ?_, ?_, ?_⟩,
          .inl ⟨hne', h0, ?_⟩⟩
        · simp [storageURow, entryWord, URow.withWord, setFn]
        · simp [storageURow, entryWord, URow.withWord, setFn]
        · simp [setFn, StorageLeaf.key]
        · simp [setFn]
        · simp [setFn]
        · exact hV.new _ List.mem_cons_self
    clear hl
    obtain ⟨z1, z2, z3, z4, z5, z6, z7, z8, z9, z10, z11, z12, z13, z14, z15⟩ := hleaf
    have hnode : P1 w U key leaf.oldHash HashDomain.Leaf.toFr ((StorageLeaf.Entry sk x).hash H) := by
      have := hV.old _ (List.mem_cons_of_mem _ List.mem_cons_self)
      rw [← z6] at this
      rw [hkey]; exact this
    have c1 : (leaf.withBase ρ p.claim).seg = .StorageLeaf0 := z1
    have c2 : (leaf.withBase ρ p.claim).path = .ExtensionOld := z2
    refine rowRel_leaf_extOld hat hp c1 c2 (hcp.same hcl) ⟨by rw [p3]; exact z9, by rw [p4]; exact z10⟩
      z8 z7 z3 (by rw [hcl.proof, hpt]) (by rw [hcl.new, hnv]) (by rw [p2]; exact z5) ?_ ?_ ?_
    · rw [p1]
      show P1 w U leaf.sibling leaf.oldHash _ _
      rw [z4]; exact hnode
    · refine nonexist_new hat (by rw [hcl.new, hnv]) ?_ ?_ ?_
      · show leaf.iz 2 = leaf.key - leaf.otherKey
        rw [z13, z9, z10]
      · show leaf.iz 3 = leaf.newHash
        rw [z14, z5]
      · show (leaf.key ≠ leaf.otherKey ∧ leaf.newHash ≠ 0 ∧ P1 w U leaf.otherKey (leaf.iv 9) _ leaf.newHash) ∨
          (leaf.key = leaf.otherKey ∧ leaf.newHash = 0)
        rw [z9, z10, z5, z15]; exact habs
    · refine ⟨by rw [hat.direction]; exact z7, fun h => by (cases h), ?_, ?_, ?_, ?_⟩
      · rw [hat.iz, hat.oldHash]; exact z11
      · rw [hat.iz, hat.newHash]; exact z12
      · rw [hat.oldHash]
        show leaf.oldHash ≠ _
        exact fun h => hxz (by rw [← z6, h])
      · rw [hat.newHash]
        show leaf.newHash ≠ _
        rw [z5]; exact hnz

end Mpt
